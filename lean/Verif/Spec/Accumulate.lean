import Verif.Spec.Argument
import Verif.Spec.Calls
import Verif.Spec.Clauses
import Verif.Spec.Pairs

/-!
# Clauses that accumulate: JOIN, ORDER BY and WITH
-/

namespace Verif.Spec

/-- The table given to `Join`: a name, or a table. -/
def JoinTable : Any → Table → Prop
  | .val (.str s), t => t = { name := s }
  | .table t, t' => t' = t
  | _, _ => False

/-- The condition given to `Join`: an On clause or a combination of On clauses, which says nothing
about the type of join, or a text, which is parsed (C41) and may name a type. -/
def JoinCond : Any → Str → Expr → Prop
  | .expr (.onClause l r), type, cond => type = s%"INNER JOIN" ∧ cond = .onClause l r
  | .expr (.infixOn l op r), type, cond => type = s%"INNER JOIN" ∧ cond = .infixOn l op r
  | .val (.str s), type, cond => ∃ table, parseJoin s = .ok (some ⟨type, table, cond⟩)
  | _, _, _ => False

/-- The join asked for by the arguments of a call of `Join`. -/
inductive JoinArgs : List Any → Join → Prop where
  | text {s : Str} {j : Join} : parseJoin s = .ok (some j) → JoinArgs [.val (.str s)] j
  | join (j : Join) : JoinArgs [.join j] j
  | two {a0 a1 : Any} {type : Str} {table : Table} {cond : Expr} : JoinTable a0 table →
      JoinCond a1 type cond → JoinArgs [a0, a1] ⟨type, table, cond⟩
  | three {a0 a1 : Any} {type' type : Str} {table : Table} {cond : Expr} : JoinTable a0 table →
      JoinCond a1 type' cond → JoinArgs [a0, a1, .joinType type] ⟨type, table, cond⟩

/-- A join with a type, a table and a condition. -/
def JoinComplete (j : Join) : Prop :=
  j.type ≠ [] ∧ j.table.name ≠ [] ∧ j.cond.isEmpty = .ok false

/-- `TYPE table ON condition` -/
def JoinText [GoRuntime] (j : Join) (x : Str) : Prop :=
  ∃ table cond, j.table.write.string = .ok table ∧ j.cond.write.string = .ok cond ∧
    x = j.type ++ s%" " ++ table ++ s%" ON " ++ cond

/-- `expression TYPE`, nothing for an empty expression. -/
def OrderText (o : Order) (x : Str) : Prop :=
  (o.expression ≠ [] → x = o.expression ++ s%" " ++ o.type) ∧ (o.expression = [] → x = [])

/-- `name AS (query)`, nothing if the name or the query is empty. -/
def WithText [GoRuntime] (w : WithQuery) (x : Str) : Prop :=
  (w.name ≠ [] → blank w.subquery = false → ∃ q, w.subquery.write.string = .ok q ∧
    x = w.name ++ s%" AS (" ++ q ++ s%")") ∧
  (w.name = [] ∨ blank w.subquery = true → x = [])

/-- The arguments of the calls of `Join`, in order. -/
def joinCalls : List SelCall → List (List Any)
  | [] => []
  | .join args :: l => args :: joinCalls l
  | _ :: l => joinCalls l

/-- The arguments of the calls of `OrderBy`, in order. -/
def orderCalls : List SelCall → List Order
  | [] => []
  | .orderBy os :: l => os ++ orderCalls l
  | _ :: l => orderCalls l

/-- The arguments of the calls of `With`, in order. -/
def withCalls : List SelCall → List WithQuery
  | [] => []
  | .with ws :: l => ws ++ withCalls l
  | _ :: l => withCalls l

/-- The arguments of the calls of `With` on an UPDATE, in order. -/
def updWithCalls : List UpdCall → List WithQuery
  | [] => []
  | .with ws :: l => ws ++ updWithCalls l
  | _ :: l => updWithCalls l

end Verif.Spec
