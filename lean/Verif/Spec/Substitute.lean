import Verif.Model.SetPairs

/-!
# Replacing the values of a statement
-/

namespace Verif.Spec

mutual

/-- Apply `f` to every value of an expression. -/
def mapE (f : Val → Val) : Expr → Expr
  | .nil => .nil
  | .ident i => .ident i
  | .value v => .value (f v)
  | .arrayList l => .arrayList (mapEs f l)
  | .array l => .array (mapEs f l)
  | .raw s => .raw s
  | .wrapper e => .wrapper (mapE f e)
  | .call g args => .call g (mapEs f args)
  | .infx l op r => .infx (mapE f l) op (mapE f r)
  | .inx e op v => .inx (mapE f e) op (mapE f v)
  | .between i op lo and hi => .between i op (mapE f lo) and (mapE f hi)
  | .exist e => .exist (mapE f e)
  | .notExist e => .notExist (mapE f e)
  | .select s => .select (mapS f s)
  | .onClause l r => .onClause l r
  | .infixOn l op r => .infixOn (mapE f l) op (mapE f r)

/-- Apply `f` to every value of the expressions. -/
def mapEs (f : Val → Val) : List Expr → List Expr
  | [] => []
  | e :: l => mapE f e :: mapEs f l

/-- Apply `f` to every value of a column expression. -/
def mapSel (f : Val → Val) : SelExpr → SelExpr
  | .nil => .nil
  | .column c => .column c
  | .raw s => .raw s
  | .count v d a => .count v d a
  | .max v a => .max v a
  | .min v a => .min v a
  | .sum v a => .sum v a
  | .exist e => .exist (mapE f e)
  | .notExist e => .notExist (mapE f e)

/-- Apply `f` to every value of the column expressions. -/
def mapSels (f : Val → Val) : List SelExpr → List SelExpr
  | [] => []
  | e :: l => mapSel f e :: mapSels f l

/-- Apply `f` to every value of the joins. -/
def mapJoins (f : Val → Val) : List Join → List Join
  | [] => []
  | ⟨type, table, cond⟩ :: l => ⟨type, table, mapE f cond⟩ :: mapJoins f l

/-- Apply `f` to every value of the common table expressions. -/
def mapWiths (f : Val → Val) : List WithQuery → List WithQuery
  | [] => []
  | ⟨name, sub⟩ :: l => ⟨name, mapE f sub⟩ :: mapWiths f l

/-- Apply `f` to every value of a SELECT. -/
def mapS (f : Val → Val) : SelectStmt → SelectStmt
  | ⟨pfx, withs, distinct, distinctOn, exprs, tables, joins, whr, groupBy, having, orderBy,
      limit, offset, sfx, comment⟩ =>
    ⟨pfx, mapWiths f withs, distinct, distinctOn, mapSels f exprs, tables, mapJoins f joins,
      mapE f whr, groupBy, mapE f having, orderBy, limit, offset, sfx, comment⟩

end

/-- Apply `f` to every value of SET pairs. -/
def mapPairs (f : Val → Val) (p : PairContainer) : PairContainer :=
  { p with map := p.map.map (fun ce => (ce.1, mapE f ce.2)), expressions := mapEs f p.expressions }

/-- Apply `f` to every value of a conflict action. -/
def mapAction (f : Val → Val) : ConflictAction → ConflictAction
  | .nil => .nil
  | .nothing => .nothing
  | .update set => .update (mapPairs f set)

/-- Apply `f` to every value of a statement. -/
def mapStmt (f : Val → Val) : Stmt → Stmt
  | .select s => .select (mapS f s)
  | .insert i =>
    .insert { i with
      values := mapE f i.values
      action := mapAction f i.action
      returning := mapSels f i.returning }
  | .update u =>
    .update { u with
      withs := mapWiths f u.withs
      set := mapPairs f u.set
      whr := mapE f u.whr
      returning := mapSels f u.returning }
  | .delete d =>
    .delete { d with
      whr := mapE f d.whr
      returning := mapSels f d.returning }

/-- Forget everything about a value except whether it is nil. -/
def forget : Val → Val
  | .nil => .nil
  | _ => .bool true

/-- Two statements are the same up to the values bound in them. -/
def SameUpToValues (s s' : Stmt) : Prop := mapStmt forget s = mapStmt forget s'

end Verif.Spec
