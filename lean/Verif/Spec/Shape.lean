import Verif.Spec.Sql

/-!
# SQL statements up to the values in them

Nothing here refers to the model, except for the type of argument values.
-/

namespace Verif.Spec

mutual

/-- Apply `f` to every value of an expression. -/
def Sql.mapValues (f : Val → Val) : Sql → Sql
  | .ref r => .ref r
  | .star => .star
  | .null => .null
  | .value v => .value (f v)
  | .binary op l r => .binary op (l.mapValues f) (r.mapValues f)
  | .not e => .not (e.mapValues f)
  | .isIn negated e set => .isIn negated (e.mapValues f) (set.mapValues f)
  | .between negated e lo hi => .between negated (e.mapValues f) (lo.mapValues f) (hi.mapValues f)
  | .exist q => .exist (q.mapValues f)
  | .list es => .list (Sql.mapAll f es)
  | .call g distinct args => .call g distinct (Sql.mapAll f args)
  | .query q => .query (q.mapValues f)

/-- Apply `f` to every value of the expressions. -/
def Sql.mapAll (f : Val → Val) : List Sql → List Sql
  | [] => []
  | e :: l => e.mapValues f :: Sql.mapAll f l

/-- Apply `f` to every value of the entry of a column list. -/
def SqlItem.mapValues (f : Val → Val) : SqlItem → SqlItem
  | .mk e alias => .mk (e.mapValues f) alias

/-- Apply `f` to every value of a column list. -/
def SqlItem.mapAll (f : Val → Val) : List SqlItem → List SqlItem
  | [] => []
  | e :: l => e.mapValues f :: SqlItem.mapAll f l

/-- Apply `f` to every value of the joins. -/
def SqlJoin.mapAll (f : Val → Val) : List SqlJoin → List SqlJoin
  | [] => []
  | .mk kind table cond :: l => .mk kind table (cond.mapValues f) :: SqlJoin.mapAll f l

/-- Apply `f` to every value of the common table expressions. -/
def SqlWith.mapAll (f : Val → Val) : List SqlWith → List SqlWith
  | [] => []
  | .mk name q :: l => .mk name (q.mapValues f) :: SqlWith.mapAll f l

/-- Apply `f` to every value of a condition, if there is one. -/
def Sql.mapOption (f : Val → Val) : Option Sql → Option Sql
  | none => none
  | some e => some (e.mapValues f)

/-- Apply `f` to every value of a query. -/
def SqlSelect.mapValues (f : Val → Val) : SqlSelect → SqlSelect
  | .mk withs distinct items tables joins whr groupBy having orderBy limit offset =>
    .mk (SqlWith.mapAll f withs) distinct (SqlItem.mapAll f items) tables (SqlJoin.mapAll f joins)
      (Sql.mapOption f whr) groupBy (Sql.mapOption f having) orderBy limit offset

end

/-- Apply `f` to every value of a SET clause. -/
def SqlSet.mapValues (f : Val → Val) : SqlSet → SqlSet
  | .pairs l => .pairs (l.map fun ce => (ce.1, ce.2.mapValues f))
  | .columns l e => .columns l (e.mapValues f)

/-- Apply `f` to every value of the action of ON CONFLICT. -/
def SqlAction.mapValues (f : Val → Val) : SqlAction → SqlAction
  | .nothing => .nothing
  | .update set => .update (set.mapValues f)

/-- Apply `f` to every value of a statement. -/
def SqlStmt.mapValues (f : Val → Val) : SqlStmt → SqlStmt
  | .select q => .select (q.mapValues f)
  | .insert into columns rows conflict returning =>
    .insert into columns (rows.map (Sql.mapAll f)) (conflict.map fun c => (c.1, c.2.mapValues f))
      (SqlItem.mapAll f returning)
  | .update withs table set tables whr returning =>
    .update (SqlWith.mapAll f withs) table (set.mapValues f) tables (Sql.mapOption f whr)
      (SqlItem.mapAll f returning)
  | .delete tables usings whr returning =>
    .delete tables usings (Sql.mapOption f whr) (SqlItem.mapAll f returning)

/-- The two statements are the same except for the values in them. -/
def SqlStmt.SameShape (m m' : SqlStmt) : Prop :=
  m.mapValues (fun _ => .nil) = m'.mapValues fun _ => .nil

end Verif.Spec
