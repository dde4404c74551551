import Verif.Spec.Layout

/-!
# Positions at which a SELECT can be embedded in another statement
-/

namespace Verif.Spec

mutual

/-- The SELECT occurs in the expression. -/
inductive InE (s : SelectStmt) : Expr → Prop
  | here : InE s (.select s)
  | arrayList {l e} : e ∈ l → InE s e → InE s (.arrayList l)
  | array {l e} : e ∈ l → InE s e → InE s (.array l)
  | wrapper {e} : InE s e → InE s (.wrapper e)
  | call {f l e} : e ∈ l → InE s e → InE s (.call f l)
  | infxL {l op r} : InE s l → InE s (.infx l op r)
  | infxR {l op r} : InE s r → InE s (.infx l op r)
  | inxE {e op v} : InE s e → InE s (.inx e op v)
  | inxV {e op v} : InE s v → blank v = false → InE s (.inx e op v)
  | betweenLo {i op lo and hi} : InE s lo → InE s (.between i op lo and hi)
  | betweenHi {i op lo and hi} : InE s hi → InE s (.between i op lo and hi)
  | exist {e} : InE s e → InE s (.exist e)
  | notExist {e} : InE s e → InE s (.notExist e)
  | select {t} : InS s t → InE s (.select t)
  | infixOnL {l op r} : InE s l → InE s (.infixOn l op r)
  | infixOnR {l op r} : InE s r → InE s (.infixOn l op r)

/-- The SELECT occurs in a column expression. -/
inductive InSel (s : SelectStmt) : SelExpr → Prop
  | exist {e} : InE s e → InSel s (.exist e)
  | notExist {e} : InE s e → InSel s (.notExist e)

/-- The SELECT occurs in a (larger) SELECT. -/
inductive InS (s : SelectStmt) : SelectStmt → Prop
  | withs {t w} : w ∈ t.withs → w.name ≠ [] → blank w.subquery = false → InE s w.subquery → InS s t
  | exprs {t e} : e ∈ t.exprs → InSel s e → InS s t
  | joins {t j} : j ∈ t.joins → InE s j.cond → InS s t
  | whr {t} : InE s t.whr → blank t.whr = false → InS s t
  | having {t} : InE s t.having → blank t.having = false → InS s t

end

section
variable [GoRuntime]

/-- The SELECT occurs in SET pairs. -/
inductive InSet (s : SelectStmt) : PairContainer → Prop
  | assoc {p c e} : p.mode = .associative → (c, e) ∈ assignments p → InE s e → InSet s p
  | array {p e} : p.mode = .array → e ∈ p.expressions → InE s e → InSet s p

/-- The SELECT occurs in a statement. -/
inductive InStmt (s : SelectStmt) : Stmt → Prop
  | select {t} : InE s (.select t) → InStmt s (.select t)
  | insertValues {i} : InE s i.values → blank i.values = false → InStmt s (.insert i)
  | insertConflict {i p} : i.action = .update p → actionBlank i.action = false → InSet s p →
      InStmt s (.insert i)
  | insertReturning {i e} : e ∈ i.returning → InSel s e → InStmt s (.insert i)
  | updateWith {u w} : w ∈ u.withs → w.name ≠ [] → blank w.subquery = false → InE s w.subquery →
      InStmt s (.update u)
  | updateSet {u} : InSet s u.set → InStmt s (.update u)
  | updateWhere {u} : InE s u.whr → blank u.whr = false → InStmt s (.update u)
  | updateReturning {u e} : e ∈ u.returning → InSel s e → InStmt s (.update u)
  | deleteWhere {d} : InE s d.whr → blank d.whr = false → InStmt s (.delete d)
  | deleteReturning {d e} : e ∈ d.returning → InSel s e → InStmt s (.delete d)

end

end Verif.Spec
