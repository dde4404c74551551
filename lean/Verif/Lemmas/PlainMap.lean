import Verif.Spec.Meaning
import Verif.Lemmas.Substitute
import Verif.Spec.Scan

/-!
# Whether a statement is plain does not depend on its values
-/

set_option linter.unusedSectionVars false

namespace Verif
open Spec

section
variable [GoRuntime] {f : Val → Val}

theorem mapEs_isEmpty (l : List Expr) : (mapEs f l).isEmpty = l.isEmpty := by cases l <;> rfl

/-- A query. -/
def Expr.isSelect : Expr → Bool
  | .select _ => true
  | _ => false

/-- The query that is the only element of a list. -/
def onlySelect : List Expr → Option SelectStmt
  | [.select s] => some s
  | _ => none

theorem isSelect_map (e : Expr) : (mapE f e).isSelect = e.isSelect := by cases e <;> rfl

theorem plainExpr_wrapper_ne {e : Expr} {loose : Bool} (h : e.isSelect = false) :
    plainExpr loose (.wrapper e) = plainExpr true e := by
  rw [plainExpr]
  rintro s rfl
  cases h

theorem onlySelect_some {l : List Expr} {s : SelectStmt} (h : onlySelect l = some s) :
    l = [.select s] := by
  unfold onlySelect at h
  split at h
  · cases h; rfl
  · cases h

theorem onlySelect_map {l : List Expr} (h : onlySelect l = none) : onlySelect (mapEs f l) = none := by
  match l with
  | [] => rfl
  | [x] =>
    cases x
    case select s => cases h
    all_goals rfl
  | x :: y :: l =>
    rw [mapEs, mapEs]
    cases x <;> rfl

theorem plainExpr_inx_ne {e : Expr} {op : Str} {l : List Expr} {loose : Bool}
    (h : onlySelect l = none) :
    plainExpr loose (.inx e op (.array l)) =
      ((op = s%"IN" || op = s%"NOT IN") && plainExpr false e && (!l.isEmpty && plainExprs l)) := by
  rw [plainExpr]
  rintro s rfl
  cases h

theorem plainSet_ne {l : List Expr} (h : onlySelect l = none) :
    plainSet l = (!l.isEmpty && plainExprs l) := by
  rw [plainSet]
  rintro s rfl
  cases h

mutual

theorem plainExpr_map (e : Expr) (loose : Bool) : plainExpr loose (mapE f e) = plainExpr loose e := by
  match e with
  | .nil => rfl
  | .ident i => rfl
  | .value v => rfl
  | .arrayList l => rfl
  | .array l => rfl
  | .raw s => rfl
  | .wrapper e =>
    have ih := plainExpr_map e
    cases hs : e.isSelect with
    | true =>
      cases e
      case select s =>
        have := plainSelect_map s
        simp only [mapE, plainExpr, this]
      all_goals cases hs
    | false =>
      rw [mapE, plainExpr_wrapper_ne hs, plainExpr_wrapper_ne (by rw [isSelect_map, hs]), ih]
  | .call g args => simp only [mapE, plainExpr, (plainExprs_map' args).1]
  | .infx l op r => simp only [mapE, plainExpr, plainExpr_map l, plainExpr_map r]
  | .inx e op v =>
    have ihe := plainExpr_map e
    cases v
    case array l =>
      have hl := plainExprs_map' l
      cases hs : onlySelect l with
      | some s =>
        have := hl.2 s (onlySelect_some hs)
        rw [onlySelect_some hs]
        simp only [mapE, mapEs, plainExpr, ihe, this]
      | none =>
        rw [mapE, mapE, plainExpr_inx_ne hs, plainExpr_inx_ne (onlySelect_map hs), ihe, hl.1,
          mapEs_isEmpty]
    all_goals simp only [mapE, plainExpr, ihe]
  | .between i op lo and hi => simp only [mapE, plainExpr, plainExpr_map lo, plainExpr_map hi]
  | .exist e =>
    cases e
    case select s => simp only [mapE, plainExpr, plainSelect_map s]
    all_goals rfl
  | .notExist e =>
    cases e
    case select s => simp only [mapE, plainExpr, plainSelect_map s]
    all_goals rfl
  | .select s => rfl
  | .onClause l r => rfl
  | .infixOn l op r => simp only [mapE, plainExpr, plainExpr_map l, plainExpr_map r]

theorem plainExprs_map' (l : List Expr) : plainExprs (mapEs f l) = plainExprs l ∧
    ∀ s, l = [.select s] → plainSelect (mapS f s) = plainSelect s := by
  match l with
  | [] => exact ⟨rfl, nofun⟩
  | e :: l =>
    have h2 : ∀ s, e = .select s → plainSelect (mapS f s) = plainSelect s := by
      cases e
      case select s =>
        intro s' h
        cases h
        exact plainSelect_map s
      all_goals nofun
    exact ⟨by simp only [mapEs, plainExprs, plainExpr_map e, (plainExprs_map' l).1],
      fun s h => h2 s (by cases h; rfl)⟩

theorem plainItem_map (e : SelExpr) : plainItem (mapSel f e) = plainItem e := by
  match e with
  | .nil | .column _ | .raw _ | .count _ _ _ | .max _ _ | .min _ _ | .sum _ _ => rfl
  | .exist e =>
    cases e
    case select s => simp only [mapE, mapSel, plainItem, plainSelect_map s]
    all_goals rfl
  | .notExist e =>
    cases e
    case select s => simp only [mapE, mapSel, plainItem, plainSelect_map s]
    all_goals rfl

theorem plainItems_map (l : List SelExpr) : plainItems (mapSels f l) = plainItems l := by
  match l with
  | [] => rfl
  | e :: l => simp only [mapSels, plainItems, plainItem_map e, plainItems_map l]

theorem plainJoins_map (l : List Join) : plainJoins (mapJoins f l) = plainJoins l := by
  match l with
  | [] => rfl
  | ⟨type, table, cond⟩ :: l =>
    simp only [mapJoins, plainJoins, plainJoin, plainExpr_map cond, plainJoins_map l]

theorem plainWiths_map (l : List WithQuery) : plainWiths (mapWiths f l) = plainWiths l := by
  match l with
  | [] => rfl
  | ⟨name, sub⟩ :: l =>
    have ih := plainWiths_map l
    cases sub
    case select s => simp only [mapE, mapWiths, plainWiths, plainWith, plainSelect_map s, ih]
    all_goals simp only [mapE, mapWiths, plainWiths, plainWith, ih]

theorem plainSelect_map (s : SelectStmt) : plainSelect (mapS f s) = plainSelect s := by
  match s with
  | ⟨pfx, withs, distinct, distinctOn, exprs, tables, joins, whr, groupBy, having, orderBy,
      limit, offset, sfx, comment⟩ =>
    simp only [mapS, plainSelect, plainWiths_map withs, plainItems_map exprs, plainJoins_map joins,
      plainExpr_map whr, plainExpr_map having, blank_mapE, mapSels_isEmpty]

end

theorem plainExprs_map (l : List Expr) : plainExprs (mapEs f l) = plainExprs l := (plainExprs_map' l).1

theorem plainSet_map (l : List Expr) : plainSet (mapEs f l) = plainSet l := by
  cases hs : onlySelect l with
  | some s =>
    rw [onlySelect_some hs]
    simp only [mapE, mapEs, plainSet, plainSelect_map s]
  | none => rw [plainSet_ne hs, plainSet_ne (onlySelect_map hs), mapEs_isEmpty, plainExprs_map]

theorem plainRow_map (e : Expr) : plainRow (mapE f e) = plainRow e := by
  cases e
  case array l => simp only [mapE, plainRow, mapEs_isEmpty, plainExprs_map]
  all_goals rfl

theorem plainValues_map (e : Expr) : plainValues (mapE f e) = plainValues e := by
  have hb := blank_mapE (f := f) e
  cases e
  case arrayList l =>
    simp only [mapE, plainValues]
    induction l with
    | nil => rfl
    | cons x l ih =>
      simp only [mapEs, List.all_cons, plainRow_map]
      rw [ih (by simp only [mapE, blank, mapEs_isEmpty])]
  all_goals
    simp only [mapE, plainValues] at hb ⊢
    try exact hb

theorem assignments_map (p : PairContainer) :
    assignments (mapPairs f p) = (assignments p).map fun ce => (ce.1, mapE f ce.2) := by
  unfold assignments
  rw [values_map]
  cases p.values with
  | error e => rfl
  | ok x =>
    obtain ⟨cs, es⟩ := x
    simp only
    rw [List.zip_map_right]
    rfl

theorem plainPairs_map (p : PairContainer) : plainPairs (mapPairs f p) = plainPairs p := by
  unfold plainPairs
  rw [assignments_map]
  have : (mapPairs f p).mode = p.mode := rfl
  rw [this]
  cases p.mode with
  | unknown => rfl
  | array =>
    show _ = (!p.columns.isEmpty && p.columns.all plainColumn && plainSet p.expressions)
    rw [← plainSet_map (f := f) p.expressions]
    rfl
  | associative =>
    simp only [List.isEmpty_map, List.all_map]
    congr 2
    funext ce
    simp only [Function.comp, plainExpr_map]

theorem plainStmt_map (s : Stmt) : plainStmt (mapStmt f s) = plainStmt s := by
  cases s with
  | select s => exact plainSelect_map s
  | insert i =>
    have ha : plainAction (mapAction f i.action) = plainAction i.action := by
      cases i.action
      case update set => simp only [mapAction, plainAction, plainPairs_map, setBlank_map]
      all_goals rfl
    simp only [mapStmt, plainStmt, plainValues_map, ha, plainItems_map]
  | update u =>
    simp only [mapStmt, plainStmt, plainWiths_map, plainPairs_map, plainExpr_map, blank_mapE,
      plainItems_map]
  | delete d =>
    simp only [mapStmt, plainStmt, plainExpr_map, blank_mapE, plainItems_map]

theorem uncommented_map (s : Stmt) : uncommented (mapStmt f s) = mapStmt f (uncommented s) := by
  match s with
  | .select ⟨pfx, withs, distinct, distinctOn, exprs, tables, joins, whr, groupBy, having, orderBy,
      limit, offset, sfx, comment⟩ => rfl
  | .insert i => rfl
  | .update u => rfl
  | .delete d => rfl

theorem commentOf_map (s : Stmt) : commentOf (mapStmt f s) = commentOf s := by
  match s with
  | .select ⟨pfx, withs, distinct, distinctOn, exprs, tables, joins, whr, groupBy, having, orderBy,
      limit, offset, sfx, comment⟩ => rfl
  | .insert i => rfl
  | .update u => rfl
  | .delete d => rfl

end

end Verif
