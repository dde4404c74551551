import Verif.Lemmas.PlainMap
import Verif.Spec.Shape

/-!
# The SQL statement meant commutes with replacing values
-/

set_option linter.unusedSectionVars false

namespace Verif
open Spec

variable {f : Val → Val}

theorem meanSet_map (l : List Expr) (xs : List Sql) :
    meanSet (mapEs f l) (Sql.mapAll f xs) = (meanSet l xs).mapValues f := by
  cases l with
  | nil => rfl
  | cons e l =>
    cases l with
    | nil =>
      cases e
      case select s =>
        cases xs with
        | nil => rfl
        | cons x xs => cases xs <;> rfl
      all_goals rfl
    | cons e' l => cases e <;> rfl

theorem meanExpr_value {v : Val} (h : v ≠ .nil) : meanExpr (.value v) = .value v := by
  cases v
  case nil => exact absurd rfl h
  all_goals rfl

mutual

theorem meanExpr_map (hf : NilPreserving f) (e : Expr) :
    meanExpr (mapE f e) = (meanExpr e).mapValues f := by
  match e with
  | .nil => rfl
  | .ident i => rfl
  | .value v =>
    by_cases hv : v = .nil
    · subst hv
      rw [mapE, (hf .nil).2 rfl]
      rfl
    · rw [mapE, meanExpr_value hv, meanExpr_value fun h => hv ((hf v).1 h), Sql.mapValues]
  | .arrayList l => simp only [mapE, meanExpr, Sql.mapValues, meanExprs_map hf l]
  | .array l => simp only [mapE, meanExpr, meanExprs_map hf l, meanSet_map]
  | .raw s => rfl
  | .wrapper e => simp only [mapE, meanExpr, meanExpr_map hf e]
  | .call g args => simp only [mapE, meanExpr, Sql.mapValues, meanExprs_map hf args]
  | .infx l op r => simp only [mapE, meanExpr, Sql.mapValues, meanExpr_map hf l, meanExpr_map hf r]
  | .inx e op v => simp only [mapE, meanExpr, Sql.mapValues, meanExpr_map hf e, meanExpr_map hf v]
  | .between i op lo and hi =>
    simp only [mapE, meanExpr, Sql.mapValues, meanExpr_map hf lo, meanExpr_map hf hi]
  | .exist e =>
    cases e
    case select s => simp only [mapE, meanExpr, Sql.mapValues, meanSelect_map hf s]
    all_goals rfl
  | .notExist e =>
    cases e
    case select s => simp only [mapE, meanExpr, Sql.mapValues, meanSelect_map hf s]
    all_goals rfl
  | .select s => simp only [mapE, meanExpr, Sql.mapValues, meanSelect_map hf s]
  | .onClause l r => rfl
  | .infixOn l op r => simp only [mapE, meanExpr, Sql.mapValues, meanExpr_map hf l, meanExpr_map hf r]

theorem meanExprs_map (hf : NilPreserving f) (l : List Expr) :
    meanExprs (mapEs f l) = Sql.mapAll f (meanExprs l) := by
  match l with
  | [] => rfl
  | e :: l => simp only [mapEs, meanExprs, Sql.mapAll, meanExpr_map hf e, meanExprs_map hf l]

theorem meanItem_map (hf : NilPreserving f) (e : SelExpr) :
    meanItem (mapSel f e) = (meanItem e).mapValues f := by
  have agg : ∀ g d v a, (meanAggregate g d v a).mapValues f = meanAggregate g d v a := by
    intro g d v a
    simp only [meanAggregate, SqlItem.mapValues, Sql.mapValues, Sql.mapAll]
    split <;> rfl
  match e with
  | .nil | .column _ | .raw _ => rfl
  | .count _ _ _ | .max _ _ | .min _ _ | .sum _ _ => simp only [mapSel, meanItem, agg]
  | .exist e =>
    cases e
    case select s =>
      simp only [mapE, mapSel, meanItem, SqlItem.mapValues, Sql.mapValues, meanSelect_map hf s]
    all_goals rfl
  | .notExist e =>
    cases e
    case select s =>
      simp only [mapE, mapSel, meanItem, SqlItem.mapValues, Sql.mapValues, meanSelect_map hf s]
    all_goals rfl

theorem meanItems_map (hf : NilPreserving f) (l : List SelExpr) :
    meanItems (mapSels f l) = SqlItem.mapAll f (meanItems l) := by
  match l with
  | [] => rfl
  | e :: l => simp only [mapSels, meanItems, SqlItem.mapAll, meanItem_map hf e, meanItems_map hf l]

theorem meanJoins_map (hf : NilPreserving f) (l : List Join) :
    meanJoins (mapJoins f l) = SqlJoin.mapAll f (meanJoins l) := by
  match l with
  | [] => rfl
  | ⟨type, table, cond⟩ :: l =>
    simp only [mapJoins, meanJoins, meanJoin, SqlJoin.mapAll, meanExpr_map hf cond,
      meanJoins_map hf l]

theorem meanWiths_map (hf : NilPreserving f) (l : List WithQuery) :
    meanWiths (mapWiths f l) = SqlWith.mapAll f (meanWiths l) := by
  match l with
  | [] => rfl
  | ⟨name, sub⟩ :: l =>
    have ih := meanWiths_map hf l
    cases sub
    case select s =>
      simp only [mapE, mapWiths, meanWiths, meanWith, SqlWith.mapAll, meanSelect_map hf s, ih]
    all_goals
      simp only [mapE, mapWiths, meanWiths, meanWith, SqlWith.mapAll, ih, SqlSelect.mapValues,
        SqlItem.mapAll, SqlJoin.mapAll, Sql.mapOption]

theorem meanSelect_map (hf : NilPreserving f) (s : SelectStmt) :
    meanSelect (mapS f s) = (meanSelect s).mapValues f := by
  match s with
  | ⟨pfx, withs, distinct, distinctOn, exprs, tables, joins, whr, groupBy, having, orderBy,
      limit, offset, sfx, comment⟩ =>
    have h1 := meanExpr_map hf whr
    have h2 := meanExpr_map hf having
    simp only [mapS, meanSelect, SqlSelect.mapValues, meanWiths_map hf withs,
      meanItems_map hf exprs, meanJoins_map hf joins, blank_mapE, h1, h2]
    cases blank whr <;> cases blank having <;> rfl

end

theorem meanCond_map (hf : NilPreserving f) (e : Expr) :
    (if blank (mapE f e) then none else some (meanExpr (mapE f e)))
      = Sql.mapOption f (if blank e then none else some (meanExpr e)) := by
  rw [blank_mapE, meanExpr_map hf]
  cases blank e <;> rfl

section
variable [GoRuntime]

theorem meanValues_map (hf : NilPreserving f) (e : Expr) :
    meanValues (mapE f e) = (meanValues e).map (Sql.mapAll f) := by
  cases e
  case arrayList l =>
    simp only [mapE, meanValues, mapEs_eq, List.map_map]
    refine List.map_congr_left fun e _ => ?_
    cases e
    case array l => simp only [Function.comp, mapE, meanRow, meanExprs_map hf]
    all_goals rfl
  all_goals rfl

theorem meanPairs_map (hf : NilPreserving f) (p : PairContainer) :
    meanPairs (mapPairs f p) = (meanPairs p).mapValues f := by
  have h1 : (mapPairs f p).mode = p.mode := rfl
  have h2 : (mapPairs f p).columns = p.columns := rfl
  have h3 : (mapPairs f p).expressions = mapEs f p.expressions := rfl
  unfold meanPairs
  rw [h1, h2, h3, assignments_map, meanExprs_map hf, meanSet_map]
  cases p.mode
  all_goals simp only [SqlSet.mapValues, List.map_map]
  all_goals
    congr 1
    refine List.map_congr_left fun ce _ => ?_
    simp only [Function.comp, meanExpr_map hf]

theorem meanConflict_map (hf : NilPreserving f) (t : List Column) (a : ConflictAction) :
    meanConflict t (mapAction f a) = (meanConflict t a).map fun c => (c.1, c.2.mapValues f) := by
  cases a with
  | nil => rfl
  | nothing => rfl
  | update p =>
    simp only [mapAction, meanConflict, setBlank_map, meanPairs_map hf]
    cases setBlank p <;> rfl

/-- Replacing the values of a statement replaces the values of the SQL statement meant. -/
theorem meanStmt_map (hf : NilPreserving f) (s : Stmt) :
    meanStmt (mapStmt f s) = (meanStmt s).mapValues f := by
  cases s with
  | select s => simp only [mapStmt, meanStmt, SqlStmt.mapValues, meanSelect_map hf]
  | insert i =>
    simp only [mapStmt, meanStmt, SqlStmt.mapValues, meanValues_map hf, meanConflict_map hf,
      meanItems_map hf]
  | update u =>
    simp only [mapStmt, meanStmt, SqlStmt.mapValues, meanWiths_map hf, meanPairs_map hf,
      meanCond_map hf, meanItems_map hf]
  | delete d =>
    simp only [mapStmt, meanStmt, SqlStmt.mapValues, meanCond_map hf, meanItems_map hf]

end

/-! ## Replacing twice -/

section
variable {g : Val → Val}

mutual

theorem Spec.Sql.mapValues_mapValues (e : Sql) :
    (e.mapValues f).mapValues g = e.mapValues fun v => g (f v) := by
  match e with
  | .ref _ | .star | .null | .value _ => rfl
  | .binary op l r => simp only [Sql.mapValues, l.mapValues_mapValues, r.mapValues_mapValues]
  | .not e => simp only [Sql.mapValues, e.mapValues_mapValues]
  | .isIn n e s => simp only [Sql.mapValues, e.mapValues_mapValues, s.mapValues_mapValues]
  | .between n e lo hi =>
    simp only [Sql.mapValues, e.mapValues_mapValues, lo.mapValues_mapValues, hi.mapValues_mapValues]
  | .exist q => simp only [Sql.mapValues, q.mapValues_mapValues]
  | .list es => simp only [Sql.mapValues, Sql.mapAll_mapAll es]
  | .call h d args => simp only [Sql.mapValues, Sql.mapAll_mapAll args]
  | .query q => simp only [Sql.mapValues, q.mapValues_mapValues]

theorem Spec.Sql.mapAll_mapAll (l : List Sql) :
    Sql.mapAll g (Sql.mapAll f l) = Sql.mapAll (fun v => g (f v)) l := by
  match l with
  | [] => rfl
  | e :: l => simp only [Sql.mapAll, e.mapValues_mapValues, Sql.mapAll_mapAll l]

theorem Spec.SqlItem.mapAll_mapAll (l : List SqlItem) :
    SqlItem.mapAll g (SqlItem.mapAll f l) = SqlItem.mapAll (fun v => g (f v)) l := by
  match l with
  | [] => rfl
  | .mk e a :: l =>
    simp only [SqlItem.mapAll, SqlItem.mapValues, e.mapValues_mapValues, SqlItem.mapAll_mapAll l]

theorem Spec.SqlJoin.mapAll_mapAll (l : List SqlJoin) :
    SqlJoin.mapAll g (SqlJoin.mapAll f l) = SqlJoin.mapAll (fun v => g (f v)) l := by
  match l with
  | [] => rfl
  | .mk k t c :: l => simp only [SqlJoin.mapAll, c.mapValues_mapValues, SqlJoin.mapAll_mapAll l]

theorem Spec.SqlWith.mapAll_mapAll (l : List SqlWith) :
    SqlWith.mapAll g (SqlWith.mapAll f l) = SqlWith.mapAll (fun v => g (f v)) l := by
  match l with
  | [] => rfl
  | .mk n q :: l => simp only [SqlWith.mapAll, q.mapValues_mapValues, SqlWith.mapAll_mapAll l]

theorem Spec.Sql.mapOption_mapOption (o : Option Sql) :
    Sql.mapOption g (Sql.mapOption f o) = Sql.mapOption (fun v => g (f v)) o := by
  match o with
  | none => rfl
  | some e => simp only [Sql.mapOption, e.mapValues_mapValues]

theorem Spec.SqlSelect.mapValues_mapValues (q : SqlSelect) :
    (q.mapValues f).mapValues g = q.mapValues fun v => g (f v) := by
  match q with
  | .mk withs distinct items tables joins whr groupBy having orderBy limit offset =>
    simp only [SqlSelect.mapValues, SqlWith.mapAll_mapAll withs, SqlItem.mapAll_mapAll items,
      SqlJoin.mapAll_mapAll joins, Sql.mapOption_mapOption whr, Sql.mapOption_mapOption having]

end

theorem Spec.SqlSet.mapValues_mapValues (s : SqlSet) :
    (s.mapValues f).mapValues g = s.mapValues fun v => g (f v) := by
  cases s with
  | pairs l => simp only [SqlSet.mapValues, List.map_map, Function.comp_def, Sql.mapValues_mapValues]
  | columns l e => simp only [SqlSet.mapValues, Sql.mapValues_mapValues]

theorem Spec.SqlStmt.mapValues_mapValues (m : SqlStmt) :
    (m.mapValues f).mapValues g = m.mapValues fun v => g (f v) := by
  cases m with
  | select q => simp only [SqlStmt.mapValues, SqlSelect.mapValues_mapValues]
  | insert into columns rows conflict returning =>
    have h : ∀ a : SqlAction, (a.mapValues f).mapValues g = a.mapValues fun v => g (f v) := by
      intro a
      cases a with
      | nothing => rfl
      | update s => simp only [SqlAction.mapValues, SqlSet.mapValues_mapValues]
    simp only [SqlStmt.mapValues, List.map_map, Function.comp_def, Sql.mapAll_mapAll,
      Option.map_map, h, SqlItem.mapAll_mapAll]
  | update withs table set tables whr returning =>
    simp only [SqlStmt.mapValues, SqlWith.mapAll_mapAll, SqlSet.mapValues_mapValues,
      Sql.mapOption_mapOption, SqlItem.mapAll_mapAll]
  | delete tables usings whr returning =>
    simp only [SqlStmt.mapValues, Sql.mapOption_mapOption, SqlItem.mapAll_mapAll]

end

theorem arguments_ne_nil (l : List Piece) : ∀ v ∈ arguments l, v ≠ .nil := by
  induction l with
  | nil => nofun
  | cons p l ih =>
    intro v hv
    cases p with
    | val w =>
      cases w
      case nil => exact ih v hv
      all_goals
        rcases List.mem_cons.1 hv with rfl | h
        · nofun
        · exact ih v h
    | _ => exact ih v hv

end Verif
