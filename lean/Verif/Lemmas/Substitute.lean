import Verif.Lemmas.Contexts
import Verif.Spec.Substitute

/-!
# The layout of a statement commutes with replacing values
-/

set_option linter.unusedSectionVars false

namespace Verif
open Spec

/-- Apply `f` to the value of a piece. -/
def mapPiece (f : Val → Val) : Piece → Piece
  | .val v => .val (f v)
  | p => p

/-- `f` maps nil, and only nil, to nil. -/
def NilPreserving (f : Val → Val) : Prop := ∀ v, f v = .nil ↔ v = .nil

variable {f : Val → Val}

theorem blank_mapE (e : Expr) : blank (mapE f e) = blank e := by
  match e with
  | .nil | .ident _ | .value _ | .raw _ | .call _ _ | .exist _ | .notExist _ | .onClause _ _ => rfl
  | .arrayList l => cases l <;> rfl
  | .array l => cases l <;> rfl
  | .wrapper e => simp only [mapE, blank]; exact blank_mapE e
  | .infx l op r => simp only [mapE, blank, blank_mapE l, blank_mapE r]
  | .inx e op v =>
    have : absent (mapE f v) = absent v := by cases v <;> rfl
    simp only [mapE, blank, blank_mapE e, this]
  | .between i op lo and hi => simp only [mapE, blank, blank_mapE lo, blank_mapE hi]
  | .select ⟨_, _, _, _, exprs, _, _, _, _, _, _, _, _, _, _⟩ =>
    cases exprs <;> rfl
  | .infixOn l op r => simp only [mapE, blank, blank_mapE l, blank_mapE r]

theorem isNil_mapE (e : Expr) : (mapE f e).isNil = e.isNil := by cases e <;> rfl

theorem isEmpty_mapE (e : Expr) : (mapE f e).isEmpty = e.isEmpty := by
  match e with
  | .nil | .ident _ | .value _ | .raw _ | .call _ _ | .exist _ | .notExist _ | .onClause _ _ => rfl
  | .arrayList l => cases l <;> rfl
  | .array l => cases l <;> rfl
  | .wrapper e => simp only [mapE, Expr.isEmpty]; exact isEmpty_mapE e
  | .infx l op r =>
    simp only [mapE, Expr.isEmpty, isEmpty_mapE l, isEmpty_mapE r, isNil_mapE]
  | .inx e op v => simp only [mapE, Expr.isEmpty, isEmpty_mapE e, isNil_mapE]
  | .between i op lo and hi =>
    simp only [mapE, Expr.isEmpty, isEmpty_mapE lo, isEmpty_mapE hi, isNil_mapE]
  | .select ⟨_, _, _, _, exprs, _, _, _, _, _, _, _, _, _, _⟩ =>
    cases exprs <;> rfl
  | .infixOn l op r =>
    simp only [mapE, Expr.isEmpty, isEmpty_mapE l, isEmpty_mapE r, isNil_mapE]

theorem isUnset_mapE (e : Expr) : (mapE f e).isUnset = e.isUnset := by
  simp only [Expr.isUnset, isNil_mapE, isEmpty_mapE]

mutual

theorem okE_mapE (e : Expr) : okE (mapE f e) = okE e := by
  match e with
  | .nil | .ident _ | .value _ | .raw _ | .onClause _ _ => rfl
  | .arrayList l => exact okEs_mapEs l
  | .array l => exact okEs_mapEs l
  | .wrapper e => exact okE_mapE e
  | .call _ args => exact okEs_mapEs args
  | .infx l op r =>
    simp only [mapE, okE, blank, blank_mapE, okE_mapE l, okE_mapE r]
  | .inx e op v =>
    have : absent (mapE f v) = absent v := by cases v <;> rfl
    simp only [mapE, okE, blank, blank_mapE, okE_mapE e, okE_mapE v, isEmpty_mapE, this]
  | .between i op lo and hi =>
    simp only [mapE, okE, blank, blank_mapE, okE_mapE lo, okE_mapE hi]
  | .exist e => exact okE_mapE e
  | .notExist e => exact okE_mapE e
  | .select s => exact okS_mapS s
  | .infixOn l op r =>
    simp only [mapE, okE, blank, blank_mapE, okE_mapE l, okE_mapE r]

theorem okEs_mapEs (l : List Expr) : okEs (mapEs f l) = okEs l := by
  match l with
  | [] => rfl
  | e :: l => simp only [mapEs, okEs, okE_mapE e, okEs_mapEs l]

theorem okSel_mapSel (e : SelExpr) : okSel (mapSel f e) = okSel e := by
  match e with
  | .nil | .column _ | .raw _ | .count _ _ _ | .max _ _ | .min _ _ | .sum _ _ => rfl
  | .exist e => exact okE_mapE e
  | .notExist e => exact okE_mapE e

theorem okSels_mapSels (l : List SelExpr) : okSels (mapSels f l) = okSels l := by
  match l with
  | [] => rfl
  | e :: l => simp only [mapSels, okSels, okSel_mapSel e, okSels_mapSels l]

theorem okJoins_mapJoins (l : List Join) : okJoins (mapJoins f l) = okJoins l := by
  match l with
  | [] => rfl
  | ⟨_, _, e⟩ :: l => simp only [mapJoins, okJoins, okE_mapE e, okJoins_mapJoins l]

theorem okWiths_mapWiths (l : List WithQuery) : okWiths (mapWiths f l) = okWiths l := by
  match l with
  | [] => rfl
  | ⟨_, e⟩ :: l =>
    simp only [mapWiths, okWiths, okE_mapE e, okWiths_mapWiths l, WithQuery.isEmpty, isNil_mapE,
      isEmpty_mapE]

theorem okS_mapS (s : SelectStmt) : okS (mapS f s) = okS s := by
  match s with
  | ⟨_, withs, _, _, exprs, _, joins, whr, _, having, _, _, _, _, _⟩ =>
    have : (mapSels f exprs).isEmpty = exprs.isEmpty := by cases exprs <;> rfl
    simp only [mapS, okS, okWiths_mapWiths withs, okSels_mapSels exprs, okJoins_mapJoins joins,
      okE_mapE whr, okE_mapE having, isUnset_mapE, this]

end

theorem commaSep_map (l : List (List Piece)) :
    commaSep (l.map (List.map (mapPiece f))) = (commaSep l).map (mapPiece f) := by
  match l with
  | [] => rfl
  | [a] => rfl
  | a :: b :: l =>
    have := commaSep_map (b :: l)
    simp only [List.map_cons] at this
    simp only [List.map_cons, commaSep, this, List.map_append, mapPiece]

/-- Apply `f` to the values of a clause. -/
def mapClause (f : Val → Val) : Option (List Piece) → Option (List Piece)
  | none => none
  | some c => some (c.map (mapPiece f))

theorem clause_map (b : Bool) (c : List Piece) :
    clause b (c.map (mapPiece f)) = mapClause f (clause b c) := by
  cases b <;> rfl

theorem spaced_map (l : List (Option (List Piece))) :
    spaced (l.map (mapClause f)) = (spaced l).map (mapPiece f) := by
  have tail : ∀ l : List (Option (List Piece)),
      spaceTail (l.map (mapClause f)) = (spaceTail l).map (mapPiece f) := by
    intro l
    induction l with
    | nil => rfl
    | cons a l ih => cases a <;> simp [mapClause, ih, mapPiece]
  induction l with
  | nil => rfl
  | cons a l ih =>
    cases a with
    | none => exact ih
    | some c =>
      rw [List.map_cons, mapClause, spaced_some, spaced_some, tail, List.map_append]

theorem mapWiths_isEmpty (l : List WithQuery) : (mapWiths f l).isEmpty = l.isEmpty := by
  cases l with
  | nil => rfl
  | cons w l => cases w; rfl

theorem mapClause_some (c : List Piece) : mapClause f (some c) = some (c.map (mapPiece f)) := rfl

theorem identL_map (i : Ident) : (identL i).map (mapPiece f) = identL i := by cases i <;> rfl

theorem columnL_map (c : Column) : (columnL c).map (mapPiece f) = columnL c := by
  simp only [columnL, aliased]
  split <;> rfl

theorem tableL_map (t : Table) : (tableL t).map (mapPiece f) = tableL t := by
  simp only [tableL, aliased]
  split <;> split <;> rfl

theorem orderL_map (o : Order) : (orderL o).map (mapPiece f) = orderL o := by
  simp only [orderL]
  split <;> rfl

theorem fromItemL_map (t : FromItem) : (fromItemL t).map (mapPiece f) = fromItemL t := by
  cases t
  · rfl
  · exact tableL_map _
  · rfl

theorem map_fixed {α : Type} {g : α → List Piece} (h : ∀ a, (g a).map (mapPiece f) = g a)
    (l : List α) : (commaSep (l.map g)).map (mapPiece f) = commaSep (l.map g) := by
  rw [← commaSep_map, List.map_map]
  congr 1
  exact List.map_congr_left fun a _ => h a

theorem fromL_map (l : List FromItem) : (fromL l).map (mapPiece f) = fromL l := by
  rw [fromL, List.map_cons, map_fixed fromItemL_map]; rfl

theorem aggAliasL_map (a : Str) : (aggAliasL a).map (mapPiece f) = aggAliasL a := by
  simp only [aggAliasL]
  split <;> rfl

theorem commentL_map (c : Str) : (commentL c).map (mapPiece f) = commentL c := by
  simp only [commentL]
  split <;> rfl

mutual

theorem exprL_mapE (e : Expr) : exprL (mapE f e) = (exprL e).map (mapPiece f) := by
  match e with
  | .nil => rfl
  | .ident i => exact (identL_map i).symm
  | .value _ => rfl
  | .raw _ => rfl
  | .arrayList l => simp only [mapE, exprL, rowsL_mapEs l, commaSep_map]
  | .array l => simp only [mapE, exprL, exprsL_mapEs l, commaSep_map]
  | .wrapper e => simp [mapE, exprL, exprL_mapE e, mapPiece]
  | .call g args => simp [mapE, exprL, exprsL_mapEs args, mapPiece, commaSep_map]
  | .infx l op r => simp [mapE, exprL, exprL_mapE l, exprL_mapE r, mapPiece]
  | .inx e op v =>
    simp only [mapE, exprL, exprL_mapE e, exprL_mapE v, blank_mapE]
    cases blank v <;> simp [mapPiece]
  | .between i op lo and hi =>
    simp [mapE, exprL, exprL_mapE lo, exprL_mapE hi, mapPiece, identL_map]
  | .exist e => simp [mapE, exprL, exprL_mapE e, mapPiece]
  | .notExist e => simp [mapE, exprL, exprL_mapE e, mapPiece]
  | .select s => exact selectL_mapS s
  | .onClause l r => simp [mapE, exprL, mapPiece, columnL_map]
  | .infixOn l op r => simp [mapE, exprL, exprL_mapE l, exprL_mapE r, mapPiece]

theorem exprsL_mapEs (l : List Expr) :
    exprsL (mapEs f l) = (exprsL l).map (List.map (mapPiece f)) := by
  match l with
  | [] => rfl
  | e :: l => simp [mapEs, exprsL, exprL_mapE e, exprsL_mapEs l]

theorem rowsL_mapEs (l : List Expr) :
    rowsL (mapEs f l) = (rowsL l).map (List.map (mapPiece f)) := by
  match l with
  | [] => rfl
  | e :: l => simp [mapEs, rowsL, exprL_mapE e, rowsL_mapEs l, mapPiece]

theorem selExprL_mapSel (e : SelExpr) : selExprL (mapSel f e) = (selExprL e).map (mapPiece f) := by
  match e with
  | .nil => rfl
  | .column c => exact (columnL_map c).symm
  | .raw _ => rfl
  | .count v d a => cases d <;> simp [mapSel, selExprL, mapPiece, aggAliasL_map]
  | .max v a => simp [mapSel, selExprL, mapPiece, aggAliasL_map]
  | .min v a => simp [mapSel, selExprL, mapPiece, aggAliasL_map]
  | .sum v a => simp [mapSel, selExprL, mapPiece, aggAliasL_map]
  | .exist e => simp [mapSel, selExprL, exprL_mapE e, mapPiece]
  | .notExist e => simp [mapSel, selExprL, exprL_mapE e, mapPiece]

theorem selExprsL_mapSels (l : List SelExpr) :
    selExprsL (mapSels f l) = (selExprsL l).map (List.map (mapPiece f)) := by
  match l with
  | [] => rfl
  | e :: l => simp [mapSels, selExprsL, selExprL_mapSel e, selExprsL_mapSels l]

theorem joinsL_mapJoins (l : List Join) :
    joinsL (mapJoins f l) = (joinsL l).map (mapClause f) := by
  match l with
  | [] => rfl
  | ⟨ty, t, e⟩ :: l =>
    simp [mapJoins, joinsL, joinL, exprL_mapE e, joinsL_mapJoins l, mapClause, mapPiece,
      tableL_map]

theorem withsL_mapWiths (l : List WithQuery) :
    withsL (mapWiths f l) = (withsL l).map (List.map (mapPiece f)) := by
  match l with
  | [] => rfl
  | ⟨n, e⟩ :: l =>
    simp only [mapWiths, withsL, withL, exprL_mapE e, withsL_mapWiths l, blank_mapE, List.map_cons]
    split <;> simp [mapPiece]

theorem selectL_mapS (s : SelectStmt) : selectL (mapS f s) = (selectL s).map (mapPiece f) := by
  match s with
  | ⟨pfx, withs, distinct, distinctOn, exprs, tables, joins, whr, groupBy, having, orderBy,
      limit, offset, sfx, comment⟩ =>
    have hw : (mapWiths f withs).isEmpty = withs.isEmpty := mapWiths_isEmpty withs
    simp only [mapS, selectL, withsL_mapWiths withs, selExprsL_mapSels exprs,
      joinsL_mapJoins joins, exprL_mapE whr, exprL_mapE having, blank_mapE, hw, commaSep_map,
      List.map_append, commentL_map]
    congr 1
    rw [← spaced_map]
    congr 1
    simp only [List.map_append, List.map_cons, List.map_nil, ← clause_map, mapPiece,
      map_fixed columnL_map, map_fixed orderL_map, fromL_map, mapClause_some, List.map_append]

end

section
variable [GoRuntime]

theorem mapLookup_map (c : Column) (m : List (Column × Expr)) :
    mapLookup c (m.map fun ce => (ce.1, mapE f ce.2)) = (mapLookup c m).map (mapE f) := by
  induction m with
  | nil => rfl
  | cons ce m ih =>
    simp only [List.map_cons, mapLookup]
    split <;> simp_all

theorem lookupAll_map (m : List (Column × Expr)) (cs : List Column) :
    lookupAll (m.map fun ce => (ce.1, mapE f ce.2)) cs =
      match lookupAll m cs with
      | .error p => .error p
      | .ok l => .ok (l.map fun ce => (ce.1, mapE f ce.2)) := by
  induction cs with
  | nil => rfl
  | cons c cs ih =>
    simp only [lookupAll, mapLookup_map, ih]
    cases mapLookup c m with
    | none => rfl
    | some e =>
      simp only [Option.map_some]
      cases lookupAll m cs <;> rfl

theorem mapEs_eq (l : List Expr) : mapEs f l = l.map (mapE f) := by
  induction l with
  | nil => rfl
  | cons e l ih => simp [mapEs, ih]

theorem values_map (p : PairContainer) :
    (mapPairs f p).values = match p.values with
      | .error e => .error e
      | .ok (cs, es) => .ok (cs, es.map (mapE f)) := by
  simp only [PairContainer.values, mapPairs, lookupAll_map]
  split
  · simp [mapEs_eq]
  · cases lookupAll p.map (GoRuntime.sortSlice columnLess p.columns) with
    | error e => rfl
    | ok l => simp [Function.comp_def]

theorem setBlank_map (p : PairContainer) : setBlank (mapPairs f p) = setBlank p := by
  simp only [setBlank, mapPairs, mapEs_eq]
  cases p.mode <;> cases p.map <;> cases p.expressions <;> rfl

theorem okSet_map (p : PairContainer) : okSet (mapPairs f p) = okSet p := by
  simp only [okSet, setBlank_map, values_map]
  congr 1
  have : (mapPairs f p).mode = p.mode := rfl
  rw [this]
  cases p.mode with
  | unknown => rfl
  | array => exact okEs_mapEs _
  | associative =>
    cases p.values with
    | error e => rfl
    | ok r =>
      obtain ⟨cs, es⟩ := r
      simp only [List.zip_map_right, List.all_map]
      congr 1
      funext ce
      exact okE_mapE _

theorem setL_map (p : PairContainer) : setL (mapPairs f p) = (setL p).map (mapPiece f) := by
  simp only [setL, List.map_cons, mapPiece]
  congr 1
  have : (mapPairs f p).mode = p.mode := rfl
  rw [this]
  cases p.mode with
  | unknown => rfl
  | array =>
    have hc : (mapPairs f p).columns = p.columns := rfl
    have he : (mapPairs f p).expressions = mapEs f p.expressions := rfl
    simp [hc, he, exprsL_mapEs, commaSep_map, mapPiece, map_fixed columnL_map]
  | associative =>
    simp only [assignments, values_map]
    cases p.values with
    | error e => rfl
    | ok r =>
      obtain ⟨cs, es⟩ := r
      simp only [List.zip_map_right, List.map_map, ← commaSep_map]
      congr 1
      apply List.map_congr_left
      intro ce _
      simp [assignL, exprL_mapE, mapPiece, columnL_map]

theorem actionBlank_map (a : ConflictAction) : actionBlank (mapAction f a) = actionBlank a := by
  cases a <;> simp [mapAction, actionBlank, setBlank_map]

theorem okAction_map (a : ConflictAction) : okAction (mapAction f a) = okAction a := by
  cases a <;> simp [mapAction, okAction, okSet_map]

theorem actionL_map (a : ConflictAction) :
    actionL (mapAction f a) = (actionL a).map (mapPiece f) := by
  cases a <;> simp [mapAction, actionL, setL_map, mapPiece]

theorem returningL_map (l : List SelExpr) :
    returningL (mapSels f l) = (returningL l).map (mapPiece f) := by
  simp only [returningL, selExprsL_mapSels, commaSep_map, List.map_cons, mapPiece]

theorem conflictL_map (t : List Column) (a : ConflictAction) :
    conflictL t (mapAction f a) = (conflictL t a).map (mapPiece f) := by
  simp only [conflictL, actionL_map]
  cases t.isEmpty <;> simp [mapPiece, map_fixed columnL_map]

theorem mapSels_isEmpty (l : List SelExpr) : (mapSels f l).isEmpty = l.isEmpty := by
  cases l <;> rfl

theorem okStmt_map (s : Stmt) : okStmt (mapStmt f s) = okStmt s := by
  cases s with
  | select s => exact okS_mapS s
  | insert i =>
    simp only [mapStmt, okStmt, isUnset_mapE, okE_mapE, actionBlank_map, okAction_map,
      okSels_mapSels]
  | update u =>
    simp only [mapStmt, okStmt, isUnset_mapE, okE_mapE, okSet_map, okSels_mapSels,
      okWiths_mapWiths]
  | delete d =>
    simp only [mapStmt, okStmt, isUnset_mapE, okE_mapE, okSels_mapSels]

theorem layout_map (s : Stmt) : layout (mapStmt f s) = (layout s).map (mapPiece f) := by
  cases s with
  | select s => exact selectL_mapS s
  | insert i =>
    simp only [mapStmt, layout, insertL, blank_mapE, exprL_mapE, actionBlank_map, conflictL_map,
      mapSels_isEmpty, returningL_map, List.map_append, commentL_map]
    congr 1
    rw [← spaced_map]
    congr 1
    simp only [List.map_append, List.map_cons, List.map_nil, ← clause_map, mapPiece,
      map_fixed columnL_map, tableL_map, mapClause_some]
  | update u =>
    simp only [mapStmt, layout, updateL, blank_mapE, exprL_mapE, setL_map, mapWiths_isEmpty,
      withsL_mapWiths, commaSep_map,
      mapSels_isEmpty, returningL_map, List.map_append, commentL_map]
    congr 1
    rw [← spaced_map]
    congr 1
    simp only [List.map_cons, List.map_nil, ← clause_map, mapPiece, fromL_map,
      tableL_map, mapClause_some]
  | delete d =>
    simp only [mapStmt, layout, deleteL, blank_mapE, exprL_mapE,
      mapSels_isEmpty, returningL_map, List.map_append, commentL_map]
    congr 1
    rw [← spaced_map]
    congr 1
    simp only [List.map_cons, List.map_nil, ← clause_map, mapPiece, fromL_map,
      map_fixed tableL_map, mapClause_some]

/-! ## Texts and arguments -/

theorem arguments_map (hf : NilPreserving f) (l : List Piece) :
    arguments (l.map (mapPiece f)) = (arguments l).map f := by
  induction l with
  | nil => rfl
  | cons p l ih =>
    cases p with
    | sql t => exact ih
    | name t => exact ih
    | raw t => exact ih
    | note t => exact ih
    | val v =>
      simp only [List.map_cons, mapPiece]
      cases hv : f v with
      | nil =>
        have := (hf v).1 hv
        subst this
        simp only [arguments]; exact ih
      | _ =>
        cases v with
        | nil => rw [(hf .nil).2 rfl] at hv; cases hv
        | _ => simp only [arguments, List.map_cons, hv, ih]

theorem render_map (hf : NilPreserving f) (ph : Nat → Val → Str) (h : ∀ k v w, ph k v = ph k w)
    (k : Nat) (l : List Piece) : render ph k (l.map (mapPiece f)) = render ph k l := by
  induction l generalizing k with
  | nil => rfl
  | cons p l ih =>
    cases p with
    | sql t => simp only [List.map_cons, mapPiece, render, ih]
    | name t => simp only [List.map_cons, mapPiece, render, ih]
    | raw t => simp only [List.map_cons, mapPiece, render, ih]
    | note t => simp only [List.map_cons, mapPiece, render, ih]
    | val v =>
      simp only [List.map_cons, mapPiece]
      cases hv : f v with
      | nil =>
        have := (hf v).1 hv
        subst this
        simp only [render, ih]
      | _ =>
        cases v with
        | nil => rw [(hf .nil).2 rfl] at hv; cases hv
        | _ => simp only [render, ih]; congr 1; exact h _ _ _

end

end Verif
