import Verif.Lemmas.ProgramSelect
import Verif.Lemmas.Pairs

/-!
# Statements written with the functions of loukoum
-/

set_option linter.unusedSectionVars false

namespace Verif
open Spec

section
variable [GoRuntime]

/-! ## SET -/

theorem lastGiven_iff_mem {g : List (Column × Expr)} (hn : (g.map (·.1)).Nodup) (c : Column)
    (e : Expr) : lastGiven g c = some e ↔ (c, e) ∈ g := by
  induction g with
  | nil => simp [lastGiven]
  | cons x g ih =>
    obtain ⟨d, f⟩ := x
    simp only [List.map_cons, List.nodup_cons] at hn
    have := lastGiven_append [(d, f)] g c
    rw [List.singleton_append] at this
    rw [this, lastGiven_single]
    by_cases hd : d = c
    · subst hd
      have : lastGiven g d = none := by
        rw [← Option.not_isSome_iff_eq_none, lastGiven_isSome]
        exact hn.1
      rw [this]
      have hne : (d, e) ∉ g := fun h => hn.1 (List.mem_map.2 ⟨_, h, rfl⟩)
      simp [hne, eq_comm]
    · simp [hd, ih hn.2, Ne.symm hd]

theorem assignAll_columns_sub (p : PairContainer) (g : List (Column × Expr)) (c : Column)
    (h : c ∈ (assignAll p g).columns) : c ∈ p.columns ∨ c ∈ g.map (·.1) := by
  induction g generalizing p with
  | nil => exact .inl h
  | cons ce g ih =>
    rcases ih (assignOne p ce) h with h | h
    · simp only [assignOne] at h
      split at h
      · exact .inl h
      · rcases List.mem_append.1 h with h | h
        · exact .inl h
        · exact .inr (by simp at h; simp [h])
    · exact .inr (by simp only [List.map_cons, List.mem_cons]; exact .inr h)

/-- Assignments given in the order of the names are written as given. -/
theorem assignments_sorted {p : PairContainer} {g : List (Column × Expr)}
    (hp : p.map = [] ∧ p.columns = []) (hm : (assignAll p g).mode = .associative)
    (ha : ∀ ce ∈ g, ce.1.alias = []) (hs : g.Pairwise fun x y => x.1.name < y.1.name) :
    (assignAll p g).values = .ok (g.map (·.1), g.map (·.2)) := by
  have hk : KeysOk (assignAll p g) := by
    refine keysOk_all ⟨by simp [hp.2], ?_⟩ g
    simp [hp.1, hp.2, mapLookup]
  have hg : (g.map (·.1)).Nodup := by
    rw [List.Nodup, List.pairwise_map]
    refine hs.imp ?_
    intro a b hab he
    rw [he] at hab
    exact str_lt_irrefl _ hab
  obtain ⟨l, h1, h2, h3⟩ := values_ok hm hk
  have hl : l.Pairwise fun x y => x.1.name < y.1.name := by
    have := sort_columns hk.1 (by
      intro c hc
      rcases assignAll_columns_sub _ _ _ hc with h | h
      · rw [hp.2] at h; cases h
      · obtain ⟨ce, h5, rfl⟩ := List.mem_map.1 h
        exact ha ce h5)
    rw [← h2, List.pairwise_map] at this
    exact this
  have hmem : ∀ x, x ∈ l ↔ x ∈ g := by
    rintro ⟨c, e⟩
    rw [h3, lookup_all, hp.1, ← lastGiven_iff_mem hg]
    simp [mapLookup]
  have hnd : ∀ l : List (Column × Expr), (l.Pairwise fun x y => x.1.name < y.1.name) → l.Nodup := by
    intro l hl
    refine hl.imp ?_
    rintro a b hab rfl
    exact str_lt_irrefl _ hab
  have hperm : l.Perm g := (List.perm_ext_iff_of_nodup (hnd _ hl) (hnd _ hs)).2 hmem
  have : l = g := by
    refine List.Perm.eq_of_pairwise ?_ hl hs hperm
    intro a b _ _ h3 h4
    exact absurd (str_lt_trans h3 h4) (str_lt_irrefl _)
  rw [h1, this]

/-- The arguments of `Set` are these assignments. -/
structure ArePairs (as : List Any) (l : List (Ref × Sql)) (g : List (Column × Expr)) : Prop where
  given : GivenArgs as g
  mean : (g.map fun ce => (columnRef ce.1, meanExpr ce.2)) = l
  plain : (g.all fun ce => plainColumn ce.1 && plainExpr true ce.2) = true
  ok : (g.all fun ce => okE ce.2) = true
  columns : g.map (·.1) = l.map fun re => Api.Column (refText re.1)

theorem buildPairs_ok (l : List (Ref × Sql))
    (h : (l.all fun re => fitsQuoted re.1 && fits re.2) = true) :
    ∃ as g, buildPairs l = .ok as ∧ ArePairs as l g := by
  induction l with
  | nil => exact ⟨_, [], by rw [buildPairs], ⟨[], .nil, rfl⟩, rfl, rfl, rfl, rfl⟩
  | cons re l ih =>
    obtain ⟨r, e⟩ := re
    simp only [List.all_cons, Bool.and_eq_true] at h
    obtain ⟨as, g, h1, h2⟩ := ih h.2
    obtain ⟨a, x, h3, h4⟩ := build_ok e h.1.2
    obtain ⟨c1, c2⟩ := fitsQuoted_text h.1.1
    have hne := plainName_nonempty c1
    obtain ⟨gs, h5, rfl⟩ := h2.given
    refine ⟨_, (Api.Column (refText r), newWrapper x) :: gs.flatten,
      by rw [buildPairs, h3, h1, go_bind, go_bind], ⟨?_, ?_, ?_, ?_, ?_⟩⟩
    · refine ⟨[(Api.Column (refText r), newWrapper x)] :: gs, .cons ⟨_, ⟨?_, ?_⟩, rfl⟩ h5, rfl⟩
      · exact ⟨rfl, hne⟩
      · simp [newWrapped, h4.expr]
    · rw [List.map_cons, h2.mean, h4.wrapped.mean]
      simp [columnRef, Api.Column, c2]
    · rw [List.all_cons, h2.plain, h4.wrapped.loosen.plain]
      simp [plainColumn, Api.Column, c1]
    · rw [List.all_cons, h2.ok, h4.wrapped.ok]; rfl
    · rw [List.map_cons, h2.columns]; rfl

/-- The SET clause means `m`. -/
structure IsSetClause (p : PairContainer) (m : SqlSet) : Prop where
  plain : plainPairs p = true
  mean : meanPairs p = m
  ok : okSet p = true
  blank : setBlank p = false

theorem pairs_ok {l : List (Ref × Sql)} (h : fitsPairs l = true) {p : PairContainer}
    (hp : p.map = [] ∧ p.columns = []) (hm : p.mode ≠ .array) :
    ∃ as set, buildPairs l = .ok as ∧ as ≠ [] ∧ mergeSet p as = .ok set ∧
      IsSetClause set (.pairs l) := by
  unfold fitsPairs at h
  simp only [Bool.and_eq_true, Bool.not_eq_true', List.isEmpty_eq_false_iff,
    decide_eq_true_eq] at h
  obtain ⟨as, g, h1, h2⟩ := buildPairs_ok l h.1.2
  have hg : g ≠ [] := by
    rintro rfl
    exact h.1.1 h2.mean.symm
  have hma : (assignAll p g).mode = .associative := assignAll_mode_associative (.inr hg)
  have hcol : ∀ ce ∈ g, ce.1.alias = [] := by
    intro ce hce
    have : ce.1 ∈ g.map (·.1) := List.mem_map.2 ⟨ce, hce, rfl⟩
    rw [h2.columns] at this
    obtain ⟨re, -, h⟩ := List.mem_map.1 this
    rw [← h]
    rfl
  have hsort : g.Pairwise fun x y => x.1.name < y.1.name := by
    have h3 : (g.map (·.1)).Pairwise fun x y => x.name < y.name := by
      rw [h2.columns, List.pairwise_map]
      exact h.2
    rw [List.pairwise_map] at h3
    exact h3
  have hv := assignments_sorted hp hma hcol hsort
  have hb : setBlank (assignAll p g) = false := by
    unfold setBlank
    rw [hma]
    have : (assignAll p g).map ≠ [] := by
      intro he
      obtain ⟨ce, hce⟩ := List.exists_mem_of_ne_nil g hg
      have := lookup_all p g ce.1
      rw [he, hp.1] at this
      have hs := (lastGiven_isSome g ce.1).2 (List.mem_map.2 ⟨ce, hce, rfl⟩)
      simp [mapLookup] at this
      rw [← this] at hs
      cases hs
    simp [this]
  refine ⟨as, assignAll p g, h1, ?_, mergeSet_given h2.given hm, ?_, ?_, ?_, hb⟩
  · rintro rfl
    obtain ⟨gs, h3, rfl⟩ := h2.given
    cases h3
    exact hg rfl
  · unfold plainPairs
    rw [hma]
    simp only [assignments_eq hv, h2.plain]
    simp [hg]
  · unfold meanPairs
    rw [hma]
    simp only [assignments_eq hv, h2.mean]
  · unfold okSet
    rw [hma, hb, hv]
    simp only [zip_fst_snd, h2.ok]
    rfl

theorem setColumns_build {cs : List Ref} (h : cs.all fitsQuoted = true) :
    ∀ {p : PairContainer}, p.mode ≠ .associative → (cs = [] → p.mode = .array) →
      mergeSet p (cs.map buildColumn) =
        .ok { p with mode := .array, columns := p.columns ++ cs.map fun r => Api.Column (refText r) } := by
  induction cs with
  | nil =>
    intro p _ h2
    obtain ⟨mode, _, _, _⟩ := p
    cases (h2 rfl : mode = .array)
    simp [mergeSet]
  | cons r cs ih =>
    intro p h1 _
    simp only [List.all_cons, Bool.and_eq_true] at h
    have hne := plainName_nonempty (fitsQuoted_text h.1).1
    rw [List.map_cons, mergeSet]
    have : mergeSetArg p (buildColumn r) =
        .ok { p with mode := .array, columns := p.columns ++ [Api.Column (refText r)] } := by
      refine mergeSetArg_columns ?_ h1
      exact ⟨hne, rfl⟩
    rw [this]
    simp only
    rw [ih h.2 (by simp) (by simp)]
    simp

theorem useAll_append {as : List Any} : ∀ {xs : List Expr}, appendAll as = .ok xs →
    ∀ {p : PairContainer}, p.mode = .array →
      UpdateStmt.useAll p as = .ok { p with expressions := p.expressions ++ xs } := by
  induction as with
  | nil =>
    intro xs h p _
    cases h
    simp [UpdateStmt.useAll]
  | cons a as ih =>
    intro xs h p hm
    rw [appendAll] at h
    split at h
    · cases h
    · next x hx =>
      split at h
      · cases h
      · next ys hys =>
        cases h
        rw [UpdateStmt.useAll, hx]
        simp only [PairContainer.use, hm, ne_eq, not_true_eq_false, ↓reduceIte]
        rw [ih hys (by simp)]
        simp

/-- What is given to `Using` means `e`. -/
theorem buildUsing_ok (e : Sql) (h : fitsSet e = true) :
    ∃ as xs, buildUsing e = .ok as ∧ as ≠ [] ∧ appendAll as = .ok xs ∧ plainSet xs = true ∧
      meanSet xs (meanExprs xs) = e ∧ okEs xs = true ∧ xs ≠ [] := by
  match e with
  | .list es =>
    rw [fitsSet] at h
    simp only [Bool.and_eq_true, Bool.not_eq_true', List.isEmpty_eq_false_iff] at h
    obtain ⟨as, xs, h1, h2⟩ := buildList_ok es h.2
    have h3 := isSet_list h2 h.1
    refine ⟨as, xs, by rw [buildUsing, h1], ?_, h2.append, h3.plain, ?_, h3.ok, h3.ne⟩
    · rintro rfl
      have := h2.append
      cases this
      exact h3.ne rfl
    · have := h3.mean
      rwa [meanExpr] at this
  | .query q =>
    rw [fitsSet] at h
    obtain ⟨s, h1, h2⟩ := buildSelect_ok q h
    have h3 := isSet_query h2
    refine ⟨_, [.select s], by rw [buildUsing, h1, go_bind], by simp, rfl, h3.plain, ?_, h3.ok, h3.ne⟩
    have := h3.mean
    rwa [meanExpr] at this
  | .ref _ | .star | .null | .value _ | .binary _ _ _ | .not _ | .isIn _ _ _ | .between _ _ _ _
  | .exist _ | .call _ _ _ => cases h

theorem buildSetClause_ok {m : SqlSet} (h : fitsSetClause m = true) {b : UpdateStmt}
    (hb : b.set = PairContainer.new) :
    ∃ set, buildSetClause b m = .ok { b with set := set } ∧ IsSetClause set m := by
  cases m with
  | pairs l =>
    obtain ⟨as, set, h1, h2, h3, h4⟩ := pairs_ok h (p := b.set) (by rw [hb]; exact ⟨rfl, rfl⟩)
      (by rw [hb]; nofun)
    refine ⟨set, ?_, h4⟩
    rw [buildSetClause, h1, go_bind, UpdateStmt.Set, if_neg (by simpa using h2), h3]
  | columns cs e =>
    simp only [fitsSetClause, Bool.and_eq_true, Bool.not_eq_true', List.isEmpty_eq_false_iff] at h
    obtain ⟨⟨hne, hc⟩, he⟩ := h
    obtain ⟨as, xs, h1, h2, h3, h4, h5, h6, h7⟩ := buildUsing_ok e he
    obtain ⟨-, c2, c3⟩ := columns_build hc
    have hset := setColumns_build hc (p := b.set) (by rw [hb]; nofun) (fun h => absurd h hne)
    rw [hb] at hset
    refine ⟨⟨.array, [], cs.map fun r => Api.Column (refText r), xs⟩, ?_, ?_, ?_, ?_, ?_⟩
    · rw [buildSetClause, UpdateStmt.Set, if_neg (by simpa using hne), hb, hset]
      simp only [go_bind, h1, UpdateStmt.Using]
      rw [if_neg (by simp), if_neg (by simpa using h2), useAll_append h3 rfl]
      rfl
    · unfold plainPairs
      simp only [c2, h4]
      simp [hne]
    · unfold meanPairs
      simp only [c3, h5]
    · unfold okSet setBlank
      simp [h6, h7]
    · unfold setBlank
      simp [h7]

/-! ## RETURNING, VALUES, ON CONFLICT -/

theorem returning_ok {β : Type} {b : β} {items : List SqlItem} (h : fitsItems items = true)
    {method : β → List Any → Go β} {field : List SelExpr → β} (h0 : field [] = b)
    (hm : ∀ as xs, toSelectExpressions as = .ok xs → method b as = .ok (field xs)) :
    ∃ xs, buildReturning b items method = .ok (field xs) ∧ plainItems xs = true ∧
      meanItems xs = items ∧ okSels xs = true := by
  obtain ⟨as, xs, h1, h2⟩ := buildItems_ok items h
  refine ⟨xs, ?_, h2.plain, h2.mean, h2.ok⟩
  rw [buildReturning, h1, go_bind, ifAny]
  have := areItems_select h2
  cases as with
  | nil =>
    cases this
    rw [← h0]
    rfl
  | cons a as => exact hm _ _ this

/-- The rows of VALUES. -/
structure AreRows (xss : List (List Expr)) (rows : List (List Sql)) : Prop where
  array : arrayRows (xss.map (·.map .expr)) = .ok (xss.map .array)
  plain : (xss.map Expr.array).all plainRow = true
  mean : (xss.map Expr.array).map meanRow = rows
  ok : okEs (xss.map .array) = true

theorem appendAll_asExprs {xs : List Expr} (h : plainExprs xs = true) :
    appendAll (xs.map .expr) = .ok xs := by
  induction xs with
  | nil => rfl
  | cons x xs ih =>
    rw [plainExprs] at h
    simp only [Bool.and_eq_true] at h
    have : newExpression (.expr x) = .ok x := by
      cases x <;> first | rfl | cases h.1
    simp only [List.map_cons, appendAll, this, ih h.2]

theorem newArray_exprs {xs : List Expr} (h : plainExprs xs = true) :
    newArrayExpression (xs.map .expr) = .ok (.array xs) := by
  have ha := appendAll_asExprs h
  match xs with
  | [] => rfl
  | [x] =>
    have hn : Any.isNil (.expr x) = false := by
      rw [plainExprs] at h
      simp only [Bool.and_eq_true] at h
      cases x <;> first | rfl | cases h.1
    simp only [List.map_cons, List.map_nil] at ha
    simp only [List.map_cons, List.map_nil, newArrayExpression, toArray, hn, ha]
    rfl
  | x :: y :: xs =>
    simp only [List.map_cons] at ha
    simp only [List.map_cons, newArrayExpression, ha]

theorem buildRows_ok (rows : List (List Sql))
    (h : (rows.all fun r => !r.isEmpty && fitsList r) = true) :
    ∃ xss, buildRows rows = .ok xss ∧ AreRows xss rows := by
  induction rows with
  | nil => exact ⟨[], by rw [buildRows], rfl, rfl, rfl, rfl⟩
  | cons r rows ih =>
    simp only [List.all_cons, Bool.and_eq_true, Bool.not_eq_true', List.isEmpty_eq_false_iff] at h
    obtain ⟨xss, h1, h2⟩ := ih (by simpa using h.2)
    obtain ⟨as, xs, h3, h4⟩ := buildList_ok r h.1.2
    have hne : xs ≠ [] := by
      rintro rfl
      exact h.1.1 h4.mean.symm
    refine ⟨xs :: xss, by rw [buildRows, h3, h1, go_bind, h4.exprs, go_bind, go_bind], ?_, ?_, ?_, ?_⟩
    · simp only [List.map_cons, arrayRows, newArray_exprs h4.plain, h2.array]
    · rw [List.map_cons, List.all_cons, h2.plain, plainRow, h4.plain]
      simp [hne]
    · rw [List.map_cons, List.map_cons, h2.mean, meanRow, h4.mean]
    · rw [List.map_cons, okEs, h2.ok, okE, h4.ok]
      rfl

/-- The rows as a field of the statement. -/
def rowsField (xss : List (List Expr)) : Expr :=
  if xss.isEmpty then .nil else .arrayList (xss.map .array)

theorem values_build {b : InsertStmt} (hb : b.values = .nil) {xss : List (List Expr)}
    {rows : List (List Sql)} (h : AreRows xss rows) :
    (ifAny b xss fun b rows => b.Values [.exprss rows]) =
      .ok { b with values := rowsField xss } := by
  cases xss with
  | nil =>
    rw [rowsField, ← hb]
    rfl
  | cons xs xss =>
    have := h.array
    simp only [List.map_cons] at this
    simp only [ifAny, InsertStmt.Values, hb, Expr.isUnset, Expr.isNil]
    simp only [newArrayListExpression, toArrayList, List.map_cons, this]
    rfl

theorem rows_ok {xss : List (List Expr)} {rows : List (List Sql)} (h : AreRows xss rows) :
    plainValues (rowsField xss) = true ∧ meanValues (rowsField xss) = rows ∧
      okIf (rowsField xss).isUnset (okE (rowsField xss)) = true := by
  cases xss with
  | nil =>
    have := h.mean
    exact ⟨rfl, this, rfl⟩
  | cons xs xss =>
    refine ⟨h.plain, h.mean, ?_⟩
    have := h.ok
    simp only [rowsField, List.isEmpty_cons, List.map_cons, Bool.false_eq_true, ↓reduceIte] at this ⊢
    rw [okE, this]
    rfl

theorem onConflict_ok {target : List Ref} (ht : target.all fitsQuoted = true) (a : Any) :
    ∀ (b : InsertStmt), b.onConflictLoop (target.map buildColumn ++ [a]) =
      { b with target := b.target ++ target.map fun r => Api.Column (refText r) }.onConflictLoop [a] := by
  induction target with
  | nil => intro b; simp
  | cons r target ih =>
    intro b
    simp only [List.all_cons, Bool.and_eq_true] at ht
    have hne := plainName_nonempty (fitsQuoted_text ht.1).1
    have hc : toColumn (buildColumn r) = .ok (Api.Column (refText r)) := by
      simp [toColumn, buildColumn, Api.Column, Column.isEmpty, hne]
    rw [List.map_cons, List.cons_append]
    have : ∀ l, b.onConflictLoop (buildColumn r :: l) =
        { b with target := b.target ++ [Api.Column (refText r)] }.onConflictLoop l := by
      intro l
      simp only [buildColumn] at hc ⊢
      rw [InsertStmt.onConflictLoop]
      simp only [hc]
    rw [this, ih ht.2]
    simp

theorem buildConflict_ok {m : Option (List Ref × SqlAction)} (h : fitsConflict m = true)
    {b : InsertStmt} (hb : b.target = [] ∧ b.action = .nil) :
    ∃ target action, buildConflict b m = .ok { b with target := target, action := action } ∧
      target.all plainColumn = true ∧ plainAction action = true ∧ meanConflict target action = m ∧
      (actionBlank action || okAction action) = true := by
  obtain ⟨into, columns, values, target, action, returning, comment⟩ := b
  obtain ⟨rfl, rfl⟩ := hb
  match m with
  | none => exact ⟨[], .nil, rfl, rfl, rfl, rfl, rfl⟩
  | some (target, .nothing) =>
    obtain ⟨-, c2, c3⟩ := columns_build h
    refine ⟨target.map fun r => Api.Column (refText r), .nothing, ?_, c2, rfl, by
      rw [meanConflict, c3], rfl⟩
    rw [buildConflict, InsertStmt.OnConflict, if_neg (by simp [ConflictAction.isEmpty]),
      if_neg (by simp), onConflict_ok h]
    rfl
  | some (target, .update (.pairs l)) =>
    simp only [fitsConflict, Bool.and_eq_true, Bool.not_eq_true', List.isEmpty_eq_false_iff] at h
    obtain ⟨⟨hne, ht⟩, hl⟩ := h
    obtain ⟨-, c2, c3⟩ := columns_build ht
    obtain ⟨as, set, h1, h2, h3, h4⟩ := pairs_ok hl
      (p := { PairContainer.new with mode := .associative }) ⟨rfl, rfl⟩ nofun
    refine ⟨target.map fun r => Api.Column (refText r), .update set, ?_, c2, ?_, ?_, ?_⟩
    · rw [buildConflict, h1, go_bind]
      simp only [doUpdate, toSet, h3, go_bind]
      rw [InsertStmt.OnConflict, if_neg (by simp [ConflictAction.isEmpty]),
        if_neg (by simp), onConflict_ok ht]
      simp [InsertStmt.onConflictLoop, hne]
    · rw [plainAction, h4.plain, Bool.or_true]
    · rw [meanConflict, h4.blank, h4.mean, c3]; rfl
    · rw [okAction, h4.ok, Bool.or_true]
  | some (_, .update (.columns _ _)) => cases h

/-! ## Statements -/

/-- The statement means `m`. -/
structure IsStmt (s : Stmt) (m : SqlStmt) : Prop where
  comment : commentOf s = []
  uncommented : uncommented s = s
  plain : plainStmt s = true
  mean : meanStmt s = m
  ok : okStmt s = true

theorem toTable_build {t : SqlTable} (h : fitsTable t = true) :
    toTable (.table (buildTable t)) = .ok (buildTable t) := by
  have := (fitsTable_build h).2.2
  simp [toTable, Table.isEmpty, this]

theorem toTables_build {l : List SqlTable} (h : l.all fitsTable = true) :
    toTables (l.map fun t => .table (buildTable t)) = .ok (l.map buildTable) ∧
      (l.map buildTable).all plainTable = true ∧ (l.map buildTable).map meanTable = l := by
  induction l with
  | nil => exact ⟨rfl, rfl, rfl⟩
  | cons t l ih =>
    simp only [List.all_cons, Bool.and_eq_true] at h
    obtain ⟨h1, h2, -⟩ := fitsTable_build h.1
    obtain ⟨h4, h5, h6⟩ := ih h.2
    refine ⟨?_, ?_, ?_⟩
    · simp only [List.map_cons, toTables, toTable_build h.1, h4]
    · rw [List.map_cons, List.all_cons, h1, h5]; rfl
    · rw [List.map_cons, List.map_cons, h2, h6]

theorem buildDelete_ok {tables usings : List SqlTable} {whr : Option Sql} {returning : List SqlItem}
    (h : fitsStmt (.delete tables usings whr returning) = true) :
    ∃ s, buildStmt (.delete tables usings whr returning) = .ok s ∧
      IsStmt s (.delete tables usings whr returning) := by
  simp only [fitsStmt, Bool.and_eq_true, Bool.not_eq_true', List.isEmpty_eq_false_iff] at h
  obtain ⟨⟨⟨⟨hne, ht⟩, hu⟩, hw⟩, hr⟩ := h
  obtain ⟨ow, h1, h2⟩ := buildCond_ok whr hw
  obtain ⟨w1, w2, w3⟩ := condField_ok (fun _ _ => good_wrapper) h2
  obtain ⟨t1, t2, t3, t4⟩ := toFromItems_build ht
  obtain ⟨u1, u2, u3⟩ := toTables_build hu
  obtain ⟨xs, r1, r2, r3, r4⟩ := returning_ok hr (b := (⟨tables.map fromItem, usings.map buildTable,
      condField newWrapper ow, [], []⟩ : DeleteStmt)) (method := DeleteStmt.Returning)
    (field := fun xs => ⟨tables.map fromItem, usings.map buildTable, condField newWrapper ow, xs, []⟩)
    rfl (by
      intro as xs h
      simp only [DeleteStmt.Returning, h]
      rfl)
  refine ⟨.delete ⟨tables.map fromItem, usings.map buildTable, condField newWrapper ow, xs, []⟩,
    ?_, rfl, rfl, ?_, ?_, ?_⟩
  · rw [buildStmt, h1, go_bind]
    have e1 : DeleteStmt.zero.From (tables.map buildFrom) =
        .ok ⟨tables.map fromItem, [], .nil, [], []⟩ := by
      simp [DeleteStmt.From, DeleteStmt.zero, toFrom, t1, hne]
    have e2 : ifAny (⟨tables.map fromItem, [], .nil, [], []⟩ : DeleteStmt)
        (usings.map fun t => Any.table (buildTable t)) DeleteStmt.Using =
        .ok ⟨tables.map fromItem, usings.map buildTable, .nil, [], []⟩ := by
      unfold ifAny
      cases usings with
      | nil => rfl
      | cons u usings =>
        rw [if_neg (by simp)]
        unfold DeleteStmt.Using
        rw [if_neg (by simp), u1]
    have e3 : ifSome (⟨tables.map fromItem, usings.map buildTable, .nil, [], []⟩ : DeleteStmt) ow
        DeleteStmt.Where =
        .ok ⟨tables.map fromItem, usings.map buildTable, condField newWrapper ow, [], []⟩ := by
      cases ow <;> rfl
    rw [e1, go_bind, e2, go_bind, e3, go_bind, r1, go_bind]
  · simp only [plainStmt, t2, u2, w1, r2, List.isEmpty_map]
    simp [hne]
  · simp only [meanStmt, t3, u3, w2, r3]
  · simp only [okStmt, t4, w3, r4, List.isEmpty_map]
    simp [hne]

theorem buildUpdate_ok {withs : List SqlWith} {table : SqlTable} {set : SqlSet}
    {tables : List SqlTable} {whr : Option Sql} {returning : List SqlItem}
    (h : fitsStmt (.update withs table set tables whr returning) = true) :
    ∃ s, buildStmt (.update withs table set tables whr returning) = .ok s ∧
      IsStmt s (.update withs table set tables whr returning) := by
  simp only [fitsStmt, Bool.and_eq_true, decide_eq_true_eq] at h
  obtain ⟨⟨⟨⟨⟨⟨hw, ht⟩, hs⟩, hlen⟩, hts⟩, hc⟩, hr⟩ := h
  obtain ⟨ws, h1, h2⟩ := buildWiths_ok withs hw
  obtain ⟨ow, h3, h4⟩ := buildCond_ok whr hc
  obtain ⟨w1, w2, w3⟩ := condField_ok (fun _ _ => good_wrapper) h4
  obtain ⟨f1, f2, f3, f4⟩ := toFromItems_build hts
  have ht' : fitsTable { table with only := false } = true := ht
  obtain ⟨t1, t2, t3⟩ := fitsTable_build ht'
  have t4 : (buildTable { table with only := false }).only = false := by
    have := congrArg SqlTable.only t2
    exact this
  generalize hT : buildTable { table with only := false } = T at t1 t2 t3 t4
  obtain ⟨p, h5, h6⟩ := buildSetClause_ok hs
    (b := ⟨ws, T, table.only, [], PairContainer.new, .nil, [], []⟩) rfl
  obtain ⟨xs, r1, r2, r3, r4⟩ := returning_ok hr
    (b := (⟨ws, T, table.only, tables.map fromItem, p, condField newWrapper ow, [], []⟩ : UpdateStmt))
    (method := UpdateStmt.Returning)
    (field := fun xs => ⟨ws, T, table.only, tables.map fromItem, p, condField newWrapper ow, xs, []⟩)
    rfl (by
      intro as xs h
      simp only [UpdateStmt.Returning, h]
      rfl)
  refine ⟨.update ⟨ws, T, table.only, tables.map fromItem, p, condField newWrapper ow, xs, []⟩,
    ?_, rfl, rfl, ?_, ?_, ?_⟩
  · rw [buildStmt, h1, go_bind, h3, go_bind]
    have e1 : update (.table (buildTable { table with only := false })) =
        .ok ⟨[], T, false, [], PairContainer.new, .nil, [], []⟩ := by
      rw [update, UpdateStmt.new, toTable_build ht', hT]
    have e2 : buildOnly ⟨[], T, false, [], PairContainer.new, .nil, [], []⟩ table.only =
        .ok ⟨[], T, table.only, [], PairContainer.new, .nil, [], []⟩ := by
      cases table.only <;> rfl
    have e3 : ifAny (⟨[], T, table.only, [], PairContainer.new, .nil, [], []⟩ : UpdateStmt) ws
        UpdateStmt.With = .ok ⟨ws, T, table.only, [], PairContainer.new, .nil, [], []⟩ := by
      cases ws <;> rfl
    have e4 : ifSome (⟨ws, T, table.only, [], p, .nil, [], []⟩ : UpdateStmt)
        (tables.head?.map buildFrom) UpdateStmt.From =
        .ok ⟨ws, T, table.only, tables.map fromItem, p, .nil, [], []⟩ := by
      match tables, hlen with
      | [], _ => rfl
      | [t], _ =>
        simp only [List.map_cons, List.map_nil] at f1
        simp [ifSome, UpdateStmt.From, toFrom, f1]
    have e5 : ifSome (⟨ws, T, table.only, tables.map fromItem, p, .nil, [], []⟩ : UpdateStmt) ow
        UpdateStmt.Where =
        .ok ⟨ws, T, table.only, tables.map fromItem, p, condField newWrapper ow, [], []⟩ := by
      cases ow <;> rfl
    rw [e1, go_bind, e2, go_bind, e3, go_bind, h5, go_bind]
    simp only
    rw [e4, go_bind, e5, go_bind, r1, go_bind]
  · simp only [plainStmt, h2.plain, t1, t4, h6.plain, f2, w1, r2]
    simp
  · simp only [meanStmt, h2.mean, t2, t4, h6.mean, f3, w2, r3]
    simp
  · simp only [okStmt, h2.ok, h6.ok, f4, w3, r4]
    simp [t3]

theorem buildInsert_ok {into : SqlTable} {columns : List Ref} {rows : List (List Sql)}
    {conflict : Option (List Ref × SqlAction)} {returning : List SqlItem}
    (h : fitsStmt (.insert into columns rows conflict returning) = true) :
    ∃ s, buildStmt (.insert into columns rows conflict returning) = .ok s ∧
      IsStmt s (.insert into columns rows conflict returning) := by
  simp only [fitsStmt, Bool.and_eq_true] at h
  obtain ⟨⟨⟨⟨hi, hc⟩, hrows⟩, hcf⟩, hr⟩ := h
  obtain ⟨xss, h1, h2⟩ := buildRows_ok rows hrows
  obtain ⟨v1, v2, v3⟩ := rows_ok h2
  obtain ⟨c1, c2, c3⟩ := columns_build hc
  obtain ⟨t1, t2, t3⟩ := fitsTable_build hi
  obtain ⟨target, action, f1, f2, f3, f4, f5⟩ := buildConflict_ok hcf
    (b := ⟨buildTable into, columns.map fun r => Api.Column (refText r), rowsField xss, [], .nil, [], []⟩)
    ⟨rfl, rfl⟩
  obtain ⟨xs, r1, r2, r3, r4⟩ := returning_ok hr
    (b := (⟨buildTable into, columns.map fun r => Api.Column (refText r), rowsField xss, target, action,
      [], []⟩ : InsertStmt)) (method := InsertStmt.Returning)
    (field := fun xs => ⟨buildTable into, columns.map fun r => Api.Column (refText r), rowsField xss,
      target, action, xs, []⟩)
    rfl (by
      intro as xs h
      simp only [InsertStmt.Returning, h]
      rfl)
  refine ⟨.insert ⟨buildTable into, columns.map fun r => Api.Column (refText r), rowsField xss, target,
    action, xs, []⟩, ?_, rfl, rfl, ?_, ?_, ?_⟩
  · rw [buildStmt, h1, go_bind]
    have e1 : insert (.table (buildTable into)) =
        .ok ⟨buildTable into, [], .nil, [], .nil, [], []⟩ := by
      simp [insert, InsertStmt.Into, InsertStmt.zero, toInto, Table.isEmpty, t3]
    have e2 : InsertStmt.Columns ⟨buildTable into, [], .nil, [], .nil, [], []⟩
        (columns.map buildColumn) =
        .ok ⟨buildTable into, columns.map fun r => Api.Column (refText r), .nil, [], .nil, [], []⟩ := by
      unfold InsertStmt.Columns
      rw [c1]
      cases columns <;> rfl
    rw [e1, go_bind, e2, go_bind, values_build rfl h2, go_bind]
    simp only
    rw [f1, go_bind]
    simp only
    rw [r1, go_bind]
  · simp only [plainStmt, t1, c2, v1, f2, f3, r2]
    rfl
  · simp only [meanStmt, t2, c3, v2, f4, r3]
  · simp only [okStmt, v3, f5, r4]
    simp [t3]

theorem buildStmt_ok (m : SqlStmt) (h : fitsStmt m = true) :
    ∃ s, buildStmt m = .ok s ∧ IsStmt s m := by
  cases m with
  | select q =>
    obtain ⟨s, h1, h2⟩ := buildSelect_ok q h
    have hc := h2.comment
    refine ⟨.select s, by rw [buildStmt, h1, go_bind], hc, ?_, h2.plain, by rw [meanStmt, h2.mean],
      h2.ok⟩
    cases s
    simp only at hc
    subst hc
    rfl
  | insert _ _ _ _ _ => exact buildInsert_ok h
  | update _ _ _ _ _ _ => exact buildUpdate_ok h
  | delete _ _ _ _ => exact buildDelete_ok h

end

end Verif
