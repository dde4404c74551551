import Verif.Lemmas.MachineSet

/-!
# The calls on INSERT, UPDATE and DELETE builders do what the machine says
-/

set_option linter.unusedSectionVars false

namespace Verif
open Spec

section
variable [GoRuntime]

/-- The call panics if the machine refuses it; otherwise the builder then holds the machine's
state. -/
def Tracks {S T C : Type} (R : S → T → Prop) (on : C → T → Option T) (apply : C → S → Go S) (c : C)
    (s : S) (t : T) : Prop :=
  match on c t with
  | some t' => ∃ s', apply c s = .ok s' ∧ R s' t'
  | none => ∃ p, apply c s = .error p

section
variable {S T C : Type} {R : S → T → Prop} {on : C → T → Option T} {apply : C → S → Go S}

theorem tracks_some {c : C} {s s' : S} {t t' : T} (h : on c t = some t') (hb : apply c s = .ok s')
    (hh : R s' t') : Tracks R on apply c s t := by
  rw [Tracks, h]
  exact ⟨s', hb, hh⟩

theorem tracks_none {c : C} {s : S} {t : T} {p : Panic} (h : on c t = none)
    (hb : apply c s = .error p) : Tracks R on apply c s t := by
  rw [Tracks, h]
  exact ⟨p, hb⟩

theorem tracks_all {fits : C → Bool}
    (hstep : ∀ c s t, fits c = true → R s t → Tracks R on apply c s t) (l : List C)
    (hl : l.all fits = true) {s : S} {t : T} (h : R s t) :
    match runSteps on l t with
    | some t' => ∃ s', runAll apply l s = .ok s' ∧ R s' t'
    | none => ∃ p, runAll apply l s = .error p := by
  induction l generalizing s t with
  | nil => exact ⟨s, rfl, h⟩
  | cons c l ih =>
    simp only [List.all_cons, Bool.and_eq_true] at hl
    have hs := hstep c s t hl.1 h
    rw [Tracks] at hs
    rw [runSteps, runAll]
    cases hq : on c t with
    | none =>
      rw [hq] at hs
      obtain ⟨p, hp⟩ := hs
      rw [hp]
      exact ⟨p, rfl⟩
    | some t' =>
      rw [hq] at hs
      obtain ⟨s', hb', hh⟩ := hs
      rw [hb']
      exact ih hl.2 hh

end

/-- The entries of RETURNING. -/
structure ReturningIs (xs : List SelExpr) (is : List SqlItem) : Prop where
  plain : plainItems xs = true
  mean : meanItems xs = is
  ok : okSels xs = true

theorem ReturningIs.empty {xs : List SelExpr} {is : List SqlItem} (h : ReturningIs xs is) :
    xs.isEmpty = is.isEmpty := by
  rw [← h.mean]
  cases xs <;> rfl

theorem returning_build {is : List SqlItem} (h : fitsItems is = true) :
    ∃ as xs, buildItems is = .ok as ∧ toSelectExpressions as = .ok xs ∧ ReturningIs xs is := by
  obtain ⟨as, xs, h1, h2⟩ := buildItems_ok is h
  exact ⟨as, xs, h1, areItems_select h2, h2.plain, h2.mean, h2.ok⟩

/-! ## DELETE -/

/-- The builder holds the statement. -/
structure DelState (b : DeleteStmt) (d : SqlDelete) : Prop where
  tables : b.tables = d.tables.map fromItem
  tablesFit : d.tables.all fitsFrom = true
  tablesNe : d.tables ≠ []
  usings : b.usings = d.usings.map buildTable
  usingsFit : d.usings.all fitsTable = true
  whr : IsWhere b.whr d.whr
  returning : ReturningIs b.returning d.returning
  comment : OneLine b.comment

theorem delState_stmt {b : DeleteStmt} {d : SqlDelete} (h : DelState b d) :
    OneLine b.comment ∧ plainStmt (uncommented (.delete b)) = true ∧
      meanStmt (.delete b) = d.stmt ∧ okStmt (.delete b) = true := by
  obtain ⟨ts, us, w, xs, cm⟩ := b
  obtain ⟨ts', us', w', is⟩ := d
  obtain ⟨rfl, ht, hne, rfl, hu, hw, hr, hc⟩ := h
  simp only at ht hne hu hw hr hc
  obtain ⟨w1, w2, w3⟩ := isWhere_ok hw
  obtain ⟨t1, t2, t3, t4⟩ := toFromItems_build ht
  obtain ⟨u1, u2, u3⟩ := toTables_build hu
  refine ⟨hc, ?_, ?_, ?_⟩
  · simp only [uncommented, plainStmt, t2, u2, w1, hr.plain, List.isEmpty_map]
    simp [hne]
  · simp only [meanStmt, t3, u3, w2, hr.mean, SqlDelete.stmt]
  · simp only [okStmt, t4, w3, hr.ok, List.isEmpty_map]
    simp [hne]

theorem delStep_ok (c : DelStep) (b : DeleteStmt) (d : SqlDelete) (hc : c.fits = true)
    (h : DelState b d) : Tracks DelState DelStep.on DelStep.apply c b d := by
  obtain ⟨ts, us, w, xs, cm⟩ := b
  obtain ⟨ts', us', w', is⟩ := d
  have e1 : ts = ts'.map fromItem := h.tables
  have e2 : us = us'.map buildTable := h.usings
  have e3 : xs.isEmpty = is.isEmpty := h.returning.empty
  have hu : w.isUnset = .ok w'.isNone := isWhere_unset h.whr
  have hne : ts' ≠ [] := h.tablesNe
  cases c with
  | «from» l =>
    refine tracks_none (by simp [DelStep.on, hne])
      (p := .msg "loukoum: delete builder has from clause already defined") ?_
    simp [DelStep.apply, DelStep.call, go_bind, DelCall.apply, DeleteStmt.From, e1, hne, Go.panic]
  | «using» l =>
    have hc : l.all fitsTable = true := hc
    obtain ⟨u1, -⟩ := toTables_build hc
    by_cases hus : us' = []
    · subst hus
      refine tracks_some (s' := ⟨ts, l.map buildTable, w, xs, cm⟩) (t' := ⟨ts', l, w', is⟩)
        (by simp [DelStep.on]) ?_ { h with usings := rfl, usingsFit := hc }
      simp [DelStep.apply, DelStep.call, go_bind, DelCall.apply, DeleteStmt.Using, e2, u1]
    · refine tracks_none (by simp [DelStep.on, hus])
        (p := .msg "loukoum: delete builder has using clause already defined") ?_
      simp [DelStep.apply, DelStep.call, go_bind, DelCall.apply, DeleteStmt.Using, e2, hus, Go.panic]
  | «where» e =>
    obtain ⟨x, h1, h2⟩ := buildExpr_ok hc
    refine tracks_some (s' := ⟨ts, us,
      if w'.isNone then newWrapper x else .infx w (.logical s%"AND") (newWrapper x), xs, cm⟩) rfl ?_
      { h with whr := isWhere_add h.whr h2 (by decide) }
    rw [DelStep.apply, DelStep.call, h1]
    simp only [go_bind, DelCall.apply, DeleteStmt.Where, hu]
    cases w' <;> simp [DeleteStmt.And, whereAnd, hu, newWhere, Types.And]
  | and e =>
    obtain ⟨x, h1, h2⟩ := buildExpr_ok hc
    cases w' with
    | none =>
      refine tracks_none rfl (p := .msg "loukoum: two conditions are required for AND statement") ?_
      rw [DelStep.apply, DelStep.call, h1]
      simp [go_bind, DelCall.apply, DeleteStmt.And, hu, whereAnd, Go.panic]
    | some w0 =>
      refine tracks_some (s' := ⟨ts, us, .infx w (.logical s%"AND") (newWrapper x), xs, cm⟩) rfl ?_
        { h with whr := isWhere_add h.whr h2 (by decide) }
      rw [DelStep.apply, DelStep.call, h1]
      simp [go_bind, DelCall.apply, DeleteStmt.And, whereAnd, hu, Types.And]
  | or e =>
    obtain ⟨x, h1, h2⟩ := buildExpr_ok hc
    cases w' with
    | none =>
      refine tracks_none rfl (p := .msg "loukoum: two conditions are required for OR statement") ?_
      rw [DelStep.apply, DelStep.call, h1]
      simp [go_bind, DelCall.apply, DeleteStmt.Or, hu, whereOr, Go.panic]
    | some w0 =>
      refine tracks_some (s' := ⟨ts, us, .infx w (.logical s%"OR") (newWrapper x), xs, cm⟩) rfl ?_
        { h with whr := isWhere_add h.whr h2 (by decide) }
      rw [DelStep.apply, DelStep.call, h1]
      simp [go_bind, DelCall.apply, DeleteStmt.Or, whereOr, hu, Types.Or]
  | returning l =>
    obtain ⟨as, ys, h1, h2, h3⟩ := returning_build hc
    have e3 := e3.symm
    cases hi : xs.isEmpty with
    | true =>
      rw [hi] at e3
      refine tracks_some (s' := ⟨ts, us, w, ys, cm⟩) (t' := ⟨ts', us', w', l⟩)
        (by rw [DelStep.on, if_pos e3]) ?_ { h with returning := h3 }
      rw [DelStep.apply, DelStep.call, h1]
      simp only [go_bind, DelCall.apply, DeleteStmt.Returning, hi, h2]
      rfl
    | false =>
      rw [hi] at e3
      refine tracks_none (by rw [DelStep.on, if_neg (by simp [e3])])
        (p := .msg "loukoum: delete builder has returning clause already defined") ?_
      rw [DelStep.apply, DelStep.call, h1]
      simp only [go_bind, DelCall.apply, DeleteStmt.Returning, hi]
      rfl
  | comment t =>
    have hc : '\n' ∉ t ∧ '\r' ∉ t := by simpa [DelStep.fits] using hc
    exact tracks_some rfl rfl { h with comment := hc }

theorem deleteOf_ok {t : SqlTable} (h : fitsFrom t = true) :
    ∃ b, delete (buildFrom t) = .ok b ∧ DelState b (deleteStart t) := by
  obtain ⟨f1, -⟩ := toFromItems_build (l := [t]) (by simp [h])
  simp only [List.map_cons, List.map_nil] at f1
  refine ⟨⟨[fromItem t], [], .nil, [], []⟩, ?_, rfl, by simp [deleteStart, h], by simp [deleteStart],
    rfl, rfl, rfl, ⟨rfl, rfl, rfl⟩,
    ⟨fun h => absurd h List.not_mem_nil, fun h => absurd h List.not_mem_nil⟩⟩
  simp [delete, DeleteStmt.From, DeleteStmt.zero, toFrom, f1]

/-! ## UPDATE -/

/-- The container holds the assignments. -/
def SetHolds (p : PairContainer) : SetState → Prop
  | .none => p = PairContainer.new
  | .pairs l => p.mode = .associative ∧ l ≠ [] ∧ ∃ g, HoldsPairs p l g
  | .columns cs es =>
    p.mode = .array ∧ p.map = [] ∧ cs ≠ [] ∧ cs.all fitsQuoted = true ∧
      (p.columns = cs.map fun r => Api.Column (refText r)) ∧ plainExprs p.expressions = true ∧
      meanExprs p.expressions = es ∧ okEs p.expressions = true

/-- The builder holds the statement. -/
structure UpdState (b : UpdateStmt) (u : SqlUpdate) : Prop where
  withs : AreWiths b.withs u.withs
  table : b.table = buildTable { u.table with only := false }
  tableFits : fitsTable u.table = true
  only : b.only = u.table.only
  set : SetHolds b.set u.set
  tables : b.tables = u.tables.map fromItem
  tablesFit : u.tables.all fitsFrom = true
  whr : IsWhere b.whr u.whr
  returning : ReturningIs b.returning u.returning
  comment : OneLine b.comment

/-- What the container is in the statement. -/
def SetIs (p : PairContainer) : SetState → Prop
  | .none => p.isEmpty = true
  | .pairs l => IsSetClause p (.pairs l)
  | .columns cs es =>
    if es.isEmpty then p.isEmpty = true else IsSetClause p (.columns cs (.list es))

theorem setHolds_clause {p : PairContainer} {s : SetState} (h : SetHolds p s) : SetIs p s := by
  cases s with
  | none =>
    cases h
    rfl
  | pairs l =>
    obtain ⟨h1, h2, g, h3⟩ := h
    exact holdsPairs_set h3 h1 h2
  | columns cs es =>
    obtain ⟨h1, h2, h3, h4, h5, h6, h7, h8⟩ := h
    obtain ⟨-, c2, c3⟩ := columns_build h4
    obtain ⟨mode, map, columns, xs⟩ := p
    simp only at h1 h2 h5 h6 h7 h8
    subst h1 h2 h5 h7
    rw [SetIs]
    cases xs with
    | nil => rfl
    | cons x xs =>
      have hs := plainSet_of h6 (by simp)
      have hb : setBlank ⟨.array, [], cs.map fun r => Api.Column (refText r), x :: xs⟩ = false := by
        simp [setBlank]
      rw [meanExprs, List.isEmpty_cons, if_neg (by simp)]
      refine ⟨?_, ?_, ?_, hb⟩
      · unfold plainPairs
        simp only [c2, hs]
        simp [h3]
      · unfold meanPairs
        simp only [c3]
        rcases plainSet_cases hs with ⟨s, hx, -⟩ | ⟨-, -, hm⟩
        · cases hx
          simp [plainExprs, plainExpr] at h6
        · rw [hm, meanExprs]
      · unfold okSet
        rw [hb, h8]
        rfl

theorem updState_stmt {b : UpdateStmt} {u : SqlUpdate} (h : UpdState b u) {m : SqlStmt}
    (hm : u.stmt = some m) :
    OneLine b.comment ∧ plainStmt (uncommented (.update b)) = true ∧
      meanStmt (.update b) = m ∧ okStmt (.update b) = true := by
  obtain ⟨ws, T, only, ts, p, w, xs, cm⟩ := b
  obtain ⟨ws', table, set, ts', w', is⟩ := u
  obtain ⟨hws, rfl, ht, rfl, hs, rfl, hts, hw, hr, hc⟩ := h
  simp only at hws ht hs hts hw hr hc
  obtain ⟨w1, w2, w3⟩ := isWhere_ok hw
  obtain ⟨f1, f2, f3, f4⟩ := toFromItems_build hts
  have ht' : fitsTable { table with only := false } = true := ht
  obtain ⟨t1, t2, t3⟩ := fitsTable_build ht'
  have t4 : (buildTable { table with only := false }).only = false := congrArg SqlTable.only t2
  obtain ⟨s, h6, hm⟩ : ∃ s, IsSetClause p s ∧ m = .update ws' table s ts' w' is := by
    have hcl := setHolds_clause hs
    cases set with
    | none => cases hm
    | pairs l =>
      cases hm
      exact ⟨_, hcl, rfl⟩
    | columns cs es =>
      simp only [SqlUpdate.stmt, SetIs] at hm hcl
      split at hm
      · cases hm
      · next he =>
        cases hm
        rw [if_neg he] at hcl
        exact ⟨_, hcl, rfl⟩
  subst hm
  refine ⟨hc, ?_, ?_, ?_⟩
  · simp only [uncommented, plainStmt, hws.plain, t1, t4, h6.plain, f2, w1, hr.plain]
    simp
  · simp only [meanStmt, hws.mean, t2, t4, h6.mean, f3, w2, hr.mean]
    simp
  · simp only [okStmt, hws.ok, h6.ok, f4, w3, hr.ok]
    simp [t3]

theorem updState_refused {b : UpdateStmt} {u : SqlUpdate} (h : UpdState b u) (hm : u.stmt = none) :
    ∃ p, (Stmt.update b).write.query = .error p := by
  have he : b.set.isEmpty = true := by
    have := setHolds_clause h.set
    rw [SqlUpdate.stmt] at hm
    split at hm
    · next hs => rw [hs] at this; exact this
    · cases hm
    · next cs es hs =>
      rw [hs, SetIs] at this
      split at hm
      · next hes => rwa [if_pos hes] at this
      · cases hm
  refine ⟨.msg "loukoum: an update statement must have a table and/or values", ?_⟩
  simp only [Stmt.write, UpdateStmt.write, he, Bool.or_true, if_true]
  rfl

theorem exprs_append {xs ys : List Expr} (h : plainExprs xs = true) (h' : plainExprs ys = true)
    (hx : okEs xs = true) (hy : okEs ys = true) :
    plainExprs (xs ++ ys) = true ∧ meanExprs (xs ++ ys) = meanExprs xs ++ meanExprs ys ∧
      okEs (xs ++ ys) = true := by
  induction xs with
  | nil => exact ⟨h', by simp [meanExprs], hy⟩
  | cons x xs ih =>
    rw [plainExprs] at h
    rw [okEs] at hx
    simp only [Bool.and_eq_true] at h hx
    obtain ⟨i1, i2, i3⟩ := ih h.2 hx.2
    refine ⟨?_, ?_, ?_⟩
    · rw [List.cons_append, plainExprs, h.1, i1]; rfl
    · rw [List.cons_append, meanExprs, i2, meanExprs]; rfl
    · rw [List.cons_append, okEs, hx.1, i3]; rfl

theorem mergeSet_associative {p : PairContainer} (h : p.mode = .associative) {r : Ref}
    (hr : fitsQuoted r = true) (l : List Any) :
    ∃ q, mergeSet p (buildColumn r :: l) = .error q := by
  have hne := plainName_nonempty (fitsQuoted_text hr).1
  refine ⟨.msg "loukoum: you can only use pairs in key-value or column-list syntax", ?_⟩
  simp [mergeSet, mergeSetArg, buildColumn, toColumns, toColumnsLoop, columnsOfArg,
    Column.isEmpty, Api.Column, hne, setColumns, PairContainer.set, h, Go.panic]

theorem setAssign_ok {p : PairContainer} {s : SetState} (h : SetHolds p s) {l : List (Ref × Sql)}
    (hl : fitsAssignments l = true) :
    ∃ as, buildPairs l = .ok as ∧ as.isEmpty = l.isEmpty ∧
      (l ≠ [] → match s.assign l with
        | some s' => ∃ p', mergeSet p as = .ok p' ∧ SetHolds p' s'
        | none => ∃ q, mergeSet p as = .error q) := by
  obtain ⟨as, g, h1, h2, h3, h4, h5⟩ := buildPairs_each l hl
  refine ⟨as, h1, ?_, ?_⟩
  · rw [Bool.eq_iff_iff, List.isEmpty_iff, List.isEmpty_iff, h4]
  intro hne
  have hg : g ≠ [] := by
    rintro rfl
    cases h3
    exact hne rfl
  obtain ⟨r, l', rfl⟩ := List.exists_cons_of_ne_nil hne
  cases s with
  | none =>
    cases h
    obtain ⟨g', h6⟩ := holdsPairs_all h3 (holdsPairs_new (p := PairContainer.new) ⟨rfl, rfl⟩)
    exact ⟨_, mergeSet_given h2 nofun, assignAll_mode_associative (.inr hg),
      assignMany_ne_nil (.inr hne), g', h6⟩
  | pairs m =>
    obtain ⟨m1, m2, g0, m3⟩ := h
    obtain ⟨g', h6⟩ := holdsPairs_all h3 m3
    exact ⟨_, mergeSet_given h2 (by rw [m1]; nofun), assignAll_mode_associative (.inr hg),
      assignMany_ne_nil (.inr hne), g', h6⟩
  | columns cs es =>
    have has : as ≠ [] := fun h => hne (h4.1 h)
    obtain ⟨a, as', rfl⟩ := List.exists_cons_of_ne_nil has
    obtain ⟨k, v, rfl⟩ := h5 a (by simp)
    exact mergeSet_array h.1 k v as'

theorem setColumns_ok {p : PairContainer} {s : SetState} (h : SetHolds p s) {cs : List Ref}
    (hc : cs.all fitsQuoted = true) (hne : cs ≠ []) :
    match s.addColumns cs with
      | some s' => ∃ p', mergeSet p (cs.map buildColumn) = .ok p' ∧ SetHolds p' s'
      | none => ∃ q, mergeSet p (cs.map buildColumn) = .error q := by
  obtain ⟨r, cs', rfl⟩ := List.exists_cons_of_ne_nil hne
  cases s with
  | none =>
    cases h
    exact ⟨_, setColumns_build hc nofun (by simp), rfl, rfl, hne, hc, rfl, rfl, rfl, rfl⟩
  | pairs m =>
    simp only [List.all_cons, Bool.and_eq_true] at hc
    exact mergeSet_associative h.1 hc.1 _
  | columns cs0 es =>
    obtain ⟨h1, h2, h3, h4, h5, h6, h7, h8⟩ := h
    refine ⟨_, setColumns_build hc (by rw [h1]; nofun) (by simp), rfl, h2, by simp, ?_, ?_, h6, h7, h8⟩
    · rw [List.all_append, h4, hc]; rfl
    · simp only [h5, List.map_append]

theorem setUsing_ok {p : PairContainer} {s : SetState} (h : SetHolds p s) {es : List Sql}
    (he : fitsList es = true) :
    ∃ as, buildList es = .ok as ∧ as.isEmpty = es.isEmpty ∧
      ((∃ cs vs, s = .columns cs vs) → es ≠ [] →
        ∃ s' p', s.addValues es = some s' ∧ UpdateStmt.useAll p as = .ok p' ∧ SetHolds p' s') := by
  obtain ⟨as, xs, h1, h2⟩ := buildList_ok es he
  refine ⟨as, h1, ?_, ?_⟩
  · cases es with
    | nil =>
      rw [buildList] at h1
      cases h1
      rfl
    | cons e es =>
      cases as with
      | nil =>
        have := h2.append
        cases this
        have := h2.mean
        cases this
      | cons a as => rfl
  · rintro ⟨cs, vs, rfl⟩ hne
    obtain ⟨e, es, rfl⟩ := List.exists_cons_of_ne_nil hne
    obtain ⟨g1, g2, g3, g4, g5, g6, g7, g8⟩ := h
    obtain ⟨i1, i2, i3⟩ := exprs_append g6 h2.plain g8 h2.ok
    refine ⟨_, _, rfl, useAll_append h2.append g1, g1, g2, g3, g4, g5, i1, ?_, i3⟩
    simp only [i2, g7, h2.mean]

theorem setHolds_mode {p : PairContainer} {s : SetState} (h : SetHolds p s) :
    p.mode = .array ↔ ∃ cs es, s = .columns cs es := by
  cases s with
  | none =>
    cases h
    exact ⟨nofun, nofun⟩
  | pairs l =>
    obtain ⟨h1, -⟩ := h
    rw [h1]
    exact ⟨nofun, nofun⟩
  | columns cs es => exact ⟨fun _ => ⟨cs, es, rfl⟩, fun _ => h.1⟩

theorem updStep_ok (c : UpdStep) (b : UpdateStmt) (u : SqlUpdate) (hc : c.fits = true)
    (h : UpdState b u) : Tracks UpdState UpdStep.on UpdStep.apply c b u := by
  obtain ⟨ws, T, only, ts, p, w, xs, cm⟩ := b
  obtain ⟨ws', table, set, ts', w', is⟩ := u
  have e1 : ts = ts'.map fromItem := h.tables
  have e3 : xs.isEmpty = is.isEmpty := h.returning.empty
  have hu : w.isUnset = .ok w'.isNone := isWhere_unset h.whr
  have hs : SetHolds p set := h.set
  cases c with
  | only =>
    exact tracks_some (s' := ⟨ws, T, true, ts, p, w, xs, cm⟩)
      (t' := ⟨ws', { table with only := true }, set, ts', w', is⟩) rfl rfl
      { h with only := rfl, table := h.table, tableFits := h.tableFits }
  | set l =>
    obtain ⟨as, h1, h2, h3⟩ := setAssign_ok hs (l := l) hc
    by_cases hne : l = []
    · subst hne
      refine tracks_none (by cases set <;> rfl)
        (p := .msg "loukoum: update set clause requires at least one argument") ?_
      rw [UpdStep.apply, UpdStep.call, h1]
      simp only [go_bind, UpdCall.apply, UpdateStmt.Set, h2]
      rfl
    · have h2' : ¬as.isEmpty = true := by rw [h2]; simpa using hne
      have h3 := h3 hne
      split at h3
      · next s' hs' =>
        obtain ⟨p', h4, h5⟩ := h3
        refine tracks_some (s' := ⟨ws, T, only, ts, p', w, xs, cm⟩)
          (t' := ⟨ws', table, s', ts', w', is⟩) (by rw [UpdStep.on, hs']; rfl) ?_ { h with set := h5 }
        rw [UpdStep.apply, UpdStep.call, h1]
        simp only [go_bind, UpdCall.apply, UpdateStmt.Set]
        rw [if_neg h2', h4]
      · next hs' =>
        obtain ⟨q, h4⟩ := h3
        refine tracks_none (by rw [UpdStep.on, hs']; rfl) (p := q) ?_
        rw [UpdStep.apply, UpdStep.call, h1]
        simp only [go_bind, UpdCall.apply, UpdateStmt.Set]
        rw [if_neg h2', h4]
  | setColumns cs =>
    by_cases hne : cs = []
    · subst hne
      exact tracks_none (by cases set <;> rfl)
        (p := .msg "loukoum: update set clause requires at least one argument") rfl
    · have h2' : ¬(cs.map buildColumn).isEmpty = true := by simpa using hne
      have h3 := setColumns_ok hs hc hne
      split at h3
      · next s' hs' =>
        obtain ⟨p', h4, h5⟩ := h3
        refine tracks_some (s' := ⟨ws, T, only, ts, p', w, xs, cm⟩)
          (t' := ⟨ws', table, s', ts', w', is⟩) (by rw [UpdStep.on, hs']; rfl) ?_ { h with set := h5 }
        rw [UpdStep.apply, UpdStep.call]
        simp only [go_bind, UpdCall.apply, UpdateStmt.Set]
        rw [if_neg h2', h4]
      · next hs' =>
        obtain ⟨q, h4⟩ := h3
        refine tracks_none (by rw [UpdStep.on, hs']; rfl) (p := q) ?_
        rw [UpdStep.apply, UpdStep.call]
        simp only [go_bind, UpdCall.apply, UpdateStmt.Set]
        rw [if_neg h2', h4]
  | «using» es =>
    obtain ⟨as, h1, h2, h3⟩ := setUsing_ok hs (es := es) hc
    by_cases hm : p.mode = .array
    · have hcol := (setHolds_mode hs).1 hm
      by_cases hne : es = []
      · subst hne
        refine tracks_none (by cases set <;> rfl)
          (p := .msg "loukoum: using clause requires a column or an expression") ?_
        rw [UpdStep.apply, UpdStep.call, h1]
        simp only [go_bind, UpdCall.apply, UpdateStmt.Using, hm, h2]
        rfl
      · have h2' : ¬as.isEmpty = true := by rw [h2]; simpa using hne
        obtain ⟨s', p', h4, h5, h6⟩ := h3 hcol hne
        refine tracks_some (s' := ⟨ws, T, only, ts, p', w, xs, cm⟩)
          (t' := ⟨ws', table, s', ts', w', is⟩) (by rw [UpdStep.on, h4]; rfl) ?_ { h with set := h6 }
        rw [UpdStep.apply, UpdStep.call, h1]
        simp only [go_bind, UpdCall.apply, UpdateStmt.Using]
        rw [if_neg (by simp [hm]), if_neg h2', h5]
    · refine tracks_none ?_
        (p := .msg "loukoum: you can only use Using with column-list syntax") ?_
      · have : ∀ cs vs, set ≠ .columns cs vs := by
          rintro cs vs rfl
          exact hm ((setHolds_mode hs).2 ⟨cs, vs, rfl⟩)
        cases set with
        | columns cs vs => exact absurd rfl (this cs vs)
        | none => cases es <;> rfl
        | pairs l => cases es <;> rfl
      · rw [UpdStep.apply, UpdStep.call, h1]
        simp only [go_bind, UpdCall.apply, UpdateStmt.Using]
        rw [if_pos hm]
        rfl
  | «with» l =>
    obtain ⟨ys, h1, h2⟩ := buildWiths_ok l hc
    refine tracks_some (s' := ⟨ws ++ ys, T, only, ts, p, w, xs, cm⟩) rfl ?_
      { h with withs := areWiths_append h.withs h2 }
    rw [UpdStep.apply, UpdStep.call, h1]
    simp only [go_bind, UpdCall.apply, UpdateStmt.With]
    cases ws <;> rfl
  | «where» e =>
    obtain ⟨x, h1, h2⟩ := buildExpr_ok hc
    refine tracks_some (s' := ⟨ws, T, only, ts, p,
      if w'.isNone then newWrapper x else .infx w (.logical s%"AND") (newWrapper x), xs, cm⟩) rfl ?_
      { h with whr := isWhere_add h.whr h2 (by decide) }
    rw [UpdStep.apply, UpdStep.call, h1]
    simp only [go_bind, UpdCall.apply, UpdateStmt.Where, hu]
    cases w' <;> simp [UpdateStmt.And, whereAnd, hu, newWhere, Types.And]
  | and e =>
    obtain ⟨x, h1, h2⟩ := buildExpr_ok hc
    cases w' with
    | none =>
      refine tracks_none rfl (p := .msg "loukoum: two conditions are required for AND statement") ?_
      rw [UpdStep.apply, UpdStep.call, h1]
      simp [go_bind, UpdCall.apply, UpdateStmt.And, hu, whereAnd, Go.panic]
    | some w0 =>
      refine tracks_some (s' := ⟨ws, T, only, ts, p, .infx w (.logical s%"AND") (newWrapper x), xs,
        cm⟩) rfl ?_ { h with whr := isWhere_add h.whr h2 (by decide) }
      rw [UpdStep.apply, UpdStep.call, h1]
      simp [go_bind, UpdCall.apply, UpdateStmt.And, whereAnd, hu, Types.And]
  | or e =>
    obtain ⟨x, h1, h2⟩ := buildExpr_ok hc
    cases w' with
    | none =>
      refine tracks_none rfl (p := .msg "loukoum: two conditions are required for OR statement") ?_
      rw [UpdStep.apply, UpdStep.call, h1]
      simp [go_bind, UpdCall.apply, UpdateStmt.Or, hu, whereOr, Go.panic]
    | some w0 =>
      refine tracks_some (s' := ⟨ws, T, only, ts, p, .infx w (.logical s%"OR") (newWrapper x), xs,
        cm⟩) rfl ?_ { h with whr := isWhere_add h.whr h2 (by decide) }
      rw [UpdStep.apply, UpdStep.call, h1]
      simp [go_bind, UpdCall.apply, UpdateStmt.Or, whereOr, hu, Types.Or]
  | «from» t =>
    have hc : fitsFrom t = true := hc
    obtain ⟨f1, -⟩ := toFromItems_build (l := [t]) (by simp [hc])
    simp only [List.map_cons, List.map_nil] at f1
    by_cases hts : ts' = []
    · subst hts
      refine tracks_some (s' := ⟨ws, T, only, [fromItem t], p, w, xs, cm⟩)
        (t' := ⟨ws', table, set, [t], w', is⟩) (by simp [UpdStep.on]) ?_
        { h with tables := rfl, tablesFit := by simp [hc] }
      simp [UpdStep.apply, UpdStep.call, go_bind, UpdCall.apply, UpdateStmt.From, e1, toFrom, f1]
    · refine tracks_none (by simp [UpdStep.on, hts])
        (p := .msg "loukoum: update builder has from clause already defined") ?_
      simp [UpdStep.apply, UpdStep.call, go_bind, UpdCall.apply, UpdateStmt.From, e1, hts, Go.panic]
  | returning l =>
    obtain ⟨as, ys, h1, h2, h3⟩ := returning_build hc
    have e3 := e3.symm
    cases hi : xs.isEmpty with
    | true =>
      rw [hi] at e3
      refine tracks_some (s' := ⟨ws, T, only, ts, p, w, ys, cm⟩) (t' := ⟨ws', table, set, ts', w', l⟩)
        (by rw [UpdStep.on, if_pos e3]) ?_ { h with returning := h3 }
      rw [UpdStep.apply, UpdStep.call, h1]
      simp only [go_bind, UpdCall.apply, UpdateStmt.Returning, hi, h2]
      rfl
    | false =>
      rw [hi] at e3
      refine tracks_none (by rw [UpdStep.on, if_neg (by simp [e3])])
        (p := .msg "loukoum: update builder has returning clause already defined") ?_
      rw [UpdStep.apply, UpdStep.call, h1]
      simp only [go_bind, UpdCall.apply, UpdateStmt.Returning, hi]
      rfl
  | comment t =>
    have hc : '\n' ∉ t ∧ '\r' ∉ t := by simpa [UpdStep.fits] using hc
    exact tracks_some rfl rfl { h with comment := hc }

theorem updateOf_ok {t : SqlTable} (h : fitsTable t = true) (ho : t.only = false) :
    ∃ b, update (.table (buildTable t)) = .ok b ∧ UpdState b (updateStart t) := by
  refine ⟨⟨[], buildTable t, false, [], PairContainer.new, .nil, [], []⟩, ?_, ⟨rfl, rfl, rfl⟩, ?_, h,
    ho.symm, rfl, rfl, rfl, rfl, ⟨rfl, rfl, rfl⟩,
    ⟨fun h => absurd h List.not_mem_nil, fun h => absurd h List.not_mem_nil⟩⟩
  · rw [update, UpdateStmt.new, toTable_build h]
  · rw [updateStart]
    simp only [← ho]

/-! ## INSERT -/

/-- The fields hold the ON CONFLICT clause. -/
def ConflictHolds (target : List Column) (action : ConflictAction) :
    Option (List Ref × SqlAction) → Prop
  | none => target = [] ∧ action = .nil
  | some c =>
    action.isEmpty = false ∧ target.all plainColumn = true ∧ plainAction action = true ∧
      meanConflict target action = some c ∧ (actionBlank action || okAction action) = true

/-- The builder holds the statement. -/
structure InsState (b : InsertStmt) (i : SqlInsert) : Prop where
  into : b.into = buildTable i.into
  intoFits : fitsTable i.into = true
  columns : b.columns = i.columns.map fun r => Api.Column (refText r)
  columnsFit : i.columns.all fitsQuoted = true
  values : ∃ xss, b.values = rowsField xss ∧ AreRows xss i.rows
  conflict : ConflictHolds b.target b.action i.conflict
  returning : ReturningIs b.returning i.returning
  comment : OneLine b.comment

theorem insState_stmt {b : InsertStmt} {i : SqlInsert} (h : InsState b i) :
    OneLine b.comment ∧ plainStmt (uncommented (.insert b)) = true ∧
      meanStmt (.insert b) = i.stmt ∧ okStmt (.insert b) = true := by
  obtain ⟨T, cs, v, target, action, xs, cm⟩ := b
  obtain ⟨t, cs', rows, cf, is⟩ := i
  obtain ⟨rfl, ht, rfl, hcs, ⟨xss, rfl, hv⟩, hcf, hr, hc⟩ := h
  simp only at ht hcs hv hcf hr hc
  obtain ⟨v1, v2, v3⟩ := rows_ok hv
  obtain ⟨-, c2, c3⟩ := columns_build hcs
  obtain ⟨t1, t2, t3⟩ := fitsTable_build ht
  obtain ⟨f2, f3, f4, f5⟩ : target.all plainColumn = true ∧ plainAction action = true ∧
      meanConflict target action = cf ∧ (actionBlank action || okAction action) = true := by
    cases cf with
    | none =>
      obtain ⟨rfl, rfl⟩ := hcf
      exact ⟨rfl, rfl, rfl, rfl⟩
    | some c => exact hcf.2
  refine ⟨hc, ?_, ?_, ?_⟩
  · simp only [uncommented, plainStmt, t1, c2, v1, f2, f3, hr.plain]
    rfl
  · simp only [meanStmt, t2, c3, v2, f4, hr.mean, SqlInsert.stmt]
  · simp only [okStmt, v3, f5, hr.ok]
    simp [t3]

theorem values_unset {v : Expr} {rows : List (List Sql)}
    (h : ∃ xss, v = rowsField xss ∧ AreRows xss rows) : v.isUnset = .ok rows.isEmpty := by
  obtain ⟨xss, rfl, h⟩ := h
  have := h.mean
  subst this
  cases xss <;> rfl

theorem each_fits {g : List (Column × Expr)} {l : List (Ref × Sql)} (h : Each PairIs g l) :
    g.map (·.1) = (l.map (·.1)).map (fun r => Api.Column (refText r)) ∧
      plainExprs (g.map (·.2)) = true ∧ meanExprs (g.map (·.2)) = l.map (·.2) ∧
      okEs (g.map (·.2)) = true := by
  induction h with
  | nil => exact ⟨rfl, rfl, rfl, rfl⟩
  | cons h _ ih =>
    obtain ⟨i1, i2, i3, i4⟩ := ih
    refine ⟨?_, ?_, ?_, ?_⟩
    · simp only [List.map_cons, i1, h.column]
    · rw [List.map_cons, plainExprs, h.plainExpr, i2]; rfl
    · rw [List.map_cons, meanExprs, i3, h.mean]; rfl
    · rw [List.map_cons, okEs, h.ok, i4]; rfl

theorem assign_fits {l : List (Ref × Sql)} {a : Ref × Sql} (h : (l.all fun x => fitsQuoted x.1) = true)
    (ha : fitsQuoted a.1 = true) : ((assign l a).all fun x => fitsQuoted x.1) = true := by
  induction l with
  | nil => simp [assign, ha]
  | cons b l ih =>
    simp only [List.all_cons, Bool.and_eq_true] at h
    rw [assign]
    split
    · simp only [List.all_cons, ha, h.2]; rfl
    · split
      · simp only [List.all_cons, ha, h.1, h.2]; rfl
      · simp only [List.all_cons, h.1, ih h.2]; rfl

theorem assignMany_fits {m : List (Ref × Sql)} (hm : fitsAssignments m = true) :
    ∀ {l : List (Ref × Sql)}, (l.all fun x => fitsQuoted x.1) = true →
      ((assignMany l m).map (·.1)).all fitsQuoted = true := by
  unfold fitsAssignments at hm
  induction m with
  | nil =>
    intro l h
    rw [List.all_map]
    exact h
  | cons a m ih =>
    intro l h
    simp only [List.all_cons, Bool.and_eq_true] at hm
    exact ih hm.2 (assign_fits h hm.1.1)

/-- The assignments given to `Set` or `DoUpdate`. -/
theorem toSet_ok {l : List (Ref × Sql)} (h : fitsAssignments l = true) (hne : l ≠ []) :
    ∃ as p g, buildPairs l = .ok as ∧ toSet as = .ok p ∧ p.mode = .associative ∧
      HoldsPairs p (assignMany [] l) g := by
  obtain ⟨as, g, h1, h2, h3, -⟩ := buildPairs_each l h
  obtain ⟨g', h4⟩ := holdsPairs_all h3
    (holdsPairs_new (p := { PairContainer.new with mode := .associative }) ⟨rfl, rfl⟩)
  refine ⟨as, _, g', h1, mergeSet_given h2 nofun, assignAll_mode_associative (.inr ?_), h4⟩
  rintro rfl
  cases h3
  exact hne rfl

theorem arrayList_exprs {xs : List Expr} (h : plainExprs xs = true) (hne : xs ≠ []) :
    newArrayListExpression [.exprs xs] = .ok (.arrayList [.array xs]) := by
  have h1 := appendAll_asExprs h
  obtain ⟨x, xs, rfl⟩ := List.exists_cons_of_ne_nil hne
  simp only [newArrayListExpression, toArrayList, newArrayExpression, toArray]
  rw [if_neg (by simp [Any.isNil])]
  simp only [h1]

theorem onConflict_again {b : InsertStmt} (h : b.action.isEmpty = false) (args : List Any) :
    b.OnConflict args = .error (.msg "loukoum: insert builder has on conflict clause already defined") := by
  rw [InsertStmt.OnConflict, h]
  rfl

theorem insStep_ok (c : InsStep) (b : InsertStmt) (i : SqlInsert) (hc : c.fits = true)
    (h : InsState b i) : Tracks InsState InsStep.on InsStep.apply c b i := by
  obtain ⟨T, cs, v, target, action, xs, cm⟩ := b
  obtain ⟨t, cs', rows, cf, is⟩ := i
  have e1 : T = buildTable t := h.into
  have e2 : cs = cs'.map fun r => Api.Column (refText r) := h.columns
  have e3 : xs.isEmpty = is.isEmpty := h.returning.empty
  have hu : v.isUnset = .ok rows.isEmpty := values_unset h.values
  have hcf : ConflictHolds target action cf := h.conflict
  cases c with
  | into t' =>
    have hn := (fitsTable_build h.intoFits).2.2
    refine tracks_none rfl (p := .msg "loukoum: insert builder has into clause already defined") ?_
    simp only at hn
    simp [InsStep.apply, InsStep.call, go_bind, InsCall.apply, InsertStmt.Into, e1, Table.isEmpty, hn,
      Go.panic]
  | columns l =>
    have hc : l.all fitsQuoted = true := hc
    obtain ⟨c1, -⟩ := columns_build hc
    by_cases hl : l = []
    · subst hl
      exact tracks_some (by rw [InsStep.on, if_pos rfl]) rfl h
    · by_cases hcs : cs' = []
      · subst hcs
        refine tracks_some (s' := ⟨T, l.map fun r => Api.Column (refText r), v, target, action, xs, cm⟩)
          (t' := ⟨t, l, rows, cf, is⟩) (by rw [InsStep.on, if_neg hl, if_pos rfl]) ?_
          { h with columns := rfl, columnsFit := hc }
        simp [InsStep.apply, InsStep.call, go_bind, InsCall.apply, InsertStmt.Columns, e2, hl, c1]
      · refine tracks_none (by rw [InsStep.on, if_neg hl, if_neg hcs])
          (p := .msg "loukoum: insert builder has columns clause already defined") ?_
        simp [InsStep.apply, InsStep.call, go_bind, InsCall.apply, InsertStmt.Columns, e2, hl, hcs,
          Go.panic]
  | values rs =>
    simp only [InsStep.fits, Bool.and_eq_true, Bool.not_eq_true', List.isEmpty_eq_false_iff] at hc
    obtain ⟨xss, h1, h2⟩ := buildRows_ok rs (by simpa using hc.2)
    have hxs : xss ≠ [] := by
      rintro rfl
      exact hc.1 h2.mean.symm
    obtain ⟨x, xss, rfl⟩ := List.exists_cons_of_ne_nil hxs
    cases hr : rows.isEmpty with
    | true =>
      rw [hr] at hu
      refine tracks_some (s' := ⟨T, cs, rowsField (x :: xss), target, action, xs, cm⟩)
        (t' := ⟨t, cs', rs, cf, is⟩) (by rw [InsStep.on, if_pos hr]) ?_
        { h with values := ⟨_, rfl, h2⟩ }
      have h3 := h2.array
      simp only [List.map_cons] at h3
      rw [InsStep.apply, InsStep.call, h1]
      simp only [go_bind, InsCall.apply, InsertStmt.Values, hu]
      simp only [newArrayListExpression, toArrayList, List.map_cons, h3]
      rfl
    | false =>
      rw [hr] at hu
      refine tracks_none (by rw [InsStep.on, if_neg (by simp [hr])])
        (p := .msg "loukoum: insert builder has values clause already defined") ?_
      rw [InsStep.apply, InsStep.call, h1]
      simp only [go_bind, InsCall.apply, InsertStmt.Values, hu]
      rfl
  | set l =>
    simp only [InsStep.fits, Bool.and_eq_true, Bool.not_eq_true', List.isEmpty_eq_false_iff] at hc
    obtain ⟨as, p, g, h1, h2, h3, h4⟩ := toSet_ok hc.2 hc.1
    obtain ⟨g1, g2, g3, g4⟩ := each_fits h4.each
    have hv := holdsPairs_values h4 h3
    have hne : g.map (·.2) ≠ [] := by
      intro hn
      rw [hn] at g3
      exact assignMany_ne_nil (l := []) (.inr hc.1) (List.map_eq_nil_iff.1 g3.symm)
    have rows_one : AreRows [g.map (·.2)] [(assignMany [] l).map (·.2)] := by
      refine ⟨?_, ?_, ?_, ?_⟩
      · simp only [List.map_cons, List.map_nil, arrayRows, newArray_exprs g2]
      · simp only [List.map_cons, List.map_nil, List.all_cons, List.all_nil, plainRow, g2]
        simpa using hne
      · simp only [List.map_cons, List.map_nil, meanRow, g3]
      · rw [List.map_cons, List.map_nil, okEs, okE, g4, okEs]
        rfl
    by_cases hcs : cs' = []
    · cases hr : rows.isEmpty with
      | true =>
        subst hcs
        rw [hr] at hu
        refine tracks_some (s' := ⟨T, g.map (·.1), rowsField [g.map (·.2)], target, action, xs, cm⟩)
          (t' := ⟨t, (assignMany [] l).map (·.1), [(assignMany [] l).map (·.2)], cf, is⟩)
          (by rw [InsStep.on, if_pos ⟨rfl, hr⟩]) ?_ ?_
        rotate_left
        · exact { h with
            columns := g1, columnsFit := assignMany_fits hc.2 rfl
            values := ⟨[g.map (·.2)], rfl, rows_one⟩ }
        · rw [InsStep.apply, InsStep.call, h1]
          simp only [go_bind, InsCall.apply, InsertStmt.Set, hu, h2, hv, arrayList_exprs g2 hne, e2]
          rfl
      | false =>
        rw [hr] at hu
        refine tracks_none (by rw [InsStep.on, if_neg (by simp [hr])])
          (p := .msg "loukoum: insert builder has values clause already defined") ?_
        subst hcs
        rw [InsStep.apply, InsStep.call, h1]
        simp only [go_bind, InsCall.apply, InsertStmt.Set, e2, hu]
        rfl
    · refine tracks_none (by rw [InsStep.on, if_neg (by simp [hcs])])
        (p := .msg "loukoum: insert builder has columns clause already defined") ?_
      rw [InsStep.apply, InsStep.call, h1]
      simp [go_bind, InsCall.apply, InsertStmt.Set, e2, hcs, Go.panic]
  | conflictNothing l =>
    have hc : l.all fitsQuoted = true := hc
    obtain ⟨-, c2, c3⟩ := columns_build hc
    cases cf with
    | none =>
      obtain ⟨rfl, rfl⟩ := hcf
      refine tracks_some
        (s' := ⟨T, cs, v, l.map fun r => Api.Column (refText r), .nothing, xs, cm⟩)
        (t' := ⟨t, cs', rows, some (l, .nothing), is⟩) rfl ?_
        { h with conflict := ⟨rfl, c2, rfl, by rw [meanConflict, c3], rfl⟩ }
      rw [InsStep.apply, InsStep.call]
      simp only [go_bind, InsCall.apply]
      rw [InsertStmt.OnConflict, if_neg (by simp [ConflictAction.isEmpty]), if_neg (by simp),
        onConflict_ok hc]
      rfl
    | some c =>
      refine tracks_none rfl
        (p := .msg "loukoum: insert builder has on conflict clause already defined") ?_
      rw [InsStep.apply, InsStep.call]
      simp only [go_bind, InsCall.apply]
      exact onConflict_again hcf.1 _
  | conflictUpdate l m =>
    simp only [InsStep.fits, Bool.and_eq_true, Bool.not_eq_true', List.isEmpty_eq_false_iff] at hc
    obtain ⟨⟨hl, hne⟩, hm⟩ := hc
    obtain ⟨as, p, g, h1, h2, h3, h4⟩ := toSet_ok hm hne
    have h5 := holdsPairs_set h4 h3 (assignMany_ne_nil (.inr hne))
    obtain ⟨-, c2, c3⟩ := columns_build hl
    cases cf with
    | none =>
      obtain ⟨rfl, rfl⟩ := hcf
      by_cases hle : l = []
      · subst hle
        refine tracks_none (by rw [InsStep.on, if_neg (by simp)])
          (p := .msg "loukoum: on conflict update clause requires at least one target") ?_
        rw [InsStep.apply, InsStep.call, h1]
        simp only [go_bind, doUpdate, h2, InsCall.apply]
        rfl
      · have hpe : p.isEmpty = false := by
          have := h5.blank
          unfold setBlank at this
          rw [h3] at this
          unfold PairContainer.isEmpty
          rw [h3]
          simp only at this
          simp [this]
        refine tracks_some
          (s' := ⟨T, cs, v, l.map fun r => Api.Column (refText r), .update p, xs, cm⟩)
          (t' := ⟨t, cs', rows, some (l, .update (.pairs (assignMany [] m))), is⟩)
          (by rw [InsStep.on, if_pos ⟨rfl, hle⟩]) ?_ ?_
        rotate_left
        · exact { h with conflict := ⟨hpe, c2, by rw [plainAction, h5.plain, Bool.or_true],
            by rw [meanConflict, h5.blank, h5.mean, c3]; rfl,
            by rw [okAction, h5.ok, Bool.or_true]⟩ }
        · rw [InsStep.apply, InsStep.call, h1]
          simp only [go_bind, doUpdate, h2, InsCall.apply]
          rw [InsertStmt.OnConflict, if_neg (by simp [ConflictAction.isEmpty]), if_neg (by simp),
            onConflict_ok hl]
          simp [InsertStmt.onConflictLoop, hle]
    | some c =>
      refine tracks_none (by rw [InsStep.on, if_neg (by simp)])
        (p := .msg "loukoum: insert builder has on conflict clause already defined") ?_
      rw [InsStep.apply, InsStep.call, h1]
      simp only [go_bind, doUpdate, h2, InsCall.apply]
      exact onConflict_again hcf.1 _
  | returning l =>
    obtain ⟨as, ys, h1, h2, h3⟩ := returning_build hc
    have e3 := e3.symm
    cases hi : xs.isEmpty with
    | true =>
      rw [hi] at e3
      refine tracks_some (s' := ⟨T, cs, v, target, action, ys, cm⟩) (t' := ⟨t, cs', rows, cf, l⟩)
        (by rw [InsStep.on, if_pos e3]) ?_ { h with returning := h3 }
      rw [InsStep.apply, InsStep.call, h1]
      simp only [go_bind, InsCall.apply, InsertStmt.Returning, hi, h2]
      rfl
    | false =>
      rw [hi] at e3
      refine tracks_none (by rw [InsStep.on, if_neg (by simp [e3])])
        (p := .msg "loukoum: insert builder has returning clause already defined") ?_
      rw [InsStep.apply, InsStep.call, h1]
      simp only [go_bind, InsCall.apply, InsertStmt.Returning, hi]
      rfl
  | comment t =>
    have hc : '\n' ∉ t ∧ '\r' ∉ t := by simpa [InsStep.fits] using hc
    exact tracks_some rfl rfl { h with comment := hc }

theorem insertOf_ok {t : SqlTable} (h : fitsTable t = true) :
    ∃ b, insert (.table (buildTable t)) = .ok b ∧ InsState b (insertStart t) := by
  have t3 := (fitsTable_build h).2.2
  refine ⟨⟨buildTable t, [], .nil, [], .nil, [], []⟩, ?_, rfl, h, rfl, rfl,
    ⟨[], rfl, rfl, rfl, rfl, rfl⟩, ⟨rfl, rfl⟩, ⟨rfl, rfl, rfl⟩,
    ⟨fun h => absurd h List.not_mem_nil, fun h => absurd h List.not_mem_nil⟩⟩
  simp [insert, InsertStmt.Into, InsertStmt.zero, toInto, Table.isEmpty, t3]

end

end Verif
