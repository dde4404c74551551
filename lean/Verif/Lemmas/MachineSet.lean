import Verif.Lemmas.Machine

/-!
# Assignments: the last value for a name, in the order of the names
-/

set_option linter.unusedSectionVars false

namespace Verif
open Spec

section
variable [GoRuntime]

/-- The column and the expression mean the assignment. -/
structure PairIs (ce : Column × Expr) (re : Ref × Sql) : Prop where
  column : ce.1 = Api.Column (refText re.1)
  ref : columnRef ce.1 = re.1
  plainCol : plainColumn ce.1 = true
  plainExpr : Spec.plainExpr true ce.2 = true
  mean : meanExpr ce.2 = re.2
  ok : okE ce.2 = true
  tight : Spec.plainExpr false ce.2 = true

theorem buildPairs_each (l : List (Ref × Sql)) (h : fitsAssignments l = true) :
    ∃ as g, buildPairs l = .ok as ∧ GivenArgs as g ∧ Each PairIs g l ∧ (as = [] ↔ l = []) ∧
      ∀ a ∈ as, ∃ k v, a = .pair k v := by
  unfold fitsAssignments at h
  induction l with
  | nil => exact ⟨_, [], by rw [buildPairs], ⟨[], .nil, rfl⟩, .nil, by simp, by simp⟩
  | cons re l ih =>
    obtain ⟨r, e⟩ := re
    simp only [List.all_cons, Bool.and_eq_true] at h
    obtain ⟨as, g, h1, h2, h2', -, h2''⟩ := ih h.2
    obtain ⟨a, x, h3, h4⟩ := build_ok e h.1.2
    obtain ⟨c1, c2⟩ := fitsQuoted_text h.1.1
    have hne := plainName_nonempty c1
    obtain ⟨gs, h5, rfl⟩ := h2
    refine ⟨Api.Pair (buildColumn r) a :: as, (Api.Column (refText r), newWrapper x) :: gs.flatten,
      by rw [buildPairs, h3, h1, go_bind, go_bind], ?_,
      .cons ⟨rfl, ?_, ?_, ?_, ?_, ?_, ?_⟩ h2', by simp,
      List.forall_mem_cons.2 ⟨⟨_, _, rfl⟩, h2''⟩⟩
    · refine ⟨[(Api.Column (refText r), newWrapper x)] :: gs, .cons ⟨_, ⟨?_, ?_⟩, rfl⟩ h5, rfl⟩
      · exact ⟨rfl, hne⟩
      · simp [newWrapped, h4.expr]
    · simp [columnRef, Api.Column, c2]
    · simp [plainColumn, Api.Column, c1]
    · exact h4.wrapped.loosen.plain
    · exact h4.wrapped.mean
    · exact h4.wrapped.ok
    · exact h4.wrapped.plain

/-- `assign` for columns and expressions. -/
def insertPair : List (Column × Expr) → Column × Expr → List (Column × Expr)
  | [], a => [a]
  | b :: l, a =>
    if b.1 = a.1 then a :: l
    else if a.1.name < b.1.name then a :: b :: l
    else b :: insertPair l a

theorem each_insert {g : List (Column × Expr)} {l : List (Ref × Sql)} (h : Each PairIs g l)
    {ce : Column × Expr} {re : Ref × Sql} (ha : PairIs ce re) :
    Each PairIs (insertPair g ce) (assign l re) := by
  induction h with
  | nil => exact .cons ha .nil
  | @cons a b g l h1 h2 ih =>
    rw [insertPair, assign]
    have heq : a.1 = ce.1 ↔ b.1 = re.1 := by
      constructor
      · intro h
        rw [← h1.ref, ← ha.ref, h]
      · intro h
        rw [h1.column, ha.column, h]
    have hlt : ce.1.name < a.1.name ↔ refText re.1 < refText b.1 := by
      rw [h1.column, ha.column]
      exact Iff.rfl
    by_cases h3 : a.1 = ce.1
    · rw [if_pos h3, if_pos (heq.1 h3)]
      exact .cons ha h2
    · rw [if_neg h3, if_neg (fun h => h3 (heq.2 h))]
      by_cases h4 : ce.1.name < a.1.name
      · rw [if_pos h4, if_pos (hlt.1 h4)]
        exact .cons ha (.cons h1 h2)
      · rw [if_neg h4, if_neg (fun h => h4 (hlt.2 h))]
        exact .cons h1 ih

/-- In the order of the names. -/
def Sorted (g : List (Column × Expr)) : Prop := g.Pairwise fun x y => x.1.name < y.1.name

theorem mem_insert_name {g : List (Column × Expr)} {a x : Column × Expr}
    (h : x ∈ insertPair g a) : x = a ∨ x ∈ g := by
  induction g with
  | nil => simpa [insertPair] using h
  | cons b g ih =>
    rw [insertPair] at h
    split at h
    · rcases List.mem_cons.1 h with h | h
      · exact .inl h
      · exact .inr (List.mem_cons_of_mem _ h)
    · split at h
      · rcases List.mem_cons.1 h with h | h
        · exact .inl h
        · exact .inr h
      · rcases List.mem_cons.1 h with h | h
        · exact .inr (by simp [h])
        · rcases ih h with h | h
          · exact .inl h
          · exact .inr (List.mem_cons_of_mem _ h)

theorem sorted_insert {g : List (Column × Expr)} {a : Column × Expr} (hs : Sorted g)
    (hg : ∀ x ∈ g, x.1.alias = []) (ha : a.1.alias = []) : Sorted (insertPair g a) := by
  induction g with
  | nil => exact List.pairwise_singleton _ _
  | cons b g ih =>
    have hs' := List.pairwise_cons.1 hs
    rw [insertPair]
    split
    · next h =>
      refine List.pairwise_cons.2 ⟨?_, hs'.2⟩
      rw [← h]
      exact hs'.1
    · next h =>
      split
      · next hlt =>
        refine List.pairwise_cons.2 ⟨?_, hs⟩
        intro x hx
        rcases List.mem_cons.1 hx with rfl | hx
        · exact hlt
        · exact str_lt_trans hlt (hs'.1 x hx)
      · next hlt =>
        refine List.pairwise_cons.2 ⟨?_, ih hs'.2 fun x hx => hg x (List.mem_cons_of_mem _ hx)⟩
        intro x hx
        rcases mem_insert_name hx with rfl | hx
        · rcases str_trichotomy b.1.name x.1.name with h' | h' | h'
          · exact h'
          · exfalso
            apply h
            have := hg b (by simp)
            obtain ⟨⟨n, al⟩, e⟩ := b
            obtain ⟨⟨n', al'⟩, e'⟩ := x
            simp_all
          · exact absurd h' hlt
        · exact hs'.1 x hx

theorem mem_insert {g : List (Column × Expr)} {a : Column × Expr} (hs : Sorted g) (c : Column)
    (e : Expr) : (c, e) ∈ insertPair g a ↔ if a.1 = c then e = a.2 else (c, e) ∈ g := by
  obtain ⟨d, f⟩ := a
  induction g with
  | nil =>
    by_cases h : d = c
    · simp [insertPair, h]
    · simp [insertPair, h, Ne.symm h]
  | cons b g ih =>
    obtain ⟨b1, b2⟩ := b
    have hs' := List.pairwise_cons.1 hs
    have hnot : (c, e) ∈ g → b1 ≠ c := by
      intro hm he
      have := hs'.1 _ hm
      simp only [he] at this
      exact str_lt_irrefl _ this
    rw [insertPair]
    simp only
    split
    · next h =>
      subst h
      by_cases h : b1 = c
      · subst h
        have : (b1, e) ∉ g := fun hm => hnot hm rfl
        simp [this]
      · simp [h, Ne.symm h]
    · next h =>
      split
      · next hlt =>
        by_cases hc : d = c
        · subst hc
          have h1 : (d, e) ∉ g := by
            intro hm
            have := hs'.1 _ hm
            exact str_lt_irrefl _ (str_lt_trans hlt this)
          have h2 : d ≠ b1 := Ne.symm h
          simp [h1, h2]
        · simp [hc, Ne.symm hc]
      · next hlt =>
        rw [List.mem_cons, ih hs'.2]
        by_cases hc : d = c
        · subst hc
          have h2 : d ≠ b1 := Ne.symm h
          simp [h2]
        · simp [hc]

/-- The container holds the assignments. -/
structure HoldsPairs (p : PairContainer) (l : List (Ref × Sql)) (g : List (Column × Expr)) :
    Prop where
  each : Each PairIs g l
  sorted : Sorted g
  lookup : ∀ c e, mapLookup c p.map = some e ↔ (c, e) ∈ g
  keys : KeysOk p

theorem Each.right {α β : Type} {R : α → β → Prop} {l : List α} {m : List β} (h : Each R l m) {a : α}
    (ha : a ∈ l) : ∃ b ∈ m, R a b := by
  induction h with
  | nil => cases ha
  | cons h _ ih =>
    rcases List.mem_cons.1 ha with rfl | ha
    · exact ⟨_, by simp, h⟩
    · obtain ⟨b, h1, h2⟩ := ih ha
      exact ⟨b, by simp [h1], h2⟩

theorem each_alias {g : List (Column × Expr)} {l : List (Ref × Sql)} (h : Each PairIs g l) :
    ∀ x ∈ g, x.1.alias = [] := by
  intro x hx
  obtain ⟨b, -, hb⟩ := Each.right h hx
  rw [hb.column]
  rfl

theorem holdsPairs_new {p : PairContainer} (hp : p.map = [] ∧ p.columns = []) :
    HoldsPairs p [] [] :=
  ⟨.nil, .nil, by simp [hp.1, mapLookup], by simp [hp.2], by simp [hp.1, hp.2, mapLookup]⟩

theorem holdsPairs_one {p : PairContainer} {l : List (Ref × Sql)} {g : List (Column × Expr)}
    (h : HoldsPairs p l g) {ce : Column × Expr} {re : Ref × Sql} (ha : PairIs ce re) :
    HoldsPairs (assignOne p ce) (assign l re) (insertPair g ce) where
  each := each_insert h.each ha
  sorted := sorted_insert h.sorted (each_alias h.each) (by rw [ha.column]; rfl)
  lookup := by
    intro c e
    rw [assignOne, mapLookup_assign, mem_insert h.sorted]
    by_cases hc : ce.1 = c
    · simp [hc, eq_comm]
    · simp [hc, h.lookup]
  keys := keysOk_one h.keys ce

theorem holdsPairs_all {g' : List (Column × Expr)} {l' : List (Ref × Sql)} (h' : Each PairIs g' l') :
    ∀ {p : PairContainer} {l : List (Ref × Sql)} {g : List (Column × Expr)}, HoldsPairs p l g →
      ∃ g'', HoldsPairs (assignAll p g') (assignMany l l') g'' := by
  induction h' with
  | nil => exact fun h => ⟨_, h⟩
  | @cons a b m n h1 h2 ih => exact fun h => ih (holdsPairs_one h h1)

theorem holdsPairs_values {p : PairContainer} {l : List (Ref × Sql)} {g : List (Column × Expr)}
    (h : HoldsPairs p l g) (hm : p.mode = .associative) :
    p.values = .ok (g.map (·.1), g.map (·.2)) := by
  obtain ⟨m, h1, h2, h3⟩ := values_ok hm h.keys
  have hl : Sorted m := by
    have := sort_columns h.keys.1 (by
      intro c hc
      have := (h.keys.2 c).1 hc
      obtain ⟨e, he⟩ := Option.isSome_iff_exists.1 this
      exact each_alias h.each _ ((h.lookup c e).1 he))
    rw [← h2, List.pairwise_map] at this
    exact this
  have hmem : ∀ x, x ∈ m ↔ x ∈ g := by
    rintro ⟨c, e⟩
    rw [h3, h.lookup]
  have hnd : ∀ l : List (Column × Expr), Sorted l → l.Nodup := by
    intro l hl
    refine List.Pairwise.imp ?_ hl
    rintro a b hab rfl
    exact str_lt_irrefl _ hab
  have hperm : m.Perm g := (List.perm_ext_iff_of_nodup (hnd _ hl) (hnd _ h.sorted)).2 hmem
  have : m = g := by
    refine List.Perm.eq_of_pairwise ?_ hl h.sorted hperm
    intro a b _ _ h3 h4
    exact absurd (str_lt_trans h3 h4) (str_lt_irrefl _)
  rw [h1, this]

theorem each_mean {g : List (Column × Expr)} {l : List (Ref × Sql)} (h : Each PairIs g l) :
    (g.map fun ce => (columnRef ce.1, meanExpr ce.2)) = l ∧
      (g.all fun ce => plainColumn ce.1 && plainExpr true ce.2) = true ∧
      (g.all fun ce => okE ce.2) = true := by
  induction h with
  | nil => exact ⟨rfl, rfl, rfl⟩
  | cons h _ ih =>
    obtain ⟨i1, i2, i3⟩ := ih
    refine ⟨?_, ?_, ?_⟩
    · rw [List.map_cons, i1, h.ref, h.mean]
    · rw [List.all_cons, i2, h.plainCol, h.plainExpr]; rfl
    · rw [List.all_cons, i3, h.ok]; rfl

theorem assign_ne_nil (l : List (Ref × Sql)) (a : Ref × Sql) : assign l a ≠ [] := by
  cases l with
  | nil => simp [assign]
  | cons b l =>
    rw [assign]
    split
    · simp
    · split <;> simp

theorem assignMany_ne_nil {l m : List (Ref × Sql)} (h : l ≠ [] ∨ m ≠ []) : assignMany l m ≠ [] := by
  induction m generalizing l with
  | nil => exact h.resolve_right (fun h => h rfl)
  | cons a m ih => exact ih (.inl (assign_ne_nil l a))

/-- A container with assignments is a SET clause. -/
theorem holdsPairs_set {p : PairContainer} {l : List (Ref × Sql)} {g : List (Column × Expr)}
    (h : HoldsPairs p l g) (hm : p.mode = .associative) (hl : l ≠ []) : IsSetClause p (.pairs l) := by
  have hv := holdsPairs_values h hm
  obtain ⟨m1, m2, m3⟩ := each_mean h.each
  have hg : g ≠ [] := by
    rintro rfl
    exact hl m1.symm
  have hb : setBlank p = false := by
    unfold setBlank
    rw [hm]
    obtain ⟨⟨c, e⟩, hx⟩ := List.exists_mem_of_ne_nil g hg
    have : p.map ≠ [] := by
      intro he
      have := (h.lookup c e).2 hx
      rw [he] at this
      cases this
    simp [this]
  refine ⟨?_, ?_, ?_, hb⟩
  · unfold plainPairs
    rw [hm]
    simp only [assignments_eq hv, m2]
    simp [hg]
  · unfold meanPairs
    rw [hm]
    simp only [assignments_eq hv, m1]
  · unfold okSet
    rw [hm, hb, hv]
    simp only [zip_fst_snd, m3]
    rfl

theorem addPair_array {p : PairContainer} (h : p.mode = .array) (k v : Any) :
    ∃ q, addPair p k v = .error q := by
  unfold addPair
  split
  · exact ⟨_, rfl⟩
  · split
    · exact ⟨_, rfl⟩
    · exact add_array h

theorem mergeSet_array {p : PairContainer} (h : p.mode = .array) (k v : Any) (l : List Any) :
    ∃ q, mergeSet p (.pair k v :: l) = .error q := by
  obtain ⟨q, hq⟩ := addPair_array h k v
  exact ⟨q, by rw [mergeSet, mergeSetArg, hq]⟩

end

end Verif
