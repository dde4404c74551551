import Verif.Lemmas.Denote

/-!
# The three contexts replaying the layout of a statement
-/

set_option linter.unusedSectionVars false

namespace Verif
open W Spec

/-! ## Numerals -/

theorem formatNat_inj {a b : Nat} (h : formatNat a = formatNat b) : a = b := by
  have h1 := Nat.ofDigitChars_ten_toDigits (n := a)
  have h2 := Nat.ofDigitChars_ten_toDigits (n := b)
  unfold formatNat at h
  rw [h] at h1
  exact h1.symm.trans h2

theorem append_left_cancel' {a b c : Str} (h : a ++ b = a ++ c) : b = c :=
  List.append_cancel_left h

/-! ## Named arguments -/

/-- `arg_k, arg_(k+1), ...` -/
def namedFrom (k : Nat) : List Val → List (Str × Val)
  | [] => []
  | v :: l => (s%"arg_" ++ formatNat k, v) :: namedFrom (k + 1) l

theorem namedFrom_append (k : Nat) (a b : List Val) :
    namedFrom k (a ++ b) = namedFrom k a ++ namedFrom (k + a.length) b := by
  induction a generalizing k with
  | nil => simp [namedFrom]
  | cons v a ih => simp [namedFrom, ih]; congr 1; omega

theorem namedFrom_length (k : Nat) (a : List Val) : (namedFrom k a).length = a.length := by
  induction a generalizing k with
  | nil => rfl
  | cons v a ih => simp [namedFrom, ih]

theorem namedFrom_key {k : Nat} {a : List Val} {p : Str × Val} (h : p ∈ namedFrom k a) :
    ∃ i, i < a.length ∧ p.1 = s%"arg_" ++ formatNat (k + i) := by
  induction a generalizing k with
  | nil => simp [namedFrom] at h
  | cons v a ih =>
    simp only [namedFrom, List.mem_cons] at h
    rcases h with h | h
    · exact ⟨0, by simp, by rw [h]; rfl⟩
    · obtain ⟨i, hi, hp⟩ := ih h
      exact ⟨i + 1, by simp; omega, by rw [hp]; congr 2; omega⟩

theorem mapAssign_fresh {κ ν : Type} [DecidableEq κ] (k : κ) (v : ν) (m : List (κ × ν))
    (h : ∀ p ∈ m, p.1 ≠ k) : mapAssign k v m = m ++ [(k, v)] := by
  induction m with
  | nil => rfl
  | cons p m ih =>
    obtain ⟨k', v'⟩ := p
    have h1 : k' ≠ k := h (k', v') (by simp)
    simp only [mapAssign, if_neg h1, List.cons_append]
    rw [ih (fun p hp => h p (by simp [hp]))]

theorem mapAssign_namedFrom (a : List Val) (v : Val) :
    mapAssign (s%"arg_" ++ formatNat ((namedFrom 1 a).length + 1)) v (namedFrom 1 a)
      = namedFrom 1 (a ++ [v]) := by
  rw [mapAssign_fresh, namedFrom_append, namedFrom_length]
  · simp only [namedFrom]; congr 5; omega
  · intro p hp h
    obtain ⟨i, hi, hk⟩ := namedFrom_key hp
    rw [hk, namedFrom_length] at h
    have := formatNat_inj (append_left_cancel' h)
    omega

section
variable [GoRuntime]

/-! ## Contexts write additively -/

theorem rawContext_additive : rawContext.Additive where
  write_nil s := by simp [rawContext]
  write_append a b s := by simp [rawContext]

omit [GoRuntime] in
theorem namedContext_additive : namedContext.Additive where
  write_nil s := by simp [namedContext]
  write_append a b s := by simp [namedContext]

omit [GoRuntime] in
theorem stdContext_additive : stdContext.Additive where
  write_nil s := by simp [stdContext]
  write_append a b s := by simp [stdContext]

/-! ## Replaying -/

/-- Shown at the `k`-th bind position by `Query`. -/
def dollar (k : Nat) (_ : Val) : Str := s%"$" ++ formatNat k

/-- Shown at the `k`-th bind position by `NamedQuery`. -/
def colon (k : Nat) (_ : Val) : Str := s%":" ++ (s%"arg_" ++ formatNat k)

/-- Shown at a bind position by `String`. -/
def literal (_ : Nat) (v : Val) : Str :=
  match formatValue v with
  | .ok t => t
  | .error _ => []

theorem run_text_std (t : Str) (l : List Ev) (b : Str) (vs : List Val) :
    stdContext.run (chs t ++ l) ⟨b, vs⟩ = stdContext.run l ⟨b ++ t, vs⟩ := by
  rw [Context.run_append, Context.run_chs _ stdContext_additive]; rfl

theorem run_std (l : List Piece) (b : Str) (vs : List Val) :
    stdContext.run (evs l) ⟨b, vs⟩
      = .ok ⟨b ++ render dollar (vs.length + 1) l, vs ++ arguments l⟩ := by
  induction l generalizing b vs with
  | nil => simp [Context.run, render, arguments]
  | cons p l ih =>
    cases p with
    | sql t => simp [Piece.evs, run_text_std, ih, render, arguments]
    | name t => simp [Piece.evs, run_text_std, ih, render, arguments]
    | raw t => simp [Piece.evs, run_text_std, ih, render, arguments]
    | note t =>
      simp only [evs_cons, Piece.evs, render, arguments]
      generalize s%"; -- " ++ t = x
      simp [run_text_std, ih]
    | val v =>
      cases v
      case nil =>
        simp only [evs_cons, Piece.evs, run_text_std, ih, render, arguments, List.append_assoc]
      all_goals
        simp [Piece.evs, Context.run, stdContext, render, arguments, dollar]
        exact (ih _ _).trans (by simp)

theorem run_text_named (t : Str) (l : List Ev) (b : Str) (vs : Option (List (Str × Val))) :
    namedContext.run (chs t ++ l) ⟨b, vs⟩ = namedContext.run l ⟨b ++ t, vs⟩ := by
  rw [Context.run_append, Context.run_chs _ namedContext_additive]; rfl

/-- The values map of a named query. -/
def namedMap (vs : List Val) : Option (List (Str × Val)) :=
  if vs.isEmpty then none else some (namedFrom 1 vs)

theorem namedMap_getD (vs : List Val) : (namedMap vs).getD [] = namedFrom 1 vs := by
  cases vs <;> simp [namedMap, namedFrom]

theorem namedMap_snoc (vs : List Val) (v : Val) :
    some (namedFrom 1 (vs ++ [v])) = namedMap (vs ++ [v]) := by
  cases vs <;> simp [namedMap]

theorem bind_named (b : Str) (vs : List Val) (v : Val) :
    namedContext.bind v ⟨b, namedMap vs⟩
      = .ok ⟨b ++ colon (vs.length + 1) v, namedMap (vs ++ [v])⟩ := by
  have h := mapAssign_namedFrom vs v
  rw [← namedMap_snoc, ← h]
  simp only [namedContext, namedMap_getD, colon, namedFrom_length]

theorem run_named (l : List Piece) (b : Str) (vs : List Val) :
    namedContext.run (evs l) ⟨b, namedMap vs⟩
      = .ok ⟨b ++ render colon (vs.length + 1) l, namedMap (vs ++ arguments l)⟩ := by
  induction l generalizing b vs with
  | nil => simp [Context.run, render, arguments]
  | cons p l ih =>
    cases p with
    | sql t => simp [Piece.evs, run_text_named, ih, render, arguments]
    | name t => simp [Piece.evs, run_text_named, ih, render, arguments]
    | raw t => simp [Piece.evs, run_text_named, ih, render, arguments]
    | note t =>
      simp only [evs_cons, Piece.evs, render, arguments]
      generalize s%"; -- " ++ t = x
      simp [run_text_named, ih]
    | val v =>
      cases v
      case nil =>
        simp only [evs_cons, Piece.evs, run_text_named, ih, render, arguments, List.append_assoc]
      all_goals
        simp only [evs_cons, Piece.evs, List.cons_append, List.nil_append, Context.run,
          bind_named, render, arguments]
        exact (ih _ _).trans (by simp)

theorem run_text_raw (t : Str) (l : List Ev) (b : Str) :
    rawContext.run (chs t ++ l) b = rawContext.run l (b ++ t) := by
  rw [Context.run_append, Context.run_chs _ rawContext_additive]; rfl

theorem run_raw_ok (l : List Piece) (b : Str) (k : Nat)
    (h : ∀ v ∈ arguments l, ∃ t, formatValue v = .ok t) :
    rawContext.run (evs l) b = .ok (b ++ render literal k l) := by
  induction l generalizing b k with
  | nil => simp [Context.run, render]
  | cons p l ih =>
    cases p with
    | sql t => simp only [arguments] at h; simp [Piece.evs, run_text_raw, ih _ k h, render]
    | name t => simp only [arguments] at h; simp [Piece.evs, run_text_raw, ih _ k h, render]
    | raw t => simp only [arguments] at h; simp [Piece.evs, run_text_raw, ih _ k h, render]
    | note t =>
      simp only [arguments] at h
      simp only [evs_cons, Piece.evs, render]
      generalize s%"; -- " ++ t = x
      simp [run_text_raw, ih _ k h]
    | val v =>
      cases v
      case nil =>
        simp only [arguments] at h
        simp only [evs_cons, Piece.evs, run_text_raw, ih _ k h, render, List.append_assoc]
      all_goals
        simp only [arguments, List.mem_cons] at h
        obtain ⟨t, ht⟩ := h _ (.inl rfl)
        simp only [evs_cons, Piece.evs, List.cons_append, List.nil_append, Context.run,
          rawContext, ht, render, literal]
        exact (ih _ (k + 1) (fun v hv => h v (.inr hv))).trans (by simp)

theorem run_raw_error (l : List Piece) (b : Str) (v : Val) (hv : v ∈ arguments l) (p : Panic)
    (h : formatValue v = .error p) : ∃ q, rawContext.run (evs l) b = .error q := by
  induction l generalizing b with
  | nil => simp [arguments] at hv
  | cons x l ih =>
    cases x with
    | sql t => simp only [arguments] at hv; simp only [evs_cons, Piece.evs, run_text_raw]; exact ih _ hv
    | name t => simp only [arguments] at hv; simp only [evs_cons, Piece.evs, run_text_raw]; exact ih _ hv
    | raw t => simp only [arguments] at hv; simp only [evs_cons, Piece.evs, run_text_raw]; exact ih _ hv
    | note t => simp only [arguments] at hv; simp only [evs_cons, Piece.evs, run_text_raw]; exact ih _ hv
    | val w =>
      cases w
      case nil =>
        simp only [arguments] at hv; simp only [evs_cons, Piece.evs, run_text_raw]; exact ih _ hv
      all_goals
        simp only [evs_cons, Piece.evs, List.cons_append, List.nil_append, Context.run, rawContext]
        simp only [arguments, List.mem_cons] at hv
        rcases hv with rfl | hv
        · rw [h]; exact ⟨p, rfl⟩
        · split
          · exact ⟨_, rfl⟩
          · exact ih _ hv

/-! ## Whole statements -/

theorem query_eq (s : Stmt) (h : okStmt s = true) :
    s.write.query = .ok (render dollar 1 (layout s), arguments (layout s)) := by
  rw [W.query, (denotes_stmt s).1 h _ _ stdContext_additive, run_std]; simp

theorem namedQuery_eq (s : Stmt) (h : okStmt s = true) :
    s.write.namedQuery = .ok (render colon 1 (layout s), namedMap (arguments (layout s))) := by
  rw [W.namedQuery, (denotes_stmt s).1 h _ _ namedContext_additive]
  have := run_named (layout s) [] []
  simp only [namedMap, List.isEmpty_nil, if_true] at this
  rw [this]; simp [namedMap]

theorem string_eq (s : Stmt) (h : okStmt s = true)
    (hv : ∀ v ∈ arguments (layout s), ∃ t, formatValue v = .ok t) :
    s.write.string = .ok (render literal 1 (layout s)) := by
  rw [W.string, (denotes_stmt s).1 h _ _ rawContext_additive, run_raw_ok _ _ 1 hv]; simp

theorem run_std_total (l : List Ev) (s : StdState) : ∃ s', stdContext.run l s = .ok s' := by
  induction l generalizing s with
  | nil => exact ⟨_, rfl⟩
  | cons e l ih => cases e <;> exact ih _

theorem run_named_total (l : List Ev) (s : NamedState) : ∃ s', namedContext.run l s = .ok s' := by
  induction l generalizing s with
  | nil => exact ⟨_, rfl⟩
  | cons e l ih => cases e <;> exact ih _

/-- A statement that does not render panics in the same way in `Query` and `NamedQuery`, and
panics in `String` too. -/
theorem panics (s : Stmt) (h : okStmt s = false) :
    ∃ p, s.write.query = .error p ∧ s.write.namedQuery = .error p ∧
      ∃ q, s.write.string = .error q := by
  obtain ⟨p, l, hl⟩ := (denotes_stmt s).2 h
  refine ⟨p, ?_, ?_, ?_⟩
  · obtain ⟨s', hs'⟩ := run_std_total l ⟨[], []⟩
    rw [W.query, hl _ _ stdContext_additive, hs']
  · obtain ⟨s', hs'⟩ := run_named_total l ⟨[], none⟩
    rw [W.namedQuery, hl _ _ namedContext_additive, hs']
  · rw [W.string, hl _ _ rawContext_additive]
    split
    · exact ⟨_, rfl⟩
    · exact ⟨_, rfl⟩

end

end Verif
