import Verif.Spec.Portable
import Verif.Lemmas.HeapRender
import Verif.Lemmas.Pairs
import Verif.Lemmas.RawText

/-!
# Two versions of Go: lemmas
-/

namespace Verif
open Spec

/-- Columns whose aliases do not contradict the names are put in one order by every version. -/
theorem portable_sort (r r' : GoRuntime) {l : List Column} (ha : Agree l) :
    r.sortSlice columnLess l = r'.sortSlice columnLess l := by
  refine List.Perm.eq_of_pairwise ?_ (@sort_agree_sorted r l ha) (@sort_agree_sorted r' l ha)
    ((r.sortSlice_perm columnLess l).trans (r'.sortSlice_perm columnLess l).symm)
  intro a b _ _ h1 h2
  exact @columnLess_eq r _ _ h2 h1

theorem portable_values (r r' : GoRuntime) {p : PairContainer}
    (h : p.mode = .associative → Agree p.columns) :
    @PairContainer.values r p = @PairContainer.values r' p := by
  unfold PairContainer.values
  split
  · rfl
  · next hm =>
    rw [portable_sort r r' (h (by simpa using hm))]

theorem portable_quoteRune (r r' : GoRuntime) {c : Char} (h : r.isPrint c = r'.isPrint c) :
    @quoteRune r c = @quoteRune r' c := by
  unfold quoteRune
  rw [h]

theorem portable_quote (r r' : GoRuntime) {n : Str} (h : SamePrint r r' n) :
    @quote r n = @quote r' n := by
  unfold quote
  congr 1
  apply List.map_congr_left
  intro p hp
  unfold goQuote
  have : p.flatMap (@quoteRune r) = p.flatMap (@quoteRune r') := by
    rw [List.flatMap_def, List.flatMap_def]
    congr 1
    exact List.map_congr_left fun c hc => portable_quoteRune r r' (h c (mem_splitOn hp c hc))
  rw [this]

theorem portable_ascii (r r' : GoRuntime) {t : Str} (h : Ascii t) : SamePrint r r' t :=
  fun c hc => by rw [r.isPrint_ascii c (h c hc), r'.isPrint_ascii c (h c hc)]

theorem portable_render (r r' : GoRuntime) (ph : Nat → Val → Str) {l : List Piece}
    (h : ∀ n ∈ namesOf l, SamePrint r r' n) (k : Nat) : @render r ph k l = @render r' ph k l := by
  induction l generalizing k with
  | nil => rfl
  | cons p l ih =>
    cases p with
    | name n =>
      have h1 := ih (fun m hm => h m (List.mem_cons_of_mem _ hm)) k
      simp only [render, h1, portable_quote r r' (h n (List.mem_cons_self ..))]
    | sql t => simp only [render, ih h]
    | raw t => simp only [render, ih h]
    | note t => simp only [render, ih h]
    | val v => cases v <;> simp only [render, ih h]

theorem portable_value (r r' : GoRuntime) : (v : Val) → SameSprint r r' v →
    @formatValue r v = @formatValue r' v
  | .valuerOk _ v, h => by
    simp only [formatValue]
    exact portable_value r r' v h
  | .slice k l, h => by
    simp only [formatValue, formatSlice]
    cases k <;> first | rfl | exact congrArg _ h
  | .opaque ty id, h => by
    simp only [formatValue]
    exact congrArg _ h
  | .nil, _ | .str _, _ | .bytes _, _ | .time _ _, _ | .valuerNil _, _ | .valuerErr _, _
  | .bool _, _ | .float32 _, _ | .float64 _, _ => by simp only [formatValue]
  | .int k _, _ => by cases k <;> simp only [formatValue]
  | .uint k _, _ => by cases k <;> simp only [formatValue]

theorem portable_raw (r r' : GoRuntime) {l : List Piece} (h : ∀ n ∈ namesOf l, SamePrint r r' n)
    (hv : ∀ v ∈ arguments l, SameSprint r r' v) : @rawText r l = @rawText r' l := by
  induction l with
  | nil => rfl
  | cons p l ih =>
    have h1 : ∀ n ∈ namesOf l, SamePrint r r' n := by
      intro n hn
      refine h n ?_
      cases p <;> simp only [namesOf, List.mem_cons, hn, or_true]
    have h2 : ∀ v ∈ arguments l, SameSprint r r' v := by
      intro v hm
      refine hv v ?_
      cases p with
      | val w => cases w <;> simp only [arguments, List.mem_cons, hm, or_true]
      | _ => simpa only [arguments] using hm
    have h3 : @Piece.rawText r p = @Piece.rawText r' p := by
      cases p with
      | name n => simp only [Piece.rawText, portable_quote r r' (h n (List.mem_cons_self ..))]
      | val w =>
        simp only [Piece.rawText]
        refine portable_value r r' w ?_
        cases w <;> first | trivial | exact hv _ (by simp [arguments])
      | _ => rfl
    simp only [rawText, h3, ih h1 h2]

/-! ## What the text says of the versions -/

/-- One character of a name, as `quote` writes it. -/
def nameRune [GoRuntime] (c : Char) : Str := if c = '.' then s%"\".\"" else quoteRune c

theorem quote_runes [GoRuntime] (n : Str) :
    quote n = s%"\"" ++ n.flatMap nameRune ++ s%"\"" := by
  unfold quote
  induction n with
  | nil => rfl
  | cons c n ih =>
    rw [splitOn]
    split
    · next hc =>
      obtain ⟨p, ps, hp⟩ := List.exists_cons_of_ne_nil (splitOn_ne_nil '.' n)
      rw [hp] at ih ⊢
      have : joinWith s%"." (List.map goQuote ([] :: p :: ps)) =
          goQuote [] ++ s%"." ++ joinWith s%"." (List.map goQuote (p :: ps)) := rfl
      rw [this, ih]
      simp [goQuote, nameRune, hc]
    · next hc =>
      obtain ⟨p, ps, hp⟩ := List.exists_cons_of_ne_nil (splitOn_ne_nil '.' n)
      rw [hp] at ih ⊢
      have : joinWith s%"." (List.map goQuote ((c :: p) :: ps)) =
          s%"\"" ++ quoteRune c ++ (joinWith s%"." (List.map goQuote (p :: ps))).drop 1 := by
        cases ps <;> simp [joinWith, goQuote]
      simp only at this ⊢
      rw [this, ih]
      simp [nameRune, hc]

theorem quoteRune_hidden [GoRuntime] {c : Char} (h : GoRuntime.isPrint c = false) :
    ∃ t, quoteRune c = '\\' :: t := by
  suffices hs : (quoteRune c).head? = some '\\' by
    cases hq : quoteRune c with
    | nil => rw [hq] at hs; cases hs
    | cons d t =>
      rw [hq] at hs
      cases hs
      exact ⟨t, rfl⟩
  unfold quoteRune
  simp only [h]
  repeat' split
  all_goals first | rfl | contradiction

theorem quoteRune_shown [GoRuntime] {c : Char} (h : GoRuntime.isPrint c = true)
    (h1 : 128 ≤ c.toNat) : quoteRune c = [c] := by
  unfold quoteRune
  have : ¬ (c = '"' ∨ c = '\\') := by rintro (rfl | rfl) <;> revert h1 <;> decide
  simp [this, h]

theorem nameRunes_same (r r' : GoRuntime) {n : Str} {t u : Str}
    (h : n.flatMap (@nameRune r) ++ t = n.flatMap (@nameRune r') ++ u) :
    SamePrint r r' n ∧ t = u := by
  induction n generalizing t u with
  | nil => exact ⟨fun _ h => absurd h (by simp), by simpa using h⟩
  | cons c n ih =>
    have hc : r.isPrint c = r'.isPrint c := by
      by_cases h1 : c.toNat < 128
      · rw [r.isPrint_ascii c h1, r'.isPrint_ascii c h1]
      · have h1 : 128 ≤ c.toNat := by omega
        have hd : c ≠ '.' := by rintro rfl; revert h1; decide
        have hb : c ≠ '\\' := by rintro rfl; revert h1; decide
        simp only [List.flatMap_cons, nameRune, hd, if_false, List.append_assoc] at h
        cases e : r.isPrint c <;> cases e' : r'.isPrint c
        · rfl
        · obtain ⟨x, hx⟩ := @quoteRune_hidden r c e
          rw [hx, @quoteRune_shown r' c e' h1] at h
          simp only [List.cons_append, List.cons.injEq] at h
          exact absurd h.1.symm hb
        · obtain ⟨x, hx⟩ := @quoteRune_hidden r' c e'
          rw [hx, @quoteRune_shown r c e h1] at h
          simp only [List.cons_append, List.cons.injEq] at h
          exact absurd h.1 hb
        · rfl
    have hr : @nameRune r c = @nameRune r' c := by
      unfold nameRune
      rw [portable_quoteRune r r' hc]
    rw [List.flatMap_cons, List.flatMap_cons, hr, List.append_assoc, List.append_assoc,
      List.append_cancel_left_eq] at h
    obtain ⟨h1, h2⟩ := ih h
    refine ⟨fun d hd => ?_, h2⟩
    rcases List.mem_cons.1 hd with rfl | hd
    · exact hc
    · exact h1 d hd

theorem portable_names (r r' : GoRuntime) (ph : Nat → Val → Str) {l : List Piece} {k : Nat}
    (h : @render r ph k l = @render r' ph k l) : ∀ n ∈ namesOf l, SamePrint r r' n := by
  induction l generalizing k with
  | nil => exact fun _ h => absurd h (by simp [namesOf])
  | cons p l ih =>
    cases p with
    | name n =>
      simp only [render, quote_runes, List.append_assoc, List.append_cancel_left_eq] at h
      obtain ⟨h1, h2⟩ := nameRunes_same r r' h
      rw [List.append_cancel_left_eq] at h2
      intro m hm
      rcases List.mem_cons.1 hm with rfl | hm
      · exact h1
      · exact ih h2 m hm
    | sql t =>
      simp only [render, List.append_cancel_left_eq] at h
      exact ih h
    | raw t =>
      simp only [render, List.append_cancel_left_eq] at h
      exact ih h
    | note t =>
      simp only [render, List.append_assoc, List.append_cancel_left_eq] at h
      exact ih h
    | val v =>
      cases v <;> simp only [render, List.append_cancel_left_eq] at h <;> exact ih h

/-! ## Statements -/

theorem portable_set (r r' : GoRuntime) {p : PairContainer}
    (h : p.mode = .associative → Agree p.columns) : @setL r p = @setL r' p := by
  unfold setL assignments
  rw [portable_values r r' h]

theorem lookupAll_perm (m : List (Column × Expr)) {cs cs' : List Column} (h : cs.Perm cs') :
    ∀ {l}, lookupAll m cs = .ok l → ∃ l', lookupAll m cs' = .ok l' ∧ l.Perm l' := by
  have cons : ∀ {c cs l}, lookupAll m (c :: cs) = .ok l ↔
      ∃ e l', mapLookup c m = some e ∧ lookupAll m cs = .ok l' ∧ l = (c, e) :: l' := by
    intro c cs l
    rw [lookupAll]
    cases mapLookup c m with
    | none => simp [Go.panic]
    | some e =>
      cases lookupAll m cs with
      | error p => simp
      | ok l' => simp [eq_comm]
  induction h with
  | nil => intro l h; exact ⟨l, h, .refl _⟩
  | cons c _ ih =>
    intro l h
    obtain ⟨e, l', h1, h2, rfl⟩ := cons.1 h
    obtain ⟨l2, h3, h4⟩ := ih h2
    exact ⟨_, cons.2 ⟨e, l2, h1, h3, rfl⟩, h4.cons _⟩
  | swap c d cs =>
    intro l h
    obtain ⟨e, l', h1, h2, rfl⟩ := cons.1 h
    obtain ⟨f, l2, h3, h4, rfl⟩ := cons.1 h2
    exact ⟨_, cons.2 ⟨f, _, h3, cons.2 ⟨e, l2, h1, h4, rfl⟩, rfl⟩, .swap _ _ _⟩
  | trans _ _ ih1 ih2 =>
    intro l h
    obtain ⟨l1, h1, h2⟩ := ih1 h
    obtain ⟨l2, h3, h4⟩ := ih2 h1
    exact ⟨l2, h3, h2.trans h4⟩

/-- The assignments of a SET clause are the same up to order with all versions. -/
theorem portable_assigned (r r' : GoRuntime) {p : PairContainer} (hm : p.mode = .associative)
    {l : List (Column × Expr)} (h : @PairContainer.values r p = .ok (l.map (·.1), l.map (·.2))) :
    ∃ l' : List (Column × Expr), @PairContainer.values r' p = .ok (l'.map (·.1), l'.map (·.2)) ∧
      l.Perm l' := by
  unfold PairContainer.values at h ⊢
  rw [if_neg (by simp [hm])] at h ⊢
  cases hl : lookupAll p.map (r.sortSlice columnLess p.columns) with
  | error e => rw [hl] at h; cases h
  | ok l1 =>
    rw [hl] at h
    have hl1 : l1 = l := by
      have := zip_fst_snd l
      simp only [Except.ok.injEq, Prod.mk.injEq] at h
      rw [← h.1, ← h.2, zip_fst_snd] at this
      exact this
    subst hl1
    obtain ⟨l2, h2, h3⟩ := lookupAll_perm p.map ((r.sortSlice_perm columnLess p.columns).trans
      (r'.sortSlice_perm columnLess p.columns).symm) hl
    exact ⟨l2, by rw [h2], h3⟩

/-- In key-value syntax, values come in pairs. -/
theorem values_pairs (r : GoRuntime) {p : PairContainer} (hm : p.mode = .associative)
    {v : List Column × List Expr} (h : @PairContainer.values r p = .ok v) :
    ∃ l : List (Column × Expr), v = (l.map (·.1), l.map (·.2)) := by
  unfold PairContainer.values at h
  rw [if_neg (by simp [hm])] at h
  cases hl : lookupAll p.map (r.sortSlice columnLess p.columns) with
  | error e => rw [hl] at h; cases h
  | ok l1 => rw [hl] at h; cases h; exact ⟨l1, rfl⟩

theorem portable_okSet (r r' : GoRuntime) {p : PairContainer} : @okSet r p = @okSet r' p := by
  have key : ∀ r r' : GoRuntime, @okSet r p = true → @okSet r' p = true := by
    intro r r' h
    unfold okSet at h ⊢
    cases hm : p.mode with
    | unknown => simpa [hm] using h
    | array => simpa [hm] using h
    | associative =>
      cases hv : @PairContainer.values r p with
      | error e => simp [hm, hv] at h
      | ok v =>
        obtain ⟨l, rfl⟩ := values_pairs r hm hv
        obtain ⟨l', h1, h2⟩ := portable_assigned r r' hm hv
        simp only [hm, hv, h1, zip_fst_snd, Bool.and_eq_true, List.all_eq_true] at h ⊢
        exact ⟨h.1, fun x hx => h.2 x (h2.mem_iff.2 hx)⟩
  rw [Bool.eq_iff_iff]
  exact ⟨key r r', key r' r⟩

theorem portable_layout (r r' : GoRuntime) {s : Stmt} (h : Agree (assignedColumns s)) :
    @layout r s = @layout r' s := by
  cases s with
  | select s => rfl
  | delete s => rfl
  | update u =>
    simp only [layout, updateL]
    rw [portable_set r r' (fun hm => by simpa only [assignedColumns, hm, if_true] using h)]
  | insert i =>
    simp only [layout, insertL, conflictL]
    cases ha : i.action with
    | nil => rfl
    | nothing => rfl
    | update p =>
      simp only [actionL]
      rw [portable_set r r' (fun hm => by simpa only [assignedColumns, ha, hm, if_true] using h)]

/-- Whether a statement can be written does not depend on the version. -/
theorem portable_ok (r r' : GoRuntime) {s : Stmt} : @okStmt r s = @okStmt r' s := by
  cases s with
  | select s => rfl
  | delete s => rfl
  | update u =>
    simp only [okStmt]
    rw [portable_okSet r r']
  | insert i =>
    simp only [okStmt]
    cases ha : i.action with
    | nil => rfl
    | nothing => rfl
    | update p =>
      simp only [okAction]
      rw [portable_okSet r r']

theorem portable_call (r r' : GoRuntime) {c : InsCall} (h : Agree c.setColumns)
    (b : InsertStmt) : @InsCall.apply r c b = @InsCall.apply r' c b := by
  cases c with
  | set args =>
    simp only [InsCall.apply]
    unfold InsertStmt.Set
    cases hs : toSet args with
    | error e => rfl
    | ok p =>
      simp only [InsCall.setColumns, hs] at h
      simp only
      rw [portable_values r r' (fun _ => h)]
  | _ => rfl

end Verif
