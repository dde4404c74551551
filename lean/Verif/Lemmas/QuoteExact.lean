import Verif.Lemmas.Quote

/-!
# Dotted names that are not read as they were meant
-/

set_option linter.unusedSectionVars false

namespace Verif
open Spec

section
variable [GoRuntime]

/-- The parts after the first, each with the dot before it. -/
def dottedTail (ps : List Str) : Str := ps.flatMap fun p => '.' :: goQuote p

theorem quotedParts_cons (p : Str) (ps : List Str) :
    quotedParts (p :: ps) = goQuote p ++ dottedTail ps := by
  induction ps generalizing p with
  | nil => simp [quotedParts, joinWith, dottedTail]
  | cons q ps ih =>
    have := ih q
    simp only [quotedParts, List.map_cons, joinWith, dottedTail, List.flatMap_cons] at this ⊢
    rw [this]
    simp

theorem quoteRune_head {c : Char} (t : Str) :
    (quoteRune c ++ t).head? ≠ some '"' ∧ (c ≠ '.' → (quoteRune c ++ t).head? ≠ some '.') := by
  refine ⟨?_, ?_⟩
  · intro e
    by_cases hc : c = '"'
    · rw [hc, quoteRune_dq] at e; simp at e
    · cases hfc : quoteRune c with
      | nil => exact quoteRune_ne_nil c hfc
      | cons a l =>
        rw [hfc] at e
        simp at e
        exact quoteRune_no_quote hc (by rw [hfc, e]; simp)
  · intro hc
    have : ∀ u : Str, u = [c] ∨ u.head? = some '\\' → (u ++ t).head? ≠ some '.' := by
      rintro u (rfl | hu)
      · simpa using hc
      · cases u with
        | nil => cases hu
        | cons a u => simp only [List.head?_cons, Option.some.injEq] at hu; subst hu; simp
    apply this
    unfold quoteRune
    refine ite_ind (P := fun u => u = [c] ∨ u.head? = some '\\') (fun _ => .inr rfl) (fun _ => ?_)
    refine ite_ind (P := fun u => u = [c] ∨ u.head? = some '\\') (fun _ => .inl rfl) (fun _ => ?_)
    iterate 9 refine ite_ind (P := fun u => u = [c] ∨ u.head? = some '\\') (fun _ => .inr rfl) (fun _ => ?_)
    exact .inr rfl

/-- Reading ended inside the text that follows, or early and not before a dot. -/
def Astray (rest : Str) (o : Option (Str × Str)) : Prop :=
  ∀ x r, o = some (x, r) →
    r.length < rest.length ∨ (rest.length < r.length ∧ r.head? ≠ some '.')

theorem Astray.map {rest : Str} {o : Option (Str × Str)} (h : Astray rest o) (f : Str → Str) :
    Astray rest (o.map fun p => (f p.1, p.2)) := by
  intro x r e
  rw [Option.map_eq_some_iff] at e
  obtain ⟨⟨x', r'⟩, h', e⟩ := e
  cases e
  exact h x' _ h'

/-- From inside a name, at the dot after one of its parts. -/
theorem astray_tail (ps : List Str) (hd : ∀ p ∈ ps, '.' ∉ p) (rest : Str) :
    Astray rest (readBody '"' (dottedTail ps ++ rest)) := by
  induction ps with
  | nil => exact fun x r e => .inl (readBody_length e)
  | cons p ps ih =>
    have e : dottedTail (p :: ps) ++ rest =
        '.' :: '"' :: (p.flatMap quoteRune ++ '"' :: (dottedTail ps ++ rest)) := by
      simp [dottedTail, goQuote]
    rw [e, readBody_ne (by decide)]
    refine Astray.map ?_ _
    cases p with
    | nil =>
      rw [List.flatMap_nil, List.nil_append, readBody_double]
      exact (ih fun p hp => hd p (List.mem_cons_of_mem _ hp)).map _
    | cons c p =>
      rw [List.flatMap_cons, List.append_assoc, readBody_close (quoteRune_head _).1]
      intro x r h
      cases h
      refine .inr ⟨by simp; omega, (quoteRune_head _).2 ?_⟩
      rintro rfl
      exact hd _ List.mem_cons_self List.mem_cons_self

/-- From inside a part that contains a quote. -/
theorem astray_part (p : Str) (hq : '"' ∈ p) (hp : '.' ∉ p) (ps : List Str)
    (hd : ∀ p ∈ ps, '.' ∉ p) (rest : Str) :
    Astray rest (readBody '"' (p.flatMap quoteRune ++ '"' :: (dottedTail ps ++ rest))) := by
  induction p with
  | nil => cases hq
  | cons c p ih =>
    rw [List.flatMap_cons, List.append_assoc]
    by_cases hc : c = '"'
    · subst hc
      rw [quoteRune_dq, List.cons_append, readBody_ne (by decide), List.cons_append, List.nil_append]
      refine Astray.map ?_ _
      cases p with
      | nil =>
        rw [List.flatMap_nil, List.nil_append, readBody_double]
        exact (astray_tail ps hd rest).map _
      | cons d p =>
        rw [List.flatMap_cons, List.append_assoc, readBody_close (quoteRune_head _).1]
        intro x r h
        cases h
        refine .inr ⟨by simp; omega, (quoteRune_head _).2 ?_⟩
        rintro rfl
        exact hp (by simp)
    · rw [readBody_prefix (quoteRune_no_quote hc)]
      refine Astray.map (ih ?_ fun h => hp (List.mem_cons_of_mem _ h)) _
      rcases List.mem_cons.1 hq with h | h
      · exact absurd h.symm hc
      · exact h

theorem readIdent_some {s x r : Str} (h : readIdent s = some (x, r)) :
    readQuoted '"' s = some (x, r) ∧ x ≠ [] := by
  rw [readIdent] at h
  split at h
  · cases h
  · next hn => exact ⟨h, fun e => hn r (e ▸ h)⟩

theorem readNameUpTo_length (n : Nat) (s r : Str) (xs : List Str)
    (h : readNameUpTo n s = some (xs, r)) : r.length ≤ s.length := by
  induction n generalizing s xs with
  | zero => cases h
  | succ n ih =>
    have len : ∀ x r, readIdent s = some (x, r) → r.length < s.length := by
      intro x r h
      have := (readIdent_some h).1
      cases s with
      | nil => cases this
      | cons c s =>
        rw [readQuoted] at this
        split at this
        · have := readBody_length this; simp; omega
        · cases this
    rw [readNameUpTo] at h
    split at h
    · cases h
    · next x r' hi =>
      have h1 := len _ _ hi
      split at h
      · cases h
      · next ys r'' hr =>
        cases h
        have := ih _ _ hr
        simp at h1
        omega
    · next x r' hn hi =>
      cases h
      exact Nat.le_of_lt (len _ _ hi)

/-- A dotted name whose text is read as a name up to its end has parts that are not empty and contain
no quote. -/
theorem readNameUpTo_exact (n : Nat) (parts : List Str) (hparts : parts ≠ [])
    (hd : ∀ p ∈ parts, '.' ∉ p) (rest : Str) (h1 : rest.head? ≠ some '"') (xs : List Str)
    (h : readNameUpTo n (quotedParts parts ++ rest) = some (xs, rest)) :
    ∀ p ∈ parts, p ≠ [] ∧ '"' ∉ p := by
  induction n generalizing parts xs with
  | zero => cases h
  | succ n ih =>
    cases parts with
    | nil => exact absurd rfl hparts
    | cons p ps =>
      have hd' : ∀ p ∈ ps, '.' ∉ p := fun q hq => hd q (List.mem_cons_of_mem _ hq)
      have e : quotedParts (p :: ps) ++ rest =
          '"' :: (p.flatMap quoteRune ++ '"' :: (dottedTail ps ++ rest)) := by
        rw [quotedParts_cons]; simp [goQuote]
      have htail : (dottedTail ps ++ rest).head? ≠ some '"' := by
        cases ps with
        | nil => exact h1
        | cons q ps => simp [dottedTail]
      by_cases hq : '"' ∈ p
      · exfalso
        have ha := astray_part p hq (hd p List.mem_cons_self) ps hd' rest
        rw [e, readNameUpTo] at h
        split at h
        · cases h
        · next x r' hi =>
          have h2 := (readIdent_some hi).1
          rw [readQuoted, if_pos rfl] at h2
          split at h
          · cases h
          · next ys r'' hr =>
            cases h
            have h3 := readNameUpTo_length _ _ _ _ hr
            rcases ha _ _ h2 with h4 | ⟨_, h4⟩
            · simp at h4; omega
            · exact h4 rfl
        · next x r' hn hi =>
          cases h
          have h2 := (readIdent_some hi).1
          rw [readQuoted, if_pos rfl] at h2
          rcases ha _ _ h2 with h4 | ⟨h4, _⟩ <;> exact absurd h4 (Nat.lt_irrefl _)
      · by_cases hp : p = []
        · exfalso
          subst hp
          rw [e, readNameUpTo] at h
          have hi : readIdent ('"' :: (List.flatMap quoteRune [] ++ '"' :: (dottedTail ps ++ rest))) = none := by
            rw [readIdent, readQuoted, if_pos rfl, List.flatMap_nil, List.nil_append, readBody_close htail]
          rw [hi] at h
          cases h
        · intro q hq'
          rcases List.mem_cons.1 hq' with rfl | hq'
          · exact ⟨hp, hq⟩
          · cases ps with
            | nil => cases hq'
            | cons p' ps =>
              rw [quotedParts_cons, List.append_assoc, readNameUpTo, readIdent_goQuote hq hp htail] at h
              have e' : dottedTail (p' :: ps) ++ rest = '.' :: (quotedParts (p' :: ps) ++ rest) := by
                rw [quotedParts_cons]; simp [dottedTail]
              rw [e'] at h
              simp only at h
              split at h
              · cases h
              · next ys r'' hr =>
                cases h
                exact ih (p' :: ps) (by simp) hd' ys hr q hq'

end

end Verif
