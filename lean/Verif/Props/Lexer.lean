import Verif.Lemmas.Lexer

/-!
# C38-C40: the tokenizer
-/

namespace Verif.Props
open Spec

/-! ## C38 -/

/-- C38. The loop of `Iterator` ends on every text: any bound larger than the length of the
text gives the same tokens, and these satisfy the equation of the unbounded loop (one token
taken by `Next`, then the tokens of what `Next` left). -/
theorem C38_total (s : Str) :
    (∀ n, s.length < n → lexFuel n s = lexAll s) ∧
    lexAll s = (match lexNext s with
      | none => []
      | some (t, rest) => t :: lexAll rest) ∧
    (∀ t rest, lexNext s = some (t, rest) → rest.length < s.length) :=
  ⟨fun n h => lexFuel_enough n _ s h (by omega), lexAll_eq s, lexNext_shorter s⟩

/-- C38. The token texts of a text without NUL are the text without its blanks: no character
is lost, invented or reordered. -/
theorem C38_lossless (s : Str) (h : '\x00' ∉ s) :
    (lexAll s).flatMap (·.value) = s.filter (fun c => !blankRune c) :=
  lexAll_lossless s h

/-- C38. No token is empty. -/
theorem C38_nonempty (s : Str) : ∀ t ∈ lexAll s, t.value ≠ [] := by
  refine cases_text (P := fun s => ∀ t ∈ lexAll s, t.value ≠ []) ?_ ?_ ?_ ?_ ?_ s
  · intro t ht; cases ht
  · intro s t ht; rw [lexAll_nul] at ht; cases ht
  · intro c s hb ih; rw [lexAll_blank hb]; exact ih
  · intro c s hs ih t ht
    rw [lexAll_symbol hs] at ht
    rcases List.mem_cons.1 ht with rfl | ht
    · simp
    · exact ih t ht
  · intro w s hw hs ih t ht
    rw [lexAll_word hw hs] at ht
    rcases List.mem_cons.1 ht with rfl | ht
    · exact hw.1
    · exact ih t ht

/-- A NUL ends the text: what follows it is not tokenized (this is why C38 asks for texts
without NUL). -/
theorem C38_nul (a b : Str) : lexAll (a ++ '\x00' :: b) = lexAll a := by
  rw [lexAll_append a ('\x00' :: b)]
  · split
    · simp
    · rw [lexAll_nul, List.append_nil]
  · rintro c d _ hd ⟨_, h⟩
    simp at hd
    subst hd
    revert h; decide

/-! ## C39 -/

theorem head_not_word {w b : Str} (hw : ∀ c ∈ w, blankRune c = true) (hne : w ≠ []) :
    ∀ d, (w ++ b).head? = some d → wordRune d = false := by
  intro d hd
  cases w with
  | nil => exact absurd rfl hne
  | cons c w =>
    simp at hd
    subst hd
    cases h : wordRune c with
    | false => rfl
    | true =>
      have := hw c List.mem_cons_self
      rw [wordRune_not_blank h] at this
      cases this

/-- C39. Replacing blanks by other blanks changes no token. -/
theorem C39_blanks (a w w' b : Str) (hw : ∀ c ∈ w, blankRune c = true)
    (hw' : ∀ c ∈ w', blankRune c = true) (hne : w ≠ []) (hne' : w' ≠ []) :
    lexAll (a ++ w ++ b) = lexAll (a ++ w' ++ b) := by
  have key : ∀ w : Str, (∀ c ∈ w, blankRune c = true) → w ≠ [] →
      lexAll (a ++ (w ++ b)) = lexAll a ++ (if '\x00' ∈ a then [] else lexAll b) := by
    intro w hw hne
    rw [lexAll_append, lexAll_blanks hw]
    rintro c d _ hd ⟨_, h⟩
    rw [head_not_word hw hne d hd] at h
    cases h
  rw [List.append_assoc, List.append_assoc, key w hw hne, key w' hw' hne']

/-- C39. Blanks inserted next to a symbol, before or after it, change no token. -/
theorem C39_around_symbol (a w b : Str) (d : Char) (hw : ∀ c ∈ w, blankRune c = true)
    (hd : wordRune d = false) :
    lexAll (a ++ w ++ d :: b) = lexAll (a ++ d :: b) ∧
    lexAll (a ++ d :: w ++ b) = lexAll (a ++ d :: b) := by
  have hl : ∀ x : Str, lexAll (a ++ d :: x)
      = lexAll a ++ (if '\x00' ∈ a then [] else lexAll (d :: x)) := by
    intro x
    refine lexAll_append a _ ?_
    rintro c e _ he ⟨_, h⟩
    simp at he
    subst he
    rw [hd] at h; cases h
  constructor
  · rcases Decidable.em (w = []) with rfl | hne
    · simp
    · rw [hl b, List.append_assoc, lexAll_append, lexAll_blanks hw]
      rintro c e _ he ⟨_, h⟩
      rw [head_not_word hw hne e he] at h
      cases h
  · rw [List.append_assoc, List.cons_append, hl, hl]
    have h1 : ∀ x : Str, lexAll (d :: x) = lexAll [d] ++ (if '\x00' ∈ [d] then [] else lexAll x) := by
      intro x
      refine lexAll_append [d] x ?_
      rintro c e hc _ ⟨h, _⟩
      simp at hc
      subst hc
      rw [hd] at h; cases h
    rw [h1 (w ++ b), h1 b, lexAll_blanks hw]

/-- C39. Leading and trailing blanks change no token. -/
theorem C39_ends (w s w' : Str) (hw : ∀ c ∈ w, blankRune c = true)
    (hw' : ∀ c ∈ w', blankRune c = true) : lexAll (w ++ s ++ w') = lexAll s := by
  rw [List.append_assoc, lexAll_blanks hw]
  rcases Decidable.em (w' = []) with rfl | hne
  · simp
  · have h0 : lexAll w' = [] := by
      have := lexAll_blanks hw' []
      rw [List.append_nil] at this
      rw [this, lexAll_nil]
    rw [lexAll_append, h0]
    · simp
    · rintro c e _ he ⟨_, h⟩
      rw [← List.append_nil w'] at he
      rw [head_not_word hw' hne e he] at h
      cases h

/-! ## C40 -/

/-- C40. A maximal run of word runes is one token with exactly that spelling; it is a keyword
exactly when its upper-case form is one of the keywords, and then its type is that keyword;
otherwise it is a literal. -/
theorem C40_words (a w b : Str) (hw : isWord w) (h0 : '\x00' ∉ a)
    (ha : ∀ c, a.getLast? = some c → wordRune c = false)
    (hb : ∀ c, b.head? = some c → wordRune c = false) :
    ∃ t, lexAll (a ++ w ++ b) = lexAll a ++ t :: lexAll b ∧ t.value = w ∧
      (∀ k ∈ sqlKeywords, t.type = k ↔ spells w k) ∧
      (t.type = s%"Literal" ↔ ∀ k ∈ sqlKeywords, ¬ spells w k) := by
  refine ⟨⟨lookup w, w⟩, ?_, rfl, ?_, ?_⟩
  · rw [List.append_assoc, lexAll_append, if_neg h0, lexAll_word hw hb]
    rintro c d hc _ ⟨h, _⟩
    rw [ha c hc] at h
    cases h
  · intro k hk
    constructor
    · intro ht
      by_cases hex : ∃ k' ∈ sqlKeywords, spells w k'
      · obtain ⟨k', hk', hs⟩ := hex
        have : lookup w = k' := lookup_keyword hw.2 hk' hs
        rw [← ht]
        show spells w (lookup w)
        rw [this]; exact hs
      · have : lookup w = Token.Literal :=
          lookup_name ⟨hw, fun k' hk' hs => hex ⟨k', hk', hs⟩⟩
        have ht' : lookup w = k := ht
        rw [this] at ht'
        rw [← ht'] at hk
        exact absurd hk (by decide)
    · exact fun hs => lookup_keyword hw.2 hk hs
  · constructor
    · intro ht k hk hs
      have : lookup w = k := lookup_keyword hw.2 hk hs
      have ht' : lookup w = s%"Literal" := ht
      rw [this] at ht'
      rw [ht'] at hk
      exact absurd hk (by decide)
    · exact fun h => lookup_name ⟨hw, h⟩

/-- C40. The case of the letters of a keyword does not matter. -/
theorem C40_case (w w' k : Str) (hk : k ∈ sqlKeywords) (hw : isWord w) (hw' : isWord w')
    (hs : spells w k) (hs' : spells w' k) :
    (lexAll w).map (·.type) = [k] ∧ (lexAll w').map (·.type) = [k] := by
  rw [lexAll_single_word hw, lexAll_single_word hw']
  exact ⟨by simp [lookup_keyword hw.2 hk hs], by simp [lookup_keyword hw'.2 hk hs']⟩

/-! ## The hypotheses can be met -/

example : lexAll s%"left Join users\tON(u.id=x.y2)" =
    [⟨s%"LEFT", s%"left"⟩, ⟨s%"JOIN", s%"Join"⟩, ⟨s%"Literal", s%"users"⟩, ⟨s%"ON", s%"ON"⟩,
     ⟨s%"(", s%"("⟩, ⟨s%"Literal", s%"u.id"⟩, ⟨s%"=", s%"="⟩, ⟨s%"Literal", s%"x.y2"⟩,
     ⟨s%")", s%")"⟩] := by rfl

example : isWord s%"jOiN" ∧ spells s%"jOiN" s%"JOIN" ∧ s%"JOIN" ∈ sqlKeywords := by
  refine ⟨⟨by decide, by decide⟩, by decide, by decide⟩

example : isName s%"u.id" := ⟨⟨by decide, by decide⟩, by decide⟩

end Verif.Props
