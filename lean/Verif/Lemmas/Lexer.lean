import Verif.Model.Lexer
import Verif.Spec.Lex

/-!
# The tokenizer
-/

namespace Verif
open Spec

/-! ## The classes of runes -/

theorem toNat_eq_iff (c d : Char) : c.toNat = d.toNat ↔ c = d :=
  ⟨fun h => Char.ext (UInt32.toNat_inj.1 h), fun h => h ▸ rfl⟩

theorem toNat_ofNat {n : Nat} (h : n.isValidChar) : (Char.ofNat n).toNat = n := by
  unfold Char.ofNat
  rw [dif_pos h]
  rfl

theorem isWhitespace_eq (c : Char) : isWhitespace c = blankRune c := by
  simp only [isWhitespace, blankRune, List.mem_cons, List.not_mem_nil, or_false,
    Bool.decide_or, Bool.or_assoc]

theorem isWordRune_eq (c : Char) : isWordRune c = wordRune c := by
  have h1 : ∀ a b : Char, (a ≤ b) = (a.toNat ≤ b.toNat) := by
    intro a b; rw [Char.le_def, UInt32.le_iff_toNat_le]; rfl
  rw [Bool.eq_iff_iff]
  simp only [isWordRune, isLetter, isDigit, wordRune, Char.isAlphanum, Char.isAlpha, Char.isUpper,
    Char.isLower, Char.isDigit, Bool.or_eq_true, Bool.and_eq_true, decide_eq_true_eq, ge_iff_le,
    UInt32.le_iff_toNat_le]
  simp only [show ∀ c : Char, c.val.toNat = c.toNat from fun _ => rfl]
  simp only [show ('a' : Char).toNat = 97 from rfl, show ('z' : Char).toNat = 122 from rfl,
    show ('A' : Char).toNat = 65 from rfl, show ('Z' : Char).toNat = 90 from rfl,
    show ('0' : Char).toNat = 48 from rfl, show ('9' : Char).toNat = 57 from rfl]
  constructor
  · rintro ((((h | h) | h) | h) | h)
    · exact .inl (.inl (.inl (.inr h)))
    · exact .inl (.inl (.inl (.inl h)))
    · exact .inl (.inr h)
    · exact .inr h
    · exact .inl (.inl (.inr h))
  · rintro ((((h | h) | h) | h) | h)
    · exact .inl (.inl (.inl (.inr h)))
    · exact .inl (.inl (.inl (.inl h)))
    · exact .inr h
    · exact .inl (.inl (.inr h))
    · exact .inl (.inr h)

theorem upperRune_eq (c : Char) : upperRune c = c.toUpper := by
  unfold upperRune Char.toUpper
  simp only [show ('a' : Char).toNat = 97 from rfl, show ('z' : Char).toNat = 122 from rfl]
  by_cases h : 97 ≤ c.toNat ∧ c.toNat ≤ 122
  · have h' : c.val ≥ 'a'.val ∧ c.val ≤ 'z'.val := by
      simp only [ge_iff_le, UInt32.le_iff_toNat_le]; exact h
    rw [if_pos h, dif_pos h']
    rw [← toNat_eq_iff]
    have hv : (c.toNat - 32).isValidChar := by left; omega
    rw [toNat_ofNat hv]
    show c.toNat - 32 = (c.val + ('A'.val - 'a'.val)).toNat
    rw [UInt32.toNat_add]
    show c.toNat - 32 = (c.toNat + 4294967264) % 4294967296
    omega
  · have h' : ¬ (c.val ≥ 'a'.val ∧ c.val ≤ 'z'.val) := by
      simp only [ge_iff_le, UInt32.le_iff_toNat_le]; exact h
    rw [if_neg h, dif_neg h']

theorem toUpper_eq (s : Str) : toUpper s = s.map Char.toUpper := by
  unfold toUpper
  exact List.map_congr_left (fun c _ => upperRune_eq c)

theorem wordRune_not_blank {c : Char} (h : wordRune c = true) : blankRune c = false := by
  cases hb : blankRune c with
  | false => rfl
  | true =>
    simp only [blankRune, List.mem_cons, List.not_mem_nil, or_false, decide_eq_true_eq] at hb
    rcases hb with rfl | rfl | rfl | rfl <;> revert h <;> decide

theorem wordRune_not_nul {c : Char} (h : wordRune c = true) : c ≠ '\x00' := by
  rintro rfl; revert h; decide

theorem blankRune_not_nul {c : Char} (h : blankRune c = true) : c ≠ '\x00' := by
  rintro rfl; revert h; decide

/-! ## One token -/

/-- The type of the token made of one symbol. -/
def symbolType (c : Char) : TokType :=
  if c = '*' then Token.Asterisk
  else if c = '=' then Token.Equals
  else if c = ';' then Token.Semicolon
  else if c = ',' then Token.Comma
  else if c = ':' then Token.Colon
  else if c = '(' then Token.LParen
  else if c = ')' then Token.RParen
  else Token.Illegal

theorem lexNext_nil : lexNext [] = none := rfl

theorem lexNext_blank {c : Char} (h : blankRune c = true) (s : Str) :
    lexNext (c :: s) = lexNext s := by
  unfold lexNext
  rw [List.dropWhile_cons, isWhitespace_eq, h]
  rfl

theorem lexNext_nul (s : Str) : lexNext ('\x00' :: s) = none := rfl

theorem lexNext_symbol {c : Char} (h : symbolRune c) (s : Str) :
    lexNext (c :: s) = some (⟨symbolType c, [c]⟩, s) := by
  obtain ⟨hw, hb, hn⟩ := h
  unfold lexNext
  rw [List.dropWhile_cons, isWhitespace_eq, hb]
  simp only [Bool.false_eq_true, if_false]
  rw [if_neg hn]
  have hnl : c ≠ '\n' := by rintro rfl; revert hb; decide
  rw [if_neg hnl, isWordRune_eq, hw]
  unfold symbolType
  by_cases h1 : c = '*'
  · simp only [h1, if_true]
  rw [if_neg h1, if_neg h1]
  by_cases h2 : c = '='
  · simp only [h2, if_true]
  rw [if_neg h2, if_neg h2]
  by_cases h3 : c = ';'
  · simp only [h3, if_true]
  rw [if_neg h3, if_neg h3]
  by_cases h4 : c = ','
  · simp only [h4, if_true]
  rw [if_neg h4, if_neg h4]
  by_cases h5 : c = ':'
  · simp only [h5, if_true]
  rw [if_neg h5, if_neg h5]
  by_cases h6 : c = '('
  · simp only [h6, if_true]
  rw [if_neg h6, if_neg h6]
  by_cases h7 : c = ')'
  · simp only [h7, if_true]
  rw [if_neg h7, if_neg h7]
  simp

theorem lexWord_append_stop {p : Char → Bool} {w b : Str} (hw : ∀ c ∈ w, p c = true)
    (hb : ∀ c, b.head? = some c → p c = false) : (w ++ b).takeWhile p = w := by
  induction w with
  | nil =>
    cases b with
    | nil => rfl
    | cons c b => simp [hb c rfl]
  | cons d w ih =>
    simp [hw d List.mem_cons_self, ih (fun c hc => hw c (List.mem_cons_of_mem _ hc))]

theorem dropWhile_append_stop {p : Char → Bool} {w b : Str} (hw : ∀ c ∈ w, p c = true)
    (hb : ∀ c, b.head? = some c → p c = false) : (w ++ b).dropWhile p = b := by
  induction w with
  | nil =>
    cases b with
    | nil => rfl
    | cons c b => simp [hb c rfl]
  | cons d w ih =>
    simp [hw d List.mem_cons_self, ih (fun c hc => hw c (List.mem_cons_of_mem _ hc))]

theorem lexNext_word {w : Str} (hw : isWord w) {b : Str}
    (hb : ∀ c, b.head? = some c → wordRune c = false) :
    lexNext (w ++ b) = some (⟨lookup w, w⟩, b) := by
  obtain ⟨hne, hall⟩ := hw
  have hall' : ∀ c ∈ w, isWordRune c = true := fun c hc => by rw [isWordRune_eq]; exact hall c hc
  have hb' : ∀ c, b.head? = some c → isWordRune c = false :=
    fun c hc => by rw [isWordRune_eq]; exact hb c hc
  cases w with
  | nil => exact absurd rfl hne
  | cons d w =>
    have hd := hall d List.mem_cons_self
    have ht := lexWord_append_stop hall' hb'
    have hdr := dropWhile_append_stop hall' hb'
    unfold lexNext
    rw [List.cons_append, List.dropWhile_cons, isWhitespace_eq, wordRune_not_blank hd]
    simp only [Bool.false_eq_true, if_false]
    rw [if_neg (wordRune_not_nul hd)]
    have : ∀ e : Char, wordRune e = false → d ≠ e := by
      rintro e he rfl; rw [hd] at he; cases he
    rw [if_neg (this '\n' (by decide)), if_neg (this '*' (by decide)), if_neg (this '=' (by decide)),
      if_neg (this ';' (by decide)), if_neg (this ',' (by decide)), if_neg (this ':' (by decide)),
      if_neg (this '(' (by decide)), if_neg (this ')' (by decide)), isWordRune_eq, hd]
    simp only [if_true]
    rw [← List.cons_append, ht, hdr]

/-- Every text begins in one of five ways. -/
theorem cases_text (P : Str → Prop) (hnil : P []) (hnul : ∀ s, P ('\x00' :: s))
    (hblank : ∀ c s, blankRune c = true → P s → P (c :: s))
    (hsym : ∀ c s, symbolRune c → P s → P (c :: s))
    (hword : ∀ w s, isWord w → (∀ c, s.head? = some c → wordRune c = false) → P s → P (w ++ s)) :
    ∀ s, P s := by
  intro s
  generalize hn : s.length = n
  induction n using Nat.strongRecOn generalizing s with
  | _ n ih =>
    cases s with
    | nil => exact hnil
    | cons c s =>
      by_cases h0 : c = '\x00'
      · rw [h0]; exact hnul s
      by_cases hb : blankRune c = true
      · exact hblank c s hb (ih s.length (by simp at hn; omega) s rfl)
      by_cases hw : wordRune c = true
      · have hsplit : (c :: s).takeWhile wordRune ++ (c :: s).dropWhile wordRune = c :: s :=
          List.takeWhile_append_dropWhile
        have hne : (c :: s).takeWhile wordRune ≠ [] := by simp [hw]
        rw [← hsplit]
        refine hword _ _ ⟨hne, fun d hd => List.all_eq_true.1 List.all_takeWhile d hd⟩ ?_ ?_
        · intro d hd
          have := List.head?_dropWhile_not wordRune (c :: s)
          rw [hd] at this
          simpa using this
        · refine ih _ ?_ _ rfl
          have := congrArg List.length hsplit
          rw [List.length_append, hn] at this
          have : 0 < ((c :: s).takeWhile wordRune).length := List.length_pos_iff.2 hne
          omega
      · exact hsym c s ⟨by simpa using hw, by simpa using hb, h0⟩
          (ih s.length (by simp at hn; omega) s rfl)

theorem lexNext_shorter (s : Str) : ∀ t r, lexNext s = some (t, r) → r.length < s.length := by
  refine cases_text (P := fun s => ∀ t r, lexNext s = some (t, r) → r.length < s.length)
    ?_ ?_ ?_ ?_ ?_ s
  · intro t r h; cases h
  · intro s t r h; cases h
  · intro c s hb ih t r h
    rw [lexNext_blank hb] at h
    have := ih t r h
    simp; omega
  · intro c s hs _ t r h
    rw [lexNext_symbol hs] at h
    cases h; simp
  · intro w s hw hs _ t r h
    rw [lexNext_word hw hs] at h
    cases h
    have := List.length_pos_iff.2 hw.1
    rw [List.length_append]; omega

theorem lexFuel_enough (n m : Nat) (s : Str) (hn : s.length < n) (hm : s.length < m) :
    lexFuel n s = lexFuel m s := by
  induction n generalizing m s with
  | zero => omega
  | succ n ih =>
    cases m with
    | zero => omega
    | succ m =>
      unfold lexFuel
      cases h : lexNext s with
      | none => rfl
      | some tr =>
        have := lexNext_shorter s tr.1 tr.2 h
        simp only
        rw [ih m tr.2 (by omega) (by omega)]

/-- `Iterator` is the unbounded loop. -/
theorem lexAll_eq (s : Str) :
    lexAll s = match lexNext s with
      | none => []
      | some (t, r) => t :: lexAll r := by
  rw [lexAll, lexFuel]
  cases h : lexNext s with
  | none => rfl
  | some tr =>
    have := lexNext_shorter s tr.1 tr.2 h
    simp only
    rw [lexAll, lexFuel_enough _ (tr.2.length + 1) _ (by omega) (by omega)]

theorem lexAll_nil : lexAll [] = [] := rfl

theorem lexAll_nul (s : Str) : lexAll ('\x00' :: s) = [] := by rw [lexAll_eq, lexNext_nul]

theorem lexAll_blank {c : Char} (h : blankRune c = true) (s : Str) :
    lexAll (c :: s) = lexAll s := by
  rw [lexAll_eq, lexNext_blank h, ← lexAll_eq]

theorem lexAll_blanks {w : Str} (h : ∀ c ∈ w, blankRune c = true) (s : Str) :
    lexAll (w ++ s) = lexAll s := by
  induction w with
  | nil => rfl
  | cons c w ih =>
    rw [List.cons_append, lexAll_blank (h c List.mem_cons_self),
      ih (fun d hd => h d (List.mem_cons_of_mem _ hd))]

theorem lexAll_symbol {c : Char} (h : symbolRune c) (s : Str) :
    lexAll (c :: s) = ⟨symbolType c, [c]⟩ :: lexAll s := by
  rw [lexAll_eq, lexNext_symbol h]

theorem lexAll_word {w : Str} (hw : isWord w) {b : Str}
    (hb : ∀ c, b.head? = some c → wordRune c = false) :
    lexAll (w ++ b) = ⟨lookup w, w⟩ :: lexAll b := by
  rw [lexAll_eq, lexNext_word hw hb]

theorem lexAll_single_word {w : Str} (hw : isWord w) : lexAll w = [⟨lookup w, w⟩] := by
  have := lexAll_word hw (b := []) (by simp)
  rw [List.append_nil] at this
  rw [this, lexAll_nil]

/-- Tokenizing can be done in two halves wherever a word is not cut. -/
theorem lexAll_append (a x : Str)
    (h : ∀ c d, a.getLast? = some c → x.head? = some d → ¬ (wordRune c = true ∧ wordRune d = true)) :
    lexAll (a ++ x) = lexAll a ++ (if '\x00' ∈ a then [] else lexAll x) := by
  revert h
  refine cases_text (P := fun a => (∀ c d, a.getLast? = some c → x.head? = some d →
      ¬ (wordRune c = true ∧ wordRune d = true)) →
      lexAll (a ++ x) = lexAll a ++ (if '\x00' ∈ a then [] else lexAll x)) ?_ ?_ ?_ ?_ ?_ a
  · intro _; simp [lexAll_nil]
  · intro s _; simp [lexAll_nul]
  · intro c s hb ih h
    have h0 : ¬ ('\x00' = c) := fun e => blankRune_not_nul hb e.symm
    rw [List.cons_append, lexAll_blank hb, lexAll_blank hb, ih]
    · simp [h0]
    · intro c' d hc hd
      refine h c' d ?_ hd
      cases s with
      | nil => cases hc
      | cons e s => rw [List.getLast?_cons_cons]; exact hc
  · intro c s hs ih h
    have h0 : ¬ ('\x00' = c) := fun e => hs.2.2 e.symm
    rw [List.cons_append, lexAll_symbol hs, lexAll_symbol hs, ih]
    · simp [h0]
    · intro c' d hc hd
      refine h c' d ?_ hd
      cases s with
      | nil => cases hc
      | cons e s => rw [List.getLast?_cons_cons]; exact hc
  · intro w s hw hs ih h
    have h0 : '\x00' ∉ w := fun hm => wordRune_not_nul (hw.2 _ hm) rfl
    cases hse : s with
    | nil =>
      subst hse
      rw [List.append_nil]
      have hx : ∀ d, x.head? = some d → wordRune d = false := by
        intro d hd
        have hl := List.getLast?_eq_some_getLast hw.1
        have := h _ d (by rw [List.append_nil]; exact hl) hd
        have hlw := hw.2 _ (List.getLast_mem hw.1)
        cases hd' : wordRune d with
        | false => rfl
        | true => exact absurd ⟨hlw, hd'⟩ this
      rw [lexAll_word hw hx, lexAll_single_word hw]
      simp [h0]
    | cons e s' =>
      rw [← hse, List.append_assoc, lexAll_word hw hs, lexAll_word hw, ih]
      · simp [h0]
      · intro c d hc hd
        refine h c d ?_ hd
        rw [List.getLast?_append, hc]; rfl
      · intro c hc
        refine hs c ?_
        rw [hse] at hc ⊢
        exact hc

/-- No character is lost, invented or reordered. -/
theorem lexAll_lossless (s : Str) (h : '\x00' ∉ s) :
    (lexAll s).flatMap (·.value) = s.filter (fun c => !blankRune c) := by
  revert h
  refine cases_text (P := fun s => '\x00' ∉ s →
    (lexAll s).flatMap (·.value) = s.filter (fun c => !blankRune c)) ?_ ?_ ?_ ?_ ?_ s
  · intro _; rfl
  · intro s h; simp at h
  · intro c s hb ih h
    rw [lexAll_blank hb, ih (by simp_all)]
    simp [hb]
  · intro c s hs ih h
    rw [lexAll_symbol hs]
    simp [hs.2.1, ih (by simp_all)]
  · intro w s hw hs ih h
    rw [lexAll_word hw hs, List.filter_append]
    have : w.filter (fun c => !blankRune c) = w :=
      List.filter_eq_self.2 (fun c hc => by simp [wordRune_not_blank (hw.2 c hc)])
    rw [this]
    simp [ih (by simp_all)]

/-! ## Keywords -/

theorem mem_keywords (n : Str) (hn : ∀ c ∈ n, wordRune c = true) :
    n ∈ keywords ↔ n ∈ sqlKeywords := by
  have h1 : keywords = sqlKeywords.take 23 ++ [s%"DISTINCT ON"] ++ sqlKeywords.drop 23 := by rfl
  have h2 : sqlKeywords = sqlKeywords.take 23 ++ sqlKeywords.drop 23 := by rfl
  rw [h1]
  conv => rhs; rw [h2]
  simp only [List.mem_append, List.mem_singleton]
  constructor
  · rintro ((h | h) | h)
    · exact .inl h
    · rw [h] at hn
      have := hn ' ' (by simp)
      exact absurd this (by decide)
    · exact .inr h
  · rintro (h | h)
    · exact .inl (.inl h)
    · exact .inr h

theorem wordRune_toUpper {c : Char} (h : wordRune c = true) : wordRune c.toUpper = true := by
  rw [← upperRune_eq, ← isWordRune_eq]
  rw [← isWordRune_eq] at h
  unfold upperRune
  by_cases hc : 'a'.toNat ≤ c.toNat ∧ c.toNat ≤ 'z'.toNat
  · rw [if_pos hc]
    have hc' : 97 ≤ c.toNat ∧ c.toNat ≤ 122 := hc
    have hv : (c.toNat - 32).isValidChar := by left; omega
    have ht : (Char.ofNat (c.toNat - 32)).toNat = c.toNat - 32 := by
      rw [toNat_ofNat hv]
    unfold isWordRune isLetter
    rw [ht]
    simp only [show ('A' : Char).toNat = 65 from rfl, show ('Z' : Char).toNat = 90 from rfl]
    have h1 : decide (65 ≤ c.toNat - 32) = true := by simp; omega
    have h2 : decide (c.toNat - 32 ≤ 90) = true := by simp; omega
    rw [h1, h2]
    simp
  · rw [if_neg hc]; exact h

theorem lookup_keyword {w k : Str} (hw : ∀ c ∈ w, wordRune c = true) (hk : k ∈ sqlKeywords)
    (hs : spells w k) : lookup w = k := by
  have hu : toUpper w = k := by rw [toUpper_eq]; exact hs
  have hm : toUpper w ∈ keywords := by
    rw [mem_keywords, hu]; exact hk
    intro c hc
    rw [toUpper_eq] at hc
    obtain ⟨d, hd, rfl⟩ := List.mem_map.1 hc
    exact wordRune_toUpper (hw d hd)
  show (if toUpper w ∈ keywords then toUpper w else Token.Literal) = k
  rw [if_pos hm, hu]

theorem lookup_name {w : Str} (hw : isName w) : lookup w = Token.Literal := by
  have hm : toUpper w ∉ keywords := by
    intro hm
    rw [mem_keywords] at hm
    · rw [toUpper_eq] at hm
      exact hw.2 _ hm rfl
    · intro c hc
      rw [toUpper_eq] at hc
      obtain ⟨d, hd, rfl⟩ := List.mem_map.1 hc
      exact wordRune_toUpper (hw.1.2 d hd)
  show (if toUpper w ∈ keywords then toUpper w else Token.Literal) = Token.Literal
  rw [if_neg hm]

/-! ## Spelled texts -/

/-- The token of a lexeme. -/
def lexemeToken (x : Str) : Tok :=
  match x with
  | [c] => if wordRune c then ⟨lookup x, x⟩ else ⟨symbolType c, x⟩
  | _ => ⟨lookup x, x⟩

theorem lexemeToken_word {x : Str} (h : isWord x) : lexemeToken x = ⟨lookup x, x⟩ := by
  unfold lexemeToken
  split
  · rename_i c
    rw [if_pos (h.2 c (by simp))]
  · rfl

theorem lexemeToken_symbol {c : Char} (h : symbolRune c) : lexemeToken [c] = ⟨symbolType c, [c]⟩ := by
  simp [lexemeToken, h.1]

theorem lexAll_spelled {xs : List Str} {text : Str} (h : Spelled xs text) :
    lexAll text = xs.map lexemeToken := by
  induction h with
  | done w hw =>
    have := lexAll_blanks hw []
    rw [List.append_nil] at this
    rw [this]; rfl
  | more w x xs text hw hx _ hsep ih =>
    rw [List.append_assoc, lexAll_blanks hw]
    rcases hx with hx | ⟨c, hc, rfl⟩
    · rw [lexAll_word hx (hsep hx), ih, List.map_cons, lexemeToken_word hx]
    · rw [List.singleton_append, lexAll_symbol hc, ih, List.map_cons, lexemeToken_symbol hc]

end Verif
