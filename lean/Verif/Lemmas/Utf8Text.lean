import Verif.Lemmas.Utf8
import Verif.Model.SetPairs
import Verif.Model.Convert

/-!
# The operations on bytes are those on runes
-/

namespace Verif.Raw
open Spec

theorem appendRune_ascii {c : Char} (h : c.toNat < 0x80) : appendRune c = [UInt8.ofNat c.toNat] := by
  unfold appendRune
  simp only
  rw [if_pos h]

theorem appendRune_high {c : Char} (h : 0x80 ≤ c.toNat) : ∀ x ∈ appendRune c, 0x80 ≤ x.toNat := by
  have hr := char_range c
  unfold appendRune
  simp only
  rw [if_neg (by omega)]
  split
  · intro x hx
    simp only [List.mem_cons, List.not_mem_nil, or_false] at hx
    rcases hx with rfl | rfl <;> rw [toNat_byte (by omega)] <;> omega
  split
  · intro x hx
    simp only [List.mem_cons, List.not_mem_nil, or_false] at hx
    rcases hx with rfl | rfl | rfl <;> rw [toNat_byte (by omega)] <;> omega
  · intro x hx
    simp only [List.mem_cons, List.not_mem_nil, or_false] at hx
    rcases hx with rfl | rfl | rfl | rfl <;> rw [toNat_byte (by omega)] <;> omega

/-! ## Literals -/

theorem formatStringRune_eq (c : Char) : formatStringRune c = ofRunes (Verif.formatStringRune c) := by
  unfold formatStringRune Verif.formatStringRune
  repeat' split
  all_goals first | rfl | (simp [ofRunes])

theorem formatString_eq (b : Bytes) : formatString b = ofRunes (Verif.formatString (runes b)) := by
  unfold formatString Verif.formatString
  rw [ofRunes_append, ofRunes_append]
  congr 1
  congr 1
  generalize runes b = s
  induction s with
  | nil => rfl
  | cons c s ih => rw [List.flatMap_cons, List.flatMap_cons, ofRunes_append, ← ih, formatStringRune_eq]

/-! ## Split and Join -/

theorem splitOn_ne_nil (sep : UInt8) (b : Bytes) : splitOn sep b ≠ [] := by
  cases b with
  | nil => simp [splitOn]
  | cons x b =>
    rw [splitOn]
    split
    · simp
    · split <;> simp

theorem splitOn_prefix {sep : UInt8} (w r : Bytes) (h : sep ∉ w) :
    splitOn sep (w ++ r) = match splitOn sep r with
      | [] => [w]
      | p :: ps => (w ++ p) :: ps := by
  induction w with
  | nil =>
    cases h' : splitOn sep r with
    | nil => exact absurd h' (splitOn_ne_nil sep r)
    | cons p ps => exact h'
  | cons x w ih =>
    rw [List.cons_append, splitOn, if_neg (by rintro rfl; exact h List.mem_cons_self),
      ih (fun hm => h (List.mem_cons_of_mem _ hm))]
    cases splitOn sep r <;> rfl

theorem splitOn_ofRunes (sep : Char) (hs : sep.toNat < 0x80) (s : Str) :
    splitOn (UInt8.ofNat sep.toNat) (ofRunes s) = (Verif.splitOn sep s).map ofRunes := by
  induction s with
  | nil => rfl
  | cons c s ih =>
    rw [ofRunes_cons, Verif.splitOn]
    split
    · next h =>
      subst h
      rw [appendRune_ascii hs, List.singleton_append, splitOn, if_pos rfl, ih]
      rfl
    · next h =>
      rw [splitOn_prefix, ih]
      · cases Verif.splitOn sep s with
        | nil => simp [ofRunes]
        | cons p ps => simp [ofRunes_cons]
      · intro hm
        by_cases hc : c.toNat < 0x80
        · rw [appendRune_ascii hc, List.mem_singleton] at hm
          have := congrArg UInt8.toNat hm
          rw [toNat_byte (by omega), toNat_byte (by omega)] at this
          exact h (Char.ext (UInt32.toNat_inj.1 this.symm))
        · have := appendRune_high (by omega) _ hm
          rw [toNat_byte (by omega)] at this
          omega

theorem joinWith_ofRunes (sep : Str) (l : List Str) :
    joinWith (ofRunes sep) (l.map ofRunes) = ofRunes (Verif.joinWith sep l) := by
  induction l with
  | nil => rfl
  | cons p l ih =>
    cases l with
    | nil => rfl
    | cons q l =>
      rw [List.map_cons, List.map_cons, joinWith, Verif.joinWith, ofRunes_append, ofRunes_append,
        ← ih]
      rfl

/-! ## Names -/

section
variable [GoRuntime]

/-- What `quoteUnit` writes, as characters. -/
def quoteUnitText (u : Char × Bytes) : Str :=
  if u.2.length = 1 ∧ u.1 = runeError then s%"\\x" ++ hexFixed 2 ((u.2.headD 0).toNat)
  else quoteRune u.1

theorem quoteUnit_eq (u : Char × Bytes) : quoteUnit u = ofRunes (quoteUnitText u) := by
  unfold quoteUnit quoteUnitText quoteRune
  simp only [apply_ite ofRunes, ofRunes_append, ofRunes_cons,
    show ofRunes [] = [] from rfl, List.append_nil, show appendRune '\\' = [0x5C] from rfl]

theorem quoteUnits_eq (l : List (Char × Bytes)) :
    l.flatMap quoteUnit = ofRunes (l.flatMap quoteUnitText) := by
  induction l with
  | nil => rfl
  | cons u l ih => rw [List.flatMap_cons, List.flatMap_cons, ofRunes_append, ← ih, quoteUnit_eq]

theorem quoteUnitText_char (c : Char) : quoteUnitText (c, appendRune c) = quoteRune c := by
  unfold quoteUnitText
  refine if_neg ?_
  rintro ⟨h, rfl⟩
  revert h
  decide

theorem goQuote_text (b : Bytes) :
    goQuote b = ofRunes (s%"\"" ++ (units b).flatMap quoteUnitText ++ s%"\"") := by
  unfold goQuote
  rw [quoteUnits_eq, ofRunes_append, ofRunes_append]
  rfl

theorem goQuote_ofRunes (s : Str) : goQuote (ofRunes s) = ofRunes (Verif.goQuote s) := by
  rw [goQuote_text, units_ofRunes, Verif.goQuote, List.flatMap_map]
  simp only [quoteUnitText_char]

theorem quote_ofRunes (s : Str) : quote (ofRunes s) = ofRunes (Verif.quote s) := by
  unfold quote Verif.quote
  have h := splitOn_ofRunes '.' (by decide) s
  rw [show UInt8.ofNat '.'.toNat = 0x2E from rfl] at h
  rw [h, List.map_map, ← joinWith_ofRunes, List.map_map]
  congr 1
  exact List.map_congr_left fun p _ => goQuote_ofRunes p

end

/-! ## Order -/

theorem less_same (u v r r' : Bytes) (hl : u.length = v.length) :
    less (u ++ r) (v ++ r') = (less u v || (u = v && less r r')) := by
  induction u generalizing v with
  | nil =>
    cases v with
    | nil => simp [less]
    | cons _ _ => simp at hl
  | cons x u ih =>
    cases v with
    | nil => simp at hl
    | cons y v =>
      simp only [List.length_cons, Nat.add_right_cancel_iff] at hl
      simp only [List.cons_append, less, ih v hl, List.cons.injEq]
      by_cases h : x = y
      · subst h
        simp
      · have : x.toNat ≠ y.toNat := fun e => h (byte_ext e)
        simp [h, this]

theorem less_prefix (x y : UInt8) (r r' : Bytes) (h : x.toNat < y.toNat) :
    less (x :: r) (y :: r') = true := by
  rw [less]; simp [h]

/-- The class of a character: its number of bytes less one. -/
theorem appendRune_less {c d : Char} (h : c.toNat < d.toNat) (r r' : Bytes) :
    less (appendRune c ++ r) (appendRune d ++ r') = true := by
  have hc := char_range c
  have hd := char_range d
  unfold appendRune
  simp only
  by_cases c1 : c.toNat < 128
  · rw [if_pos c1]
    split
    · exact less_prefix _ _ _ _ (by rw [toNat_byte (by omega), toNat_byte (by omega)]; omega)
    split
    · exact less_prefix _ _ _ _ (by rw [toNat_byte (by omega), toNat_byte (by omega)]; omega)
    split <;> exact less_prefix _ _ _ _ (by rw [toNat_byte (by omega), toNat_byte (by omega)]; omega)
  rw [if_neg c1, if_neg (show ¬ d.toNat < 128 by omega)]
  by_cases c2 : c.toNat < 2048
  · rw [if_pos c2]
    split
    · rw [less_same _ _ _ _ (by simp)]
      simp only [less, Bool.or_eq_true, Bool.and_eq_true, decide_eq_true_eq]
      rw [toNat_byte (by omega), toNat_byte (by omega), toNat_byte (by omega), toNat_byte (by omega)]
      left
      simp
      omega
    split <;> exact less_prefix _ _ _ _ (by rw [toNat_byte (by omega), toNat_byte (by omega)]; omega)
  rw [if_neg c2, if_neg (show ¬ d.toNat < 2048 by omega)]
  by_cases c3 : c.toNat < 65536
  · rw [if_pos c3]
    split
    · rw [less_same _ _ _ _ (by simp)]
      simp only [less, Bool.or_eq_true, Bool.and_eq_true, decide_eq_true_eq]
      rw [toNat_byte (by omega), toNat_byte (by omega), toNat_byte (by omega), toNat_byte (by omega),
        toNat_byte (by omega), toNat_byte (by omega)]
      left
      simp
      omega
    · exact less_prefix _ _ _ _ (by rw [toNat_byte (by omega), toNat_byte (by omega)]; omega)
  rw [if_neg c3, if_neg (show ¬ d.toNat < 65536 by omega), less_same _ _ _ _ (by simp)]
  simp only [less, Bool.or_eq_true, Bool.and_eq_true, decide_eq_true_eq]
  rw [toNat_byte (by omega), toNat_byte (by omega), toNat_byte (by omega), toNat_byte (by omega),
    toNat_byte (by omega), toNat_byte (by omega), toNat_byte (by omega), toNat_byte (by omega)]
  left
  simp
  omega

theorem less_asymm : ∀ (u v : Bytes), less u v = true → less v u = false := by
  intro u
  induction u with
  | nil => intro v h; cases v <;> rfl
  | cons x u ih =>
    intro v h
    cases v with
    | nil => cases h
    | cons y v =>
      simp only [less, Bool.or_eq_true, Bool.and_eq_true, decide_eq_true_eq] at h
      rw [less, Bool.eq_false_iff]
      simp only [ne_eq, Bool.or_eq_true, Bool.and_eq_true, decide_eq_true_eq]
      rcases h with h | ⟨h1, h2⟩
      · omega
      · rw [ih v h2]; simp; omega

theorem less_self (w r r' : Bytes) : less (w ++ r) (w ++ r') = less r r' := by
  induction w with
  | nil => rfl
  | cons x w ih => simp [less, ih]

theorem less_ofRunes (s t : Str) : less (ofRunes s) (ofRunes t) = strLt s t := by
  induction s generalizing t with
  | nil =>
    cases t with
    | nil => rfl
    | cons d t =>
      rw [ofRunes_cons]
      cases h : appendRune d with
      | nil => exact absurd h (appendRune_ne_nil d)
      | cons _ _ => rfl
  | cons c s ih =>
    cases t with
    | nil =>
      rw [ofRunes_cons]
      cases h : appendRune c with
      | nil => exact absurd h (appendRune_ne_nil c)
      | cons _ _ => rfl
    | cons d t =>
      rw [ofRunes_cons, ofRunes_cons, strLt]
      rcases Nat.lt_trichotomy c.toNat d.toNat with h | h | h
      · rw [appendRune_less h]; simp [h]
      · have : c = d := Char.ext (UInt32.toNat_inj.1 h)
        subst this
        rw [less_self, ih]; simp
      · rw [less_asymm _ _ (appendRune_less h _ _)]
        symm
        rw [Bool.eq_false_iff]
        simp only [ne_eq, Bool.or_eq_true, Bool.and_eq_true, decide_eq_true_eq]
        omega

/-! ## White space -/

theorem appendRune_head (c : Char) : ∃ x w, appendRune c = x :: w ∧
    (c.toNat < 0x80 → x.toNat = c.toNat ∧ w = []) ∧ (0x80 ≤ c.toNat → 0x80 ≤ x.toNat) := by
  cases h : appendRune c with
  | nil => exact absurd h (appendRune_ne_nil c)
  | cons x w =>
    refine ⟨x, w, rfl, fun hc => ?_, fun hc => appendRune_high hc x (by rw [h]; exact List.mem_cons_self)⟩
    rw [appendRune_ascii hc] at h
    simp only [List.cons.injEq] at h
    rw [← h.1, toNat_byte (by omega)]
    exact ⟨rfl, h.2.symm⟩

theorem asciiSpace_eq {c : Char} {x : UInt8} (hc : c.toNat < 0x80) (hx : x.toNat = c.toNat) :
    asciiSpace x = isSpace c := by
  have e : ∀ n : UInt8, (x = n) ↔ c.toNat = n.toNat := fun n =>
    ⟨fun h => by rw [← hx, h], fun h => byte_ext (hx.trans h)⟩
  rw [Bool.eq_iff_iff]
  unfold asciiSpace isSpace
  have e' : ∀ d : Char, (c = d) ↔ c.toNat = d.toNat := fun d =>
    ⟨fun h => by rw [h], fun h => Char.ext (UInt32.toNat_inj.1 h)⟩
  simp only [Bool.or_eq_true, Bool.and_eq_true, decide_eq_true_eq, e, e']
  rw [show (0x09 : UInt8).toNat = 9 from rfl, show (0x0A : UInt8).toNat = 10 from rfl,
    show (0x0B : UInt8).toNat = 11 from rfl, show (0x0C : UInt8).toNat = 12 from rfl,
    show (0x0D : UInt8).toNat = 13 from rfl, show (0x20 : UInt8).toNat = 32 from rfl,
    show '\t'.toNat = 9 from rfl, show '\n'.toNat = 10 from rfl, show '\x0b'.toNat = 11 from rfl,
    show '\x0c'.toNat = 12 from rfl, show '\r'.toNat = 13 from rfl, show ' '.toNat = 32 from rfl]
  omega

theorem trimLeftFuel_ofRunes (s : Str) : ∀ n, (ofRunes s).length ≤ n →
    trimLeftFuel n (ofRunes s) = ofRunes (s.dropWhile isSpace) := by
  induction s with
  | nil => intro n _; cases n <;> rfl
  | cons c s ih =>
    intro n hn
    have hd := decodeRune_append c (ofRunes s)
    obtain ⟨x, w, hw, -, -⟩ := appendRune_head c
    rw [ofRunes_cons, hw, List.cons_append] at hn ⊢
    rw [hw, List.cons_append] at hd
    cases n with
    | zero => simp at hn
    | succ n =>
      rw [trimLeftFuel, hd, List.dropWhile_cons]
      simp only
      split
      · rw [show (x :: (w ++ ofRunes s)).drop (x :: w).length = ofRunes s by
          rw [← List.cons_append, List.drop_left]]
        refine ih n ?_
        simp only [List.length_cons, List.length_append] at hn
        omega
      · rw [ofRunes_cons, hw, List.cons_append]

theorem trimLeft_ofRunes (s : Str) : trimLeft (ofRunes s) = ofRunes (s.dropWhile isSpace) :=
  trimLeftFuel_ofRunes s _ (Nat.le_refl _)

theorem decodeLastRune_append (c : Char) (p : Bytes) :
    decodeLastRune (p ++ appendRune c) = (c, (appendRune c).length) := by
  have hr := char_range c
  have hd := decodeRune_append c []
  rw [List.append_nil] at hd
  unfold decodeLastRune
  by_cases c1 : c.toNat < 128
  · rw [appendRune_ascii c1] at hd ⊢
    rw [List.reverse_append]
    simp only [List.reverse_cons, List.reverse_nil, List.nil_append, List.cons_append]
    rw [if_pos (by rw [toNat_byte (by omega)]; exact c1), toNat_byte (by omega)]
    simp [ofNat_toNat c rfl]
  have key : ∀ x rev, (p ++ appendRune c).reverse = x :: rev → 0x80 ≤ x.toNat →
      lastStart 3 rev + 1 = (appendRune c).length →
      (match (p ++ appendRune c).reverse with
        | [] => (runeError, 0)
        | x :: rev =>
          if x.toNat < 0x80 then (Char.ofNat x.toNat, 1)
          else
            let n := lastStart 3 rev + 1
            let (c', w) := decodeRune ((p ++ appendRune c).drop ((p ++ appendRune c).length - n))
            if w ≠ n then (runeError, 1) else (c', w)) = (c, (appendRune c).length) := by
    intro x rev h1 h2 h3
    rw [h1]
    simp only
    rw [if_neg (by omega), h3, List.length_append, Nat.add_sub_cancel, List.drop_left, hd]
    simp
  by_cases c2 : c.toNat < 2048
  · have he : appendRune c = [.ofNat (0xC0 + c.toNat / 64), .ofNat (0x80 + c.toNat % 64)] := by
      unfold appendRune; simp only; rw [if_neg c1, if_pos c2]
    refine key (.ofNat (0x80 + c.toNat % 64)) (.ofNat (0xC0 + c.toNat / 64) :: p.reverse)
      (by rw [he]; simp) (by rw [toNat_byte (by omega)]; omega) ?_
    rw [lastStart, if_pos (by unfold runeStart cont; rw [toNat_byte (by omega)]; simp; omega), he]
    rfl
  by_cases c3 : c.toNat < 65536
  · have he : appendRune c = [.ofNat (0xE0 + c.toNat / 4096), .ofNat (0x80 + c.toNat / 64 % 64),
        .ofNat (0x80 + c.toNat % 64)] := by
      unfold appendRune; simp only; rw [if_neg c1, if_neg c2, if_pos c3]
    refine key (.ofNat (0x80 + c.toNat % 64)) (.ofNat (0x80 + c.toNat / 64 % 64) ::
      .ofNat (0xE0 + c.toNat / 4096) :: p.reverse)
      (by rw [he]; simp) (by rw [toNat_byte (by omega)]; omega) ?_
    rw [lastStart, if_neg (by unfold runeStart cont; rw [toNat_byte (by omega)]; simp; omega),
      lastStart, if_pos (by unfold runeStart cont; rw [toNat_byte (by omega)]; simp; omega), he]
    rfl
  · have he : appendRune c = [.ofNat (0xF0 + c.toNat / 262144), .ofNat (0x80 + c.toNat / 4096 % 64),
        .ofNat (0x80 + c.toNat / 64 % 64), .ofNat (0x80 + c.toNat % 64)] := by
      unfold appendRune; simp only; rw [if_neg c1, if_neg c2, if_neg c3]
    refine key (.ofNat (0x80 + c.toNat % 64)) (.ofNat (0x80 + c.toNat / 64 % 64) ::
      .ofNat (0x80 + c.toNat / 4096 % 64) :: .ofNat (0xF0 + c.toNat / 262144) :: p.reverse)
      (by rw [he]; simp) (by rw [toNat_byte (by omega)]; omega) ?_
    rw [lastStart, if_neg (by unfold runeStart cont; rw [toNat_byte (by omega)]; simp; omega),
      lastStart, if_neg (by unfold runeStart cont; rw [toNat_byte (by omega)]; simp; omega),
      lastStart, if_pos (by unfold runeStart cont; rw [toNat_byte (by omega)]; simp; omega), he]
    rfl

/-- `trimRight` on characters. -/
def trimEnd (s : Str) : Str := (s.reverse.dropWhile isSpace).reverse

theorem trimEnd_concat (s : Str) (c : Char) :
    trimEnd (s ++ [c]) = if isSpace c then trimEnd s else s ++ [c] := by
  unfold trimEnd
  rw [List.reverse_append, List.reverse_cons, List.reverse_nil, List.nil_append, List.singleton_append,
    List.dropWhile_cons]
  split
  · rfl
  · simp

/-- Induction from the end. -/
theorem str_reverse {motive : Str → Prop} (nil : motive [])
    (concat : ∀ s c, motive s → motive (s ++ [c])) (s : Str) : motive s := by
  have : ∀ r : Str, motive r.reverse := by
    intro r
    induction r with
    | nil => exact nil
    | cons c r ih => rw [List.reverse_cons]; exact concat _ _ ih
  rw [← List.reverse_reverse s]
  exact this _

theorem trimRightFuel_ofRunes (s : Str) : ∀ n, (ofRunes s).length ≤ n →
    trimRightFuel n (ofRunes s) = ofRunes (trimEnd s) := by
  induction s using str_reverse with
  | nil => intro n _; cases n <;> rfl
  | concat s c ih =>
    intro n hn
    have hc : ofRunes (s ++ [c]) = ofRunes s ++ appendRune c := by
      rw [ofRunes_append]; simp [ofRunes]
    have hl : 0 < (appendRune c).length := List.length_pos_iff.2 (appendRune_ne_nil c)
    rw [hc] at hn ⊢
    rw [List.length_append] at hn
    cases n with
    | zero => omega
    | succ n =>
      rw [trimRightFuel, if_neg (by simp [appendRune_ne_nil]), decodeLastRune_append, trimEnd_concat]
      simp only
      split
      · rw [List.length_append, Nat.add_sub_cancel, List.take_left]
        exact ih n (by omega)
      · exact hc.symm

theorem trimRight_ofRunes (s : Str) : trimRight (ofRunes s) = ofRunes (trimEnd s) :=
  trimRightFuel_ofRunes s _ (Nat.le_refl _)

theorem trimSpaceEnd_ofRunes (s : Str) : trimSpaceEnd (ofRunes s).reverse = ofRunes (trimEnd s) := by
  induction s using str_reverse with
  | nil => rfl
  | concat s c ih =>
    have hc : ofRunes (s ++ [c]) = ofRunes s ++ appendRune c := by
      rw [ofRunes_append]; simp [ofRunes]
    by_cases h : c.toNat < 0x80
    · rw [trimEnd_concat, hc, appendRune_ascii h, List.reverse_append, List.reverse_cons,
        List.reverse_nil, List.nil_append, List.singleton_append, trimSpaceEnd,
        if_neg (by rw [toNat_byte (by omega)]; omega), asciiSpace_eq h (toNat_byte (by omega)), ih]
      split
      · rfl
      · rw [hc, appendRune_ascii h]; simp
    · have hr : ∃ x rev, (ofRunes (s ++ [c])).reverse = x :: rev ∧ 0x80 ≤ x.toNat := by
        cases h' : (appendRune c).reverse with
        | nil => exact absurd (List.reverse_eq_nil_iff.1 h') (appendRune_ne_nil c)
        | cons x rev =>
          refine ⟨x, rev ++ (ofRunes s).reverse, by rw [hc, List.reverse_append, h']; rfl, ?_⟩
          refine appendRune_high (c := c) (by omega) x ?_
          rw [← List.mem_reverse, h']
          exact List.mem_cons_self
      obtain ⟨x, rev, h1, h2⟩ := hr
      rw [h1, trimSpaceEnd, if_pos h2, ← h1, List.reverse_reverse, trimRight_ofRunes]

theorem trimSpace_ofRunes (s : Str) : trimSpace (ofRunes s) = ofRunes (Verif.trimSpace s) := by
  show _ = ofRunes (trimEnd (s.dropWhile isSpace))
  induction s with
  | nil => rfl
  | cons c s ih =>
    obtain ⟨x, w, hw, h1, h2⟩ := appendRune_head c
    by_cases h : c.toNat < 0x80
    · obtain ⟨h3, rfl⟩ := h1 h
      rw [ofRunes_cons, hw, List.cons_append, List.nil_append, trimSpace,
        if_neg (by omega), asciiSpace_eq h h3, List.dropWhile_cons]
      split
      · exact ih
      · rw [← trimSpaceEnd_ofRunes, ofRunes_cons, hw]; rfl
    · have h2 := h2 (by omega)
      have : ofRunes (c :: s) = x :: (w ++ ofRunes s) := by rw [ofRunes_cons, hw]; rfl
      rw [this, trimSpace, if_pos h2, ← this, trimLeft_ofRunes, trimRight_ofRunes]

/-! ## Numbers -/

theorem parseDigits_ofRunes (s : Str) (n : Nat) :
    parseDigits n (ofRunes s) = Verif.parseDigits n s := by
  induction s generalizing n with
  | nil => rfl
  | cons c s ih =>
    obtain ⟨x, w, hw, h1, h2⟩ := appendRune_head c
    rw [ofRunes_cons, hw, List.cons_append, parseDigits, Verif.parseDigits,
      show '0'.toNat = 0x30 from rfl, show '9'.toNat = 0x39 from rfl]
    by_cases h : c.toNat < 0x80
    · obtain ⟨h3, rfl⟩ := h1 h
      rw [h3, List.nil_append, ih]
    · have := h2 (by omega)
      rw [if_neg (by omega), if_neg (by omega)]

theorem parseInt64_ofRunes (s : Str) : parseInt64 (ofRunes s) = Verif.parseInt64 s := by
  cases s with
  | nil => rfl
  | cons c s =>
    have tail : ∀ (neg : Bool) (t : Str),
        (match ((neg, ofRunes t) : Bool × Bytes) with
          | (_, []) => (none : Option Int)
          | (neg, ds) =>
            match parseDigits 0 ds with
            | none => none
            | some n =>
              if neg then (if n ≤ 2 ^ 63 then some (-(n : Int)) else none)
              else (if n < 2 ^ 63 then some (n : Int) else none)) =
        (match ((neg, t) : Bool × Str) with
          | (_, []) => none
          | (neg, ds) =>
            match Verif.parseDigits 0 ds with
            | none => none
            | some n =>
              if neg then (if n ≤ 2 ^ 63 then some (-(n : Int)) else none)
              else (if n < 2 ^ 63 then some (n : Int) else none)) := by
      intro neg t
      cases t with
      | nil => rfl
      | cons d t =>
        have h := parseDigits_ofRunes (d :: t) 0
        obtain ⟨x, w, hw, -, -⟩ := appendRune_head d
        rw [ofRunes_cons, hw, List.cons_append] at h ⊢
        simp only [h]
    obtain ⟨x, w, hw, h1, h2⟩ := appendRune_head c
    by_cases hp : c = '+'
    · subst hp
      exact tail false s
    by_cases hm : c = '-'
    · subst hm
      exact tail true s
    have hx : x ≠ 0x2B ∧ x ≠ 0x2D := by
      by_cases h : c.toNat < 0x80
      · have h3 := (h1 h).1
        constructor
        · rintro rfl; exact hp (Char.ext (UInt32.toNat_inj.1 h3.symm))
        · rintro rfl; exact hm (Char.ext (UInt32.toNat_inj.1 h3.symm))
      · have := h2 (by omega)
        constructor <;> rintro rfl <;> revert this <;> decide
    refine Eq.trans ?_ ((tail false (c :: s)).trans ?_)
    · unfold parseInt64
      rw [ofRunes_cons, hw, List.cons_append]
      split
      · next h => exact absurd (List.cons.inj h).1 hx.1
      · next h => exact absurd (List.cons.inj h).1 hx.2
      · rfl
    · unfold Verif.parseInt64
      symm
      split
      · next h => exact absurd (List.cons.inj h).1 hp
      · next h => exact absurd (List.cons.inj h).1 hm
      · rfl

end Verif.Raw
