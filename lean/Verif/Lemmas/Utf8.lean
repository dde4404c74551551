import Verif.Model.Utf8
import Verif.Spec.Utf8

/-!
# Encoding and decoding of runes
-/

namespace Verif.Raw
open Spec

theorem char_range (c : Char) : c.toNat < 0xD800 ∨ (0xDFFF < c.toNat ∧ c.toNat < 0x110000) := c.valid

theorem byte_lt (b : UInt8) : b.toNat < 256 := b.toNat_lt

theorem byte_ext {a b : UInt8} (h : a.toNat = b.toNat) : a = b := UInt8.toNat_inj.1 h

theorem ofNat_eq {n : Nat} {b : UInt8} (h : n = b.toNat) : UInt8.ofNat n = b := by
  subst h; simp

theorem toNat_byte {n : Nat} (h : n < 256) : (UInt8.ofNat n).toNat = n := by
  rw [UInt8.toNat_ofNat']; exact Nat.mod_eq_of_lt h

theorem appendRune_eq (c : Char) : appendRune c = String.utf8EncodeChar c := by
  have hr := char_range c
  unfold appendRune String.utf8EncodeChar
  show (if c.toNat < 128 then _ else _) = (if c.toNat ≤ 127 then _ else if c.toNat ≤ 2047 then _ else
    if c.toNat ≤ 65535 then _ else _)
  have hv : c.val.toNat = c.toNat := rfl
  simp only [hv]
  by_cases h1 : c.toNat < 128
  · rw [if_pos h1, if_pos (show c.toNat ≤ 127 by omega)]
  rw [if_neg h1, if_neg (show ¬ c.toNat ≤ 127 by omega)]
  by_cases h2 : c.toNat < 2048
  · rw [if_pos h2, if_pos (show c.toNat ≤ 2047 by omega)]
    rw [show 0xC0 + c.toNat / 64 = c.toNat / 64 % 32 + 192 by omega,
      show 0x80 + c.toNat % 64 = c.toNat % 64 + 128 by omega]
  rw [if_neg h2, if_neg (show ¬ c.toNat ≤ 2047 by omega)]
  by_cases h3 : c.toNat < 65536
  · rw [if_pos h3, if_pos (show c.toNat ≤ 65535 by omega)]
    rw [show 0xE0 + c.toNat / 4096 = c.toNat / 4096 % 16 + 224 by omega,
      show 0x80 + c.toNat / 64 % 64 = c.toNat / 64 % 64 + 128 by omega,
      show 0x80 + c.toNat % 64 = c.toNat % 64 + 128 by omega]
  rw [if_neg h3, if_neg (show ¬ c.toNat ≤ 65535 by omega)]
  rw [show 0xF0 + c.toNat / 262144 = c.toNat / 262144 % 8 + 240 by omega,
    show 0x80 + c.toNat / 4096 % 64 = c.toNat / 4096 % 64 + 128 by omega,
    show 0x80 + c.toNat / 64 % 64 = c.toNat / 64 % 64 + 128 by omega,
    show 0x80 + c.toNat % 64 = c.toNat % 64 + 128 by omega]

theorem ofRunes_eq (s : Str) : ofRunes s = utf8 s := by
  unfold ofRunes utf8
  exact congrArg (s.flatMap ·) (funext appendRune_eq)

theorem appendRune_ne_nil (c : Char) : appendRune c ≠ [] := by
  unfold appendRune
  simp only
  split
  · simp
  split
  · simp
  split <;> simp

theorem ofNat_toNat (c : Char) {n : Nat} (h : n = c.toNat) : Char.ofNat n = c := by
  subst h; exact Char.ofNat_toNat c

theorem leading_two {b : Nat} (h1 : 0xC2 ≤ b) (h2 : b < 0xE0) : leading b = some (2, 0x80, 0xBF) := by
  unfold leading; rw [if_neg (by omega), if_pos h2]

theorem decodeRune_append (c : Char) (r : Bytes) :
    decodeRune (appendRune c ++ r) = (c, (appendRune c).length) := by
  have hr := char_range c
  unfold appendRune
  simp only
  by_cases h1 : c.toNat < 128
  · rw [if_pos h1]
    show (if (UInt8.ofNat c.toNat).toNat < 128 then _ else _) = _
    rw [toNat_byte (by omega), if_pos h1, Char.ofNat_toNat]
    rfl
  rw [if_neg h1]
  by_cases h2 : c.toNat < 2048
  · rw [if_pos h2]
    simp only [List.cons_append, List.nil_append, decodeRune]
    rw [toNat_byte (n := 0xC0 + c.toNat / 64) (by omega), toNat_byte (n := 0x80 + c.toNat % 64) (by omega),
      if_neg (by omega), leading_two (by omega) (by omega)]
    simp only
    rw [if_neg (by simp only [Bool.or_eq_true, decide_eq_true_eq]; omega), if_pos (Nat.le_refl 2)]
    rw [ofNat_toNat c (by omega)]
    rfl
  rw [if_neg h2]
  by_cases h3 : c.toNat < 65536
  · rw [if_pos h3]
    simp only [List.cons_append, List.nil_append, decodeRune]
    rw [toNat_byte (n := 0xE0 + c.toNat / 4096) (by omega),
      toNat_byte (n := 0x80 + c.toNat / 64 % 64) (by omega),
      toNat_byte (n := 0x80 + c.toNat % 64) (by omega), if_neg (by omega)]
    have hl : ∃ lo hi, leading (0xE0 + c.toNat / 4096) = some (3, lo, hi) ∧
        lo ≤ 0x80 + c.toNat / 64 % 64 ∧ 0x80 + c.toNat / 64 % 64 ≤ hi := by
      unfold leading
      rw [if_neg (by omega), if_neg (by omega)]
      split
      · exact ⟨_, _, rfl, by omega, by omega⟩
      split
      · exact ⟨_, _, rfl, by omega, by omega⟩
      rw [if_pos (by omega)]
      exact ⟨_, _, rfl, by omega, by omega⟩
    obtain ⟨lo, hi, hl, h4, h5⟩ := hl
    rw [hl]
    simp only
    rw [if_neg (by simp only [Bool.or_eq_true, decide_eq_true_eq]; omega), if_neg (by omega),
      if_neg (by simp [cont]; omega), if_pos (Nat.le_refl 3)]
    rw [ofNat_toNat c (by omega)]
    rfl
  rw [if_neg h3]
  simp only [List.cons_append, List.nil_append, decodeRune]
  rw [toNat_byte (n := 0xF0 + c.toNat / 262144) (by omega),
    toNat_byte (n := 0x80 + c.toNat / 4096 % 64) (by omega),
    toNat_byte (n := 0x80 + c.toNat / 64 % 64) (by omega),
    toNat_byte (n := 0x80 + c.toNat % 64) (by omega), if_neg (by omega)]
  have hl : ∃ lo hi, leading (0xF0 + c.toNat / 262144) = some (4, lo, hi) ∧
      lo ≤ 0x80 + c.toNat / 4096 % 64 ∧ 0x80 + c.toNat / 4096 % 64 ≤ hi := by
    unfold leading
    rw [if_neg (by omega), if_neg (by omega), if_neg (by omega), if_neg (by omega), if_neg (by omega)]
    split
    · exact ⟨_, _, rfl, by omega, by omega⟩
    split
    · exact ⟨_, _, rfl, by omega, by omega⟩
    rw [if_pos (by omega)]
    exact ⟨_, _, rfl, by omega, by omega⟩
  obtain ⟨lo, hi, hl, h4, h5⟩ := hl
  rw [hl]
  simp only
  rw [if_neg (by simp only [Bool.or_eq_true, decide_eq_true_eq]; omega), if_neg (by omega),
    if_neg (by simp [cont]; omega), if_neg (by omega), if_neg (by simp [cont]; omega)]
  rw [ofNat_toNat c (by omega)]
  rfl

theorem toNat_ofNat {n : Nat} (h : n < 0xD800 ∨ (0xDFFF < n ∧ n < 0x110000)) :
    (Char.ofNat n).toNat = n := by
  unfold Char.ofNat
  rw [dif_pos h]
  simp [Char.toNat, Char.ofNatAux]

/-- What is decoded: either nothing, or the character whose encoding is at the front. -/
theorem decodeRune_sound (x : UInt8) (b : Bytes) :
    decodeRune (x :: b) = (runeError, 1) ∨
    ∃ c r, x :: b = appendRune c ++ r ∧ decodeRune (x :: b) = (c, (appendRune c).length) := by
  suffices h : decodeRune (x :: b) = (runeError, 1) ∨ ∃ c r, x :: b = appendRune c ++ r by
    rcases h with h | ⟨c, r, h⟩
    · exact .inl h
    · exact .inr ⟨c, r, h, by rw [h]; exact decodeRune_append c r⟩
  have hx := byte_lt x
  rw [decodeRune]
  split
  · next h =>
    refine .inr ⟨Char.ofNat x.toNat, b, ?_⟩
    unfold appendRune
    simp only
    rw [toNat_ofNat (by omega), if_pos h]
    simp
  next h0 =>
  split
  · exact .inl rfl
  next size lo hi hl =>
  cases b with
  | nil => exact .inl rfl
  | cons b1 b =>
  have hb1 := byte_lt b1
  simp only
  split
  · exact .inl rfl
  next h1 =>
  simp only [Bool.or_eq_true, decide_eq_true_eq, not_or, Nat.not_lt] at h1
  unfold leading at hl
  have fin2 : 0xC2 ≤ x.toNat → x.toNat < 0xE0 → 0x80 ≤ b1.toNat → b1.toNat ≤ 0xBF →
      ∃ c r, x :: b1 :: b = appendRune c ++ r := by
    intro g1 g2 g3 g4
    refine ⟨Char.ofNat (x.toNat % 32 * 64 + b1.toNat % 64), b, ?_⟩
    unfold appendRune
    simp only
    rw [toNat_ofNat (by omega), if_neg (by omega), if_pos (by omega),
      ofNat_eq (b := x) (by omega), ofNat_eq (b := b1) (by omega)]
    rfl
  have fin3 : ∀ b2 : UInt8, ∀ b' : Bytes, b = b2 :: b' → 0xE0 ≤ x.toNat → x.toNat < 0xF0 →
      0x80 ≤ b1.toNat → b1.toNat ≤ 0xBF → (x.toNat = 0xE0 → 0xA0 ≤ b1.toNat) →
      (x.toNat = 0xED → b1.toNat ≤ 0x9F) → 0x80 ≤ b2.toNat → b2.toNat ≤ 0xBF →
      ∃ c r, x :: b1 :: b = appendRune c ++ r := by
    rintro b2 b' rfl g1 g2 g3 g4 g5 g6 g7 g8
    have hb2 := byte_lt b2
    refine ⟨Char.ofNat (x.toNat % 16 * 4096 + b1.toNat % 64 * 64 + b2.toNat % 64), b', ?_⟩
    unfold appendRune
    simp only
    rw [toNat_ofNat (by omega), if_neg (by omega), if_neg (by omega), if_pos (by omega),
      ofNat_eq (b := x) (by omega), ofNat_eq (b := b1) (by omega), ofNat_eq (b := b2) (by omega)]
    rfl
  have fin4 : ∀ b2 b3 : UInt8, ∀ b' : Bytes, b = b2 :: b3 :: b' → 0xF0 ≤ x.toNat → x.toNat ≤ 0xF4 →
      0x80 ≤ b1.toNat → b1.toNat ≤ 0xBF → (x.toNat = 0xF0 → 0x90 ≤ b1.toNat) →
      (x.toNat = 0xF4 → b1.toNat ≤ 0x8F) → 0x80 ≤ b2.toNat → b2.toNat ≤ 0xBF →
      0x80 ≤ b3.toNat → b3.toNat ≤ 0xBF →
      ∃ c r, x :: b1 :: b = appendRune c ++ r := by
    rintro b2 b3 b' rfl g1 g2 g3 g4 g5 g6 g7 g8 g9 g10
    refine ⟨Char.ofNat (x.toNat % 8 * 262144 + b1.toNat % 64 * 4096 + b2.toNat % 64 * 64
      + b3.toNat % 64), b', ?_⟩
    unfold appendRune
    simp only
    rw [toNat_ofNat (by omega), if_neg (by omega), if_neg (by omega), if_neg (by omega),
      ofNat_eq (b := x) (by omega), ofNat_eq (b := b1) (by omega), ofNat_eq (b := b2) (by omega),
      ofNat_eq (b := b3) (by omega)]
    rfl
  have key : (size = 2 ∧ 0xC2 ≤ x.toNat ∧ x.toNat < 0xE0 ∧ 0x80 ≤ lo ∧ hi ≤ 0xBF) ∨
      (size = 3 ∧ 0xE0 ≤ x.toNat ∧ x.toNat < 0xF0 ∧ 0x80 ≤ lo ∧ hi ≤ 0xBF ∧
        (x.toNat = 0xE0 → 0xA0 ≤ lo) ∧ (x.toNat = 0xED → hi ≤ 0x9F)) ∨
      (size = 4 ∧ 0xF0 ≤ x.toNat ∧ x.toNat ≤ 0xF4 ∧ 0x80 ≤ lo ∧ hi ≤ 0xBF ∧
        (x.toNat = 0xF0 → 0x90 ≤ lo) ∧ (x.toNat = 0xF4 → hi ≤ 0x8F)) := by
    split at hl
    · cases hl
    split at hl
    · cases hl; omega
    split at hl
    · cases hl; omega
    split at hl
    · cases hl; omega
    split at hl
    · cases hl; omega
    split at hl
    · cases hl; omega
    split at hl
    · cases hl; omega
    split at hl
    · cases hl; omega
    · cases hl
  rcases key with ⟨rfl, k1, k2, k3, k4⟩ | ⟨rfl, k1, k2, k3, k4, k5, k6⟩ | ⟨rfl, k1, k2, k3, k4, k5, k6⟩
  · exact .inr (fin2 k1 k2 (by omega) (by omega))
  · rw [if_neg (by omega)]
    cases b with
    | nil => exact .inl rfl
    | cons b2 b =>
      simp only
      split
      · exact .inl rfl
      next h2 =>
      simp only [cont, Bool.not_eq_true', Bool.and_eq_true, decide_eq_true_eq,
        Bool.not_eq_false] at h2
      exact .inr (fin3 b2 b rfl k1 k2 (by omega) (by omega) (by omega) (by omega) h2.1 h2.2)
  · rw [if_neg (by omega)]
    cases b with
    | nil => exact .inl rfl
    | cons b2 b =>
      simp only
      split
      · exact .inl rfl
      next h2 =>
      simp only [cont, Bool.not_eq_true', Bool.and_eq_true, decide_eq_true_eq,
        Bool.not_eq_false] at h2
      rw [if_neg (by omega)]
      cases b with
      | nil => exact .inl rfl
      | cons b3 b =>
        simp only
        split
        · exact .inl rfl
        next h3 =>
        simp only [cont, Bool.not_eq_true', Bool.and_eq_true, decide_eq_true_eq,
          Bool.not_eq_false] at h3
        exact .inr (fin4 b2 b3 b rfl k1 k2 (by omega) (by omega) (by omega) (by omega) h2.1 h2.2 h3.1 h3.2)

/-! ## Strings -/

theorem decodeRune_width (x : UInt8) (b : Bytes) : 1 ≤ (decodeRune (x :: b)).2 := by
  rcases decodeRune_sound x b with h | ⟨c, r, -, h⟩
  · rw [h]; exact Nat.le_refl 1
  · rw [h]
    exact List.length_pos_iff.2 (appendRune_ne_nil c)

theorem unitsFuel_enough : ∀ (n m : Nat) (b : Bytes), b.length ≤ n → b.length ≤ m →
    unitsFuel n b = unitsFuel m b := by
  intro n
  induction n with
  | zero =>
    intro m b h _
    have : b = [] := List.eq_nil_of_length_eq_zero (Nat.le_zero.1 h)
    subst this
    cases m <;> rfl
  | succ n ih =>
    intro m b h1 h2
    cases b with
    | nil => cases m <;> rfl
    | cons x b =>
      cases m with
      | zero => simp at h2
      | succ m =>
        have hw := decodeRune_width x b
        simp only [unitsFuel]
        rw [ih m]
        · simp only [List.length_drop, List.length_cons] at h1 ⊢; omega
        · simp only [List.length_drop, List.length_cons] at h2 ⊢; omega

theorem units_cons (x : UInt8) (b : Bytes) :
    units (x :: b) = ((decodeRune (x :: b)).1, (x :: b).take (decodeRune (x :: b)).2)
      :: units ((x :: b).drop (decodeRune (x :: b)).2) := by
  have hw := decodeRune_width x b
  unfold units
  rw [List.length_cons, unitsFuel]
  simp only
  rw [unitsFuel_enough b.length _ _ ?_ (Nat.le_refl _)]
  simp only [List.length_drop, List.length_cons]; omega

theorem units_append (c : Char) (r : Bytes) :
    units (appendRune c ++ r) = (c, appendRune c) :: units r := by
  have hd := decodeRune_append c r
  cases h : appendRune c with
  | nil => exact absurd h (appendRune_ne_nil c)
  | cons x w =>
    rw [h] at hd
    rw [List.cons_append] at hd ⊢
    rw [units_cons, hd]
    simp only [← List.cons_append, List.take_left, List.drop_left]

theorem units_bad (x : UInt8) (b : Bytes) (h : decodeRune (x :: b) = (runeError, 1)) :
    units (x :: b) = (runeError, [x]) :: units b := by
  rw [units_cons, h]
  rfl

theorem units_ofRunes (s : Str) : units (ofRunes s) = s.map fun c => (c, appendRune c) := by
  induction s with
  | nil => rfl
  | cons c s ih =>
    rw [ofRunes, List.flatMap_cons, units_append]
    rw [show List.flatMap appendRune s = ofRunes s from rfl, ih]
    rfl

theorem runes_ofRunes (s : Str) : runes (ofRunes s) = s := by
  unfold runes
  rw [units_ofRunes, List.map_map]
  exact List.map_id'' (fun _ => rfl) s

theorem runes_append (c : Char) (r : Bytes) : runes (appendRune c ++ r) = c :: runes r := by
  unfold runes
  rw [units_append]; rfl

theorem runes_bad (x : UInt8) (b : Bytes) (h : decodeRune (x :: b) = (runeError, 1)) :
    runes (x :: b) = runeError :: runes b := by
  unfold runes
  rw [units_bad x b h]; rfl

/-- A string is empty, begins with the encoding of a character, or with a byte with which none
begins. -/
theorem bytes_cases (b : Bytes) : b = [] ∨ (∃ c r, b = appendRune c ++ r) ∨
    ∃ x r, b = x :: r ∧ decodeRune (x :: r) = (runeError, 1) ∧ ∀ c r', x :: r ≠ appendRune c ++ r' := by
  cases b with
  | nil => exact .inl rfl
  | cons x b =>
    rcases decodeRune_sound x b with h | ⟨c, r, h, -⟩
    · refine .inr (.inr ⟨x, b, rfl, h, ?_⟩)
      intro c r' e
      rw [e, decodeRune_append] at h
      injection h with h1 h2
      rw [h1] at h2
      revert h2
      decide
    · exact .inr (.inl ⟨c, r, h⟩)

/-- Induction along the runes of a string. -/
theorem bytes_induction {motive : Bytes → Prop} (nil : motive [])
    (char : ∀ c r, motive r → motive (appendRune c ++ r))
    (bad : ∀ x r, decodeRune (x :: r) = (runeError, 1) → (∀ c r', x :: r ≠ appendRune c ++ r') →
      motive r → motive (x :: r)) (b : Bytes) : motive b := by
  generalize hn : b.length = n
  induction n using Nat.strongRecOn generalizing b with
  | ind n ih =>
    rcases bytes_cases b with rfl | ⟨c, r, rfl⟩ | ⟨x, r, rfl, h1, h2⟩
    · exact nil
    · refine char c r (ih r.length ?_ r rfl)
      have := List.length_pos_iff.2 (appendRune_ne_nil c)
      rw [List.length_append] at hn
      omega
    · refine bad x r h1 h2 (ih r.length ?_ r rfl)
      rw [List.length_cons] at hn
      omega

theorem decodes_runes (b : Bytes) : Decodes b (runes b) := by
  induction b using bytes_induction with
  | nil => exact .done
  | char c r ih => rw [runes_append, appendRune_eq]; exact .char c r _ ih
  | bad x r h1 h2 ih =>
    rw [runes_bad x r h1]
    refine .bad x r _ (fun c r' => ?_) ih
    rw [← appendRune_eq]
    exact h2 c r'

theorem append_cancel {c c' : Char} {r r' : Bytes} (h : appendRune c ++ r = appendRune c' ++ r') :
    c = c' ∧ r = r' := by
  have h1 := decodeRune_append c r
  rw [h, decodeRune_append] at h1
  injection h1 with h1 _
  subst h1
  exact ⟨rfl, List.append_cancel_left h⟩

theorem decodes_unique {b : Bytes} {s : Str} (h : Decodes b s) : s = runes b := by
  induction h with
  | done => rfl
  | char c b s _ ih => rw [← appendRune_eq, runes_append, ih]
  | bad x b s hb _ ih =>
    have : decodeRune (x :: b) = (runeError, 1) := by
      rcases decodeRune_sound x b with h | ⟨c, r, h, -⟩
      · exact h
      · rw [appendRune_eq] at h
        exact absurd h (hb c r)
    rw [runes_bad x b this, ih]
    rfl

theorem ofRunes_append (s t : Str) : ofRunes (s ++ t) = ofRunes s ++ ofRunes t :=
  List.flatMap_append

theorem ofRunes_cons (c : Char) (s : Str) : ofRunes (c :: s) = appendRune c ++ ofRunes s :=
  List.flatMap_cons

theorem ofRunes_inj {s t : Str} (h : ofRunes s = ofRunes t) : s = t := by
  rw [← runes_ofRunes s, h, runes_ofRunes]

theorem ofRunes_runes (b : Bytes) : ofRunes (runes b) = b ↔ ValidUtf8 b := by
  constructor
  · intro h
    exact ⟨runes b, by rw [← ofRunes_eq, h]⟩
  · rintro ⟨s, rfl⟩
    rw [← ofRunes_eq, runes_ofRunes]

/-- The bytes of the units make the string. -/
theorem units_bytes (b : Bytes) : (units b).flatMap (·.2) = b := by
  induction b using bytes_induction with
  | nil => rfl
  | char c r ih => rw [units_append, List.flatMap_cons, ih]
  | bad x r h1 _ ih => rw [units_bad x r h1, List.flatMap_cons, ih]; rfl

theorem units_mem {b : Bytes} {u : Char × Bytes} (h : u ∈ units b) :
    u.2 = appendRune u.1 ∨ ∃ x : UInt8, u = (runeError, [x]) ∧ 0x80 ≤ x.toNat := by
  induction b using bytes_induction with
  | nil => cases h
  | char c r ih =>
    rw [units_append] at h
    rcases List.mem_cons.1 h with rfl | h
    · exact .inl rfl
    · exact ih h
  | bad x r h1 _ ih =>
    rw [units_bad x r h1] at h
    rcases List.mem_cons.1 h with rfl | h
    · refine .inr ⟨x, rfl, ?_⟩
      refine Classical.byContradiction fun hx => ?_
      rw [decodeRune, if_pos (by omega)] at h1
      injection h1 with h1 _
      have := congrArg Char.toNat h1
      rw [toNat_ofNat (by omega)] at this
      rw [show runeError.toNat = 0xFFFD from rfl] at this
      omega
    · exact ih h

end Verif.Raw
