import Verif.Lemmas.Utf8Text
import Verif.Lemmas.Number
import Verif.Lemmas.Quote
import Verif.Spec.Unquote

/-!
# Quoted names read back
-/

namespace Verif.Raw
open Spec

theorem takeHex_append (w n acc : Nat) (r : Str) : takeHex w acc (hexFixed w n ++ r) =
    some (acc * 16 ^ w + n % 16 ^ w, r) := by
  have step : ∀ (w n m acc : Nat) (r : Str),
      takeHex (w + m) acc (hexFixed w n ++ r) = takeHex m (acc * 16 ^ w + n % 16 ^ w) r := by
    intro w
    induction w with
    | zero => intro n m acc r; simp [hexFixed, Nat.mod_one]
    | succ w ih =>
      intro n m acc r
      rw [hexFixed, List.append_assoc, show w + 1 + m = w + (m + 1) by omega, ih,
        List.singleton_append, takeHex, hexValue_hexDigit (Nat.mod_lt _ (by decide))]
      simp only
      congr 1
      rw [Nat.pow_succ', Nat.mod_mul, Nat.add_mul, ← Nat.mul_assoc, Nat.mul_right_comm]
      rw [Nat.mul_comm acc 16, Nat.mul_assoc]
      omega
  have := step w n 0 acc r
  rwa [Nat.add_zero, takeHex] at this

section
variable [GoRuntime]

theorem unquoteBody_unit {u : Char × Bytes}
    (hu : u = (u.1, appendRune u.1) ∨ ∃ x, u = (runeError, [x])) (n : Nat) (r : Str) :
    unquoteBody (n + 1) (quoteUnitText u ++ r) = (unquoteBody n r).map fun (b, r) => (u.2 ++ b, r) := by
  rcases hu with hu | ⟨x, rfl⟩
  · generalize hc : u.1 = c at hu
    subst hu
    rw [quoteUnitText_char, appendRune_eq]
    have hr := char_range c
    have ascii : ∀ n, c.toNat = n → n < 128 → String.utf8EncodeChar c = [UInt8.ofNat n] := by
      intro n h hn
      rw [← appendRune_eq, appendRune_ascii (by omega), h]
    unfold quoteRune
    split
    · next h =>
      simp only [Bool.or_eq_true, decide_eq_true_eq] at h
      rcases h with rfl | rfl <;> rfl
    next h0 =>
    simp only [Bool.or_eq_true, decide_eq_true_eq, not_or] at h0
    split
    · rw [List.singleton_append, unquoteBody, if_neg h0.1, if_neg h0.2]
    split
    · next h => rw [ascii 7 h (by decide)]; rfl
    split
    · next h => rw [ascii 8 h (by decide)]; rfl
    split
    · next h => rw [ascii 12 h (by decide)]; rfl
    split
    · next h => subst h; rfl
    split
    · next h => subst h; rfl
    split
    · next h => subst h; rfl
    split
    · next h => rw [ascii 11 h (by decide)]; rfl
    split
    · next h =>
      simp only [Bool.or_eq_true, decide_eq_true_eq] at h
      have : c.toNat < 128 := by omega
      rw [ascii c.toNat rfl this]
      show unquoteBody (n + 1) ('\\' :: 'x' :: (hexFixed 2 c.toNat ++ r)) = _
      rw [unquoteBody, if_neg (by decide), if_pos rfl]
      simp only [unescape, reduceIte, takeHex_append]
      simp [Nat.mod_eq_of_lt (show c.toNat < 256 by omega)]
    split
    · next h =>
      show unquoteBody (n + 1) ('\\' :: 'u' :: (hexFixed 4 c.toNat ++ r)) = _
      rw [unquoteBody, if_neg (by decide), if_pos rfl]
      simp only [unescape, reduceIte, takeHex_append]
      simp [Nat.mod_eq_of_lt (show c.toNat < 65536 by omega)]
    · show unquoteBody (n + 1) ('\\' :: 'U' :: (hexFixed 8 c.toNat ++ r)) = _
      rw [unquoteBody, if_neg (by decide), if_pos rfl]
      simp only [unescape, reduceIte, takeHex_append]
      simp [Nat.mod_eq_of_lt (show c.toNat < 4294967296 by omega)]
  · unfold quoteUnitText
    rw [if_pos ⟨rfl, rfl⟩]
    show unquoteBody (n + 1) ('\\' :: 'x' :: (hexFixed 2 x.toNat ++ r)) = _
    rw [unquoteBody, if_neg (by decide), if_pos rfl]
    simp only [unescape, reduceIte, takeHex_append]
    simp [Nat.mod_eq_of_lt (byte_lt x)]

theorem quoteUnitText_length (u : Char × Bytes) : 1 ≤ (quoteUnitText u).length := by
  unfold quoteUnitText
  split
  · simp
  · exact List.length_pos_iff.2 (quoteRune_ne_nil _)

theorem unquoteBody_units (l : List (Char × Bytes))
    (hl : ∀ u ∈ l, u = (u.1, appendRune u.1) ∨ ∃ x, u = (runeError, [x])) (n : Nat) (r : Str) :
    unquoteBody (n + l.length + 1) (l.flatMap quoteUnitText ++ '"' :: r) = some (l.flatMap (·.2), r) := by
  induction l with
  | nil => rw [List.flatMap_nil, List.nil_append, unquoteBody, if_pos rfl]; rfl
  | cons u l ih =>
    rw [List.flatMap_cons, List.append_assoc, List.length_cons,
      show n + (l.length + 1) + 1 = (n + l.length + 1) + 1 by omega,
      unquoteBody_unit (hl u List.mem_cons_self), ih fun u h => hl u (List.mem_cons_of_mem _ h)]
    rfl

/-- The text of `goQuote`. -/
def goQuoteText (b : Bytes) : Str := s%"\"" ++ (units b).flatMap quoteUnitText ++ s%"\""

theorem unquote_goQuote (b : Bytes) (r : Str) : unquote (goQuoteText b ++ r) = some (b, r) := by
  have e : goQuoteText b ++ r = '"' :: ((units b).flatMap quoteUnitText ++ '"' :: r) := by
    simp [goQuoteText]
  rw [e]
  have hlen : (units b).length ≤ ((units b).flatMap quoteUnitText).length := by
    generalize units b = l
    induction l with
    | nil => simp
    | cons u l ih =>
      have := quoteUnitText_length u
      rw [List.flatMap_cons, List.length_append, List.length_cons]
      omega
  show unquoteBody (((units b).flatMap quoteUnitText ++ '"' :: r).length + 1) _ = _
  obtain ⟨k, hk⟩ : ∃ k, ((units b).flatMap quoteUnitText ++ '"' :: r).length = k + (units b).length :=
    ⟨_, (Nat.sub_add_cancel (by rw [List.length_append]; omega)).symm⟩
  rw [hk, unquoteBody_units (units b) (fun u h => (units_mem h).imp (fun e => Prod.ext rfl e)
    fun ⟨x, e, _⟩ => ⟨x, e⟩), units_bytes]

/-- The text of a dotted name. -/
def dottedText (l : List Bytes) : Str := Verif.joinWith s%"." (l.map goQuoteText)

theorem unquoteDotted_text (l : List Bytes) (hl : l ≠ []) (n : Nat) (hn : l.length ≤ n) :
    unquoteDotted n (dottedText l) = some l := by
  induction l generalizing n with
  | nil => exact absurd rfl hl
  | cons p l ih =>
    cases n with
    | zero => simp at hn
    | succ n =>
      rw [unquoteDotted]
      cases l with
      | nil =>
        have := unquote_goQuote p []
        rw [List.append_nil] at this
        rw [show dottedText [p] = goQuoteText p from rfl, this]
      | cons q l =>
        have e : dottedText (p :: q :: l) = goQuoteText p ++ '.' :: dottedText (q :: l) := by
          simp [dottedText, Verif.joinWith]
        rw [e, unquote_goQuote]
        simp only
        rw [ih (by simp) n (by simpa using hn)]
        rfl

theorem quote_text (b : Bytes) : quote b = ofRunes (dottedText (splitOn 0x2E b)) := by
  unfold quote dottedText
  rw [← joinWith_ofRunes, List.map_map]
  congr 1
  exact List.map_congr_left fun p _ => goQuote_text p

theorem dottedText_length (l : List Bytes) : l.length ≤ (dottedText l).length := by
  induction l with
  | nil => simp
  | cons p l ih =>
    cases l with
    | nil => simp [dottedText, Verif.joinWith, goQuoteText]
    | cons q l =>
      have e : dottedText (p :: q :: l) = goQuoteText p ++ '.' :: dottedText (q :: l) := by
        simp [dottedText, Verif.joinWith]
      rw [e, List.length_append, List.length_cons, List.length_cons (a := '.')]
      omega

end

theorem splitOn_no_sep (sep : UInt8) (b : Bytes) : ∀ p ∈ splitOn sep b, sep ∉ p := by
  induction b with
  | nil => simp [splitOn]
  | cons x b ih =>
    rw [splitOn]
    split
    · intro p hp
      rcases List.mem_cons.1 hp with rfl | hp
      · simp
      · exact ih p hp
    · next h =>
      cases h' : splitOn sep b with
      | nil => exact absurd h' (splitOn_ne_nil sep b)
      | cons q ps =>
        rw [h'] at ih
        intro p hp
        rcases List.mem_cons.1 hp with rfl | hp
        · rw [List.mem_cons, not_or]
          exact ⟨fun e => h e.symm, ih q List.mem_cons_self⟩
        · exact ih p (List.mem_cons_of_mem _ hp)

theorem intercalate_eq (sep : Bytes) (l : List Bytes) : sep.intercalate l = joinWith sep l := by
  induction l with
  | nil => rfl
  | cons p l ih =>
    cases l with
    | nil => simp [joinWith]
    | cons q l =>
      rw [joinWith, ← ih]
      simp [List.intercalate, List.intersperse]

theorem joinWith_splitOn (sep : UInt8) (b : Bytes) : joinWith [sep] (splitOn sep b) = b := by
  induction b with
  | nil => rfl
  | cons x b ih =>
    rw [splitOn]
    split
    · next h =>
      subst h
      cases h' : splitOn x b with
      | nil => exact absurd h' (splitOn_ne_nil x b)
      | cons q ps => rw [joinWith, ← h', ih]; rfl
    · cases h' : splitOn sep b with
      | nil => exact absurd h' (splitOn_ne_nil sep b)
      | cons q ps =>
        rw [h'] at ih
        cases ps with
        | nil => rw [joinWith] at ih ⊢; rw [ih]
        | cons q' ps => rw [joinWith] at ih ⊢; rw [← ih]; rfl

end Verif.Raw
