import Verif.Model.Format
import Verif.Spec.Read

/-!
# Numerals and hexadecimal against the readers
-/

namespace Verif
open Spec

theorem digitsValue_append (acc : Nat) (a b : Str) :
    digitsValue acc (a ++ b) = (digitsValue acc a).bind fun m => digitsValue m b := by
  induction a generalizing acc with
  | nil => rfl
  | cons c a ih =>
    simp only [List.cons_append, digitsValue]
    cases digitValue c with
    | none => rfl
    | some d => exact ih _

theorem digitValue_digitChar {d : Nat} (h : d < 10) : digitValue (Nat.digitChar d) = some d := by
  have : ∀ d < 10, digitValue (Nat.digitChar d) = some d := by decide
  exact this d h

theorem digitsValue_formatNat (n : Nat) : digitsValue 0 (formatNat n) = some n := by
  induction n using Nat.strongRecOn with
  | _ n ih =>
    unfold formatNat at ih ⊢
    rw [Nat.toDigits_eq_if (by decide)]
    split
    · rename_i h
      simp only [digitsValue, digitValue_digitChar h, Nat.mul_zero, Nat.zero_add]
    · rename_i h
      rw [digitsValue_append, ih (n / 10) (by omega)]
      simp only [Option.bind_some, digitsValue, digitValue_digitChar (Nat.mod_lt n (by decide))]
      rw [Nat.div_add_mod]

theorem formatNat_ne_nil (n : Nat) : formatNat n ≠ [] := Nat.toDigits_ne_nil

theorem readNat_formatNat (n : Nat) : readNat (formatNat n) = some n := by
  have h := digitsValue_formatNat n
  cases hs : formatNat n with
  | nil => exact absurd hs (formatNat_ne_nil n)
  | cons c s => rw [hs] at h; exact h

theorem digit_of_mem_formatNat {n : Nat} {c : Char} (h : c ∈ formatNat n) :
    ('0' ≤ c && c ≤ '9') = true := by
  have := Nat.isDigit_of_mem_toDigits (by decide) (by decide) h
  simp only [Char.isDigit, Bool.and_eq_true, decide_eq_true_eq] at this ⊢
  exact this

/-- The first digit is not zero. -/
theorem formatNat_head {n : Nat} (h : 0 < n) :
    ∃ c s, formatNat n = c :: s ∧ ('1' ≤ c && c ≤ '9') = true := by
  induction n using Nat.strongRecOn with
  | _ n ih =>
    unfold formatNat at ih ⊢
    rw [Nat.toDigits_eq_if (by decide)]
    split
    · rename_i hn
      refine ⟨_, [], rfl, ?_⟩
      have : ∀ d < 10, 0 < d → ('1' ≤ Nat.digitChar d && Nat.digitChar d ≤ '9') = true := by decide
      exact this n hn h
    · rename_i hn
      obtain ⟨c, s, hs, hc⟩ := ih (n / 10) (by omega) (by omega)
      exact ⟨c, s ++ [_], by rw [hs]; rfl, hc⟩

theorem canonical_cons {c : Char} {s : Str} (h : ('1' ≤ c && c ≤ '9') = true)
    (hs : ∀ d ∈ s, ('0' ≤ d && d ≤ '9') = true) : canonical (c :: s) = true := by
  unfold canonical
  split
  · rfl
  · rename_i heq
    cases heq
    exact absurd h (by decide)
  · rename_i heq
    cases heq
    rw [Bool.and_eq_true]
    exact ⟨h, by rw [List.all_eq_true]; exact hs⟩
  · rename_i heq; cases heq

theorem canonical_minus {c : Char} {s : Str} (h : ('1' ≤ c && c ≤ '9') = true)
    (hs : ∀ d ∈ s, ('0' ≤ d && d ≤ '9') = true) : canonical ('-' :: c :: s) = true := by
  show (('1' ≤ c && c ≤ '9') && s.all fun d => ('0' ≤ d && d ≤ '9')) = true
  rw [Bool.and_eq_true]
  exact ⟨h, by rw [List.all_eq_true]; exact hs⟩

theorem canonical_formatNat (n : Nat) : canonical (formatNat n) = true := by
  cases n with
  | zero => rfl
  | succ n =>
    obtain ⟨c, s, hs, hc⟩ := formatNat_head (Nat.succ_pos n)
    rw [hs]
    exact canonical_cons hc
      (fun d hd => digit_of_mem_formatNat (n := n + 1) (by rw [hs]; simp [hd]))

theorem canonical_formatInt (n : Int) : canonical (formatInt n) = true := by
  cases n with
  | ofNat m => exact canonical_formatNat m
  | negSucc m =>
    obtain ⟨c, s, hs, hc⟩ := formatNat_head (Nat.succ_pos m)
    simp only [formatInt]
    rw [hs]
    exact canonical_minus hc
      (fun d hd => digit_of_mem_formatNat (n := m + 1) (by rw [hs]; simp [hd]))

theorem readInt_of_digits {s : Str} (h : ∀ c ∈ s, ('0' ≤ c && c ≤ '9') = true) :
    readInt s = (readNat s).map fun n => (n : Int) := by
  cases s with
  | nil => rfl
  | cons c s =>
    unfold readInt
    split
    · rename_i heq; cases heq; exact absurd (h '-' (by simp)) (by decide)
    · rfl

theorem readInt_formatNat (n : Nat) : readInt (formatNat n) = some (n : Int) := by
  rw [readInt_of_digits (fun c => digit_of_mem_formatNat), readNat_formatNat]; rfl

theorem readInt_formatInt (n : Int) : readInt (formatInt n) = some n := by
  cases n with
  | ofNat m => exact readInt_formatNat m
  | negSucc m =>
    simp only [formatInt, readInt, readNat_formatNat]; rfl

/-! ## Conversions between integer types -/

theorem toInt64Wrap_of_range {n : Int} (h1 : -(2 ^ 63) ≤ n) (h2 : n < 2 ^ 63) :
    toInt64Wrap n = n := by
  unfold toInt64Wrap
  rw [Int.bmod_def]
  simp only [Nat.reducePow] at *
  split <;> omega

theorem toUint64Wrap_of_range {n : Nat} (h : n < 2 ^ 64) : toUint64Wrap n = n :=
  Nat.mod_eq_of_lt h

/-! ## Hexadecimal -/

theorem hexValue_hexDigit {n : Nat} (h : n < 16) : hexValue (hexDigit n) = some n := by
  have : ∀ n < 16, hexValue (hexDigit n) = some n := by decide
  exact this n h

theorem unhex_hexEncode (b : List UInt8) : unhex (hexEncode b) = some b := by
  induction b with
  | nil => rfl
  | cons x b ih =>
    have hx := x.toNat_lt
    have e : hexEncode (x :: b)
        = hexDigit (x.toNat / 16) :: hexDigit (x.toNat % 16) :: hexEncode b := rfl
    rw [e, unhex, hexValue_hexDigit (by omega), hexValue_hexDigit (by omega), ih]
    simp only [Nat.div_add_mod, UInt8.ofNat_toNat]

theorem hexEncode_length (b : List UInt8) : (hexEncode b).length = 2 * b.length := by
  induction b with
  | nil => rfl
  | cons x b ih =>
    have e : hexEncode (x :: b)
        = hexDigit (x.toNat / 16) :: hexDigit (x.toNat % 16) :: hexEncode b := rfl
    rw [e]; simp only [List.length_cons, ih]; omega

end Verif
