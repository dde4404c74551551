import Verif.Lemmas.Float
import Verif.Model.Runtime

/-!
# C67: floating-point numbers as literals
-/

namespace Verif.Props
open Verif Spec

/-- A numeral denotes at most one number of a format, so that "reads back as" is a function. -/
theorem denotes_unique (F : FloatFormat) (t : Str) (s s' : Bool) (n n' : Nat)
    (h : Denotes F t s n) (h' : Denotes F t s' n') : s = s' ∧ n = n' := by
  obtain ⟨N, k, e, h⟩ := h
  obtain ⟨N', k', e', h'⟩ := h'
  rw [e] at e'
  cases e'
  exact ⟨rfl, roundsTo_unique h h'⟩

section
variable [GoRuntime]

/-- C67, as far as it holds: the literal of a finite float64 is a numeral that reads back as exactly
this number (sign included, so also for minus zero). What is missing are NaN and the infinities, see
`C67_false`. -/
theorem C67_partial (x : BitVec 64) (h : x.toNat % 2 ^ 63 < 2047 * 2 ^ 52) :
    ∃ t, formatValue (.float64 x) = .ok t ∧
      Denotes binary64 t (decide (2 ^ 63 ≤ x.toNat)) (x.toNat % 2 ^ 63) := by
  obtain ⟨N, k, h1, h2, -⟩ := formatFloat_reads h
  exact ⟨_, rfl, N, k, h1, h2⟩

/-- The same of a float32, which is converted before it is printed: the numeral reads back as the
float32, and as a float64 it is the same number as well (`ieeeUnits` counts multiples of `2 ^ -149`
for the one and of `2 ^ -1074` for the other). -/
theorem C67_real_partial (x : BitVec 32) (h : x.toNat % 2 ^ 31 < 255 * 2 ^ 23) :
    ∃ t, formatValue (.float32 x) = .ok t ∧
      Denotes binary32 t (decide (2 ^ 31 ≤ x.toNat)) (x.toNat % 2 ^ 31) ∧
      ∃ n, Denotes binary64 t (decide (2 ^ 31 ≤ x.toNat)) n ∧
        ieeeUnits 52 n = ieeeUnits 23 (x.toNat % 2 ^ 31) * 2 ^ (1074 - 149) := by
  obtain ⟨e1, e2⟩ := widen_toNat x
  rw [if_neg (by omega)] at e1
  have hf := widenBits_finite (n := x.toNat % 2 ^ 31) (by omega)
  obtain ⟨N, k, h1, h2, -⟩ := formatFloat_reads (x := widen x) (by omega)
  rw [e1] at h2
  rw [e2] at h1
  exact ⟨_, rfl, ⟨N, k, h1, roundsTo_binary32 h h2⟩, _, ⟨N, k, h1, h2⟩, units_widenBits _⟩

/-- The numeral is as short as possible: no numeral that reads back as the number has fewer digits
after the point. -/
theorem C67_short (x : BitVec 64) (h : x.toNat % 2 ^ 63 < 2047 * 2 ^ 52) (t : Str) (s : Bool)
    (N k : Nat) (ht : formatValue (.float64 x) = .ok t) (hr : readNumeral t = some (s, N, k))
    (t' : Str) (s' : Bool) (N' k' : Nat) (hr' : readNumeral t' = some (s', N', k'))
    (hd : Denotes binary64 t' s' (x.toNat % 2 ^ 63)) : k ≤ k' := by
  cases ht
  obtain ⟨M, j, h1, -, h3⟩ := formatFloat_reads h
  rw [hr] at h1
  cases h1
  obtain ⟨N2, k2, h4, h5⟩ := hd
  rw [hr'] at h4
  cases h4
  exact h3 _ _ h5

/-- Exactly which numbers become numerals: the finite ones. -/
theorem C67_exact (x : BitVec 64) :
    (∃ t s n, formatValue (.float64 x) = .ok t ∧ Denotes binary64 t s n) ↔
      x.toNat % 2 ^ 63 < 2047 * 2 ^ 52 := by
  constructor
  · rintro ⟨t, s, n, ht, N, k, hr, -⟩
    cases ht
    by_cases h : x.toNat % 2 ^ 63 < 2047 * 2 ^ 52
    · exact h
    · exfalso
      unfold formatFloat at hr
      simp only at hr
      by_cases h1 : x.toNat % 2 ^ 63 > 2047 * 2 ^ 52
      · rw [if_pos h1] at hr
        revert hr
        simp [show readNumeral s%"NaN" = none from rfl]
      · rw [if_neg h1, if_pos (by omega)] at hr
        split at hr
        · rw [show readNumeral s%"-Inf" = none from rfl] at hr; cases hr
        · rw [show readNumeral s%"+Inf" = none from rfl] at hr; cases hr
  · intro h
    obtain ⟨t, h1, h2⟩ := C67_partial x h
    exact ⟨t, _, _, h1, h2⟩

/-- Different finite numbers have different literals. -/
theorem C67_injective (x y : BitVec 64) (hx : x.toNat % 2 ^ 63 < 2047 * 2 ^ 52)
    (hy : y.toNat % 2 ^ 63 < 2047 * 2 ^ 52)
    (h : formatValue (.float64 x) = formatValue (.float64 y)) : x = y := by
  obtain ⟨t, e1, h1⟩ := C67_partial x hx
  obtain ⟨u, e2, h2⟩ := C67_partial y hy
  rw [h, e2] at e1
  cases e1
  obtain ⟨hs, hn⟩ := denotes_unique _ _ _ _ _ _ h1 h2
  rw [decide_eq_decide] at hs
  have := x.isLt
  have := y.isLt
  apply BitVec.eq_of_toNat_eq
  omega

/-- C67 is false in general: NaN and the infinities are printed as bare words, which are not
numerals of any format; a reader of the SQL text takes them for names of columns. -/
theorem C67_false :
    formatValue (.float64 0x7FF8000000000001#64) = .ok s%"NaN" ∧
    formatValue (.float64 0x7FF0000000000000#64) = .ok s%"+Inf" ∧
    formatValue (.float64 0xFFF0000000000000#64) = .ok s%"-Inf" ∧
    ∀ F s n, ¬ Denotes F s%"NaN" s n ∧ ¬ Denotes F s%"+Inf" s n ∧ ¬ Denotes F s%"-Inf" s n := by
  refine ⟨by rfl, by rfl, by rfl, fun F s n => ⟨?_, ?_, ?_⟩⟩ <;> rintro ⟨N, k, h, -⟩
  · rw [show readNumeral s%"NaN" = none from rfl] at h; cases h
  · rw [show readNumeral s%"+Inf" = none from rfl] at h; cases h
  · rw [show readNumeral s%"-Inf" = none from rfl] at h; cases h

end

/-! ## The hypotheses are met -/

section
attribute [local instance] Runtime.sample

example : formatValue (.float64 0x3FF8000000000000#64) = .ok s%"1.5" := by decide +kernel
example : formatValue (.float64 0xBFB999999999999A#64) = .ok s%"-0.1" := by decide +kernel
example : formatValue (.float64 0x8000000000000000#64) = .ok s%"-0" := by decide +kernel
example : formatValue (.float64 0x44B52D02C7E14AF6#64) = .ok s%"100000000000000000000000" := by
  decide +kernel
example : formatValue (.float32 0x3DCCCCCD#32) = .ok s%"0.10000000149011612" := by decide +kernel
/-- The smallest positive float32. -/
example : formatValue (.float32 0x00000001#32) =
    .ok s%"0.000000000000000000000000000000000000000000001401298464324817" := by decide +kernel

example : (0x3FF8000000000000#64).toNat % 2 ^ 63 < 2047 * 2 ^ 52 := by decide
example : (0x3DCCCCCD#32).toNat % 2 ^ 31 < 255 * 2 ^ 23 := by decide

/-- `0.1` reads back as the float64 that is printed so, although it is not equal to it. -/
example : Denotes binary64 s%"0.1" false 0x3FB999999999999A :=
  (C67_partial 0x3FB999999999999A#64 (by decide)).elim fun t h => by
    have e : formatValue (.float64 0x3FB999999999999A#64) = .ok s%"0.1" := by decide +kernel
    rw [e] at h
    cases h.1
    exact h.2

/-- Another numeral of the same number, with more digits. -/
example : readNumeral s%"0.1000" = some (false, 1000, 4) := by decide

end

end Verif.Props
