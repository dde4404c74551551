import Verif.Lemmas.Number
import Verif.Spec.Calendar

/-!
# The printed time against the calendar
-/

namespace Verif
open Spec

/-! ## Calendar -/

theorem isLeap_eq (y : Nat) :
    isLeap y = decide (y % 4 = 0 ∧ (y % 100 ≠ 0 ∨ y % 400 = 0)) := by
  rw [Bool.eq_iff_iff]; simp [isLeap]

theorem daysBeforeYear_eq (y : Nat) :
    daysBeforeYear y + (y + 99) / 100 = 365 * y + (y + 3) / 4 + (y + 399) / 400 := by
  induction y with
  | zero => rfl
  | succ y ih =>
    simp only [daysBeforeYear]
    have : (if isLeap y = true then 366 else 365 : Nat)
        = 365 + (if y % 4 = 0 then 1 else 0) + (if y % 400 = 0 then 1 else 0)
          - (if y % 100 = 0 then 1 else 0) := by
      rw [isLeap_eq]
      simp only [decide_eq_true_eq]
      split <;> split <;> split <;> split <;> omega
    rw [this]
    split <;> split <;> split <;> omega

/-- Position of a day in the 400-year cycle: century, four-year group, year, day. -/
theorem cycle_split {doe : Nat} (h : doe < 146097) :
    ∃ a b c d, doe = 36524 * a + 1461 * b + 365 * c + d ∧ a ≤ 3 ∧ b ≤ 24 ∧ c ≤ 3 ∧ d ≤ 365 ∧
      (d = 365 → c = 3 ∧ (b = 24 → a = 3)) := by
  obtain ⟨a, r, h1, ha, hr, hr'⟩ :
      ∃ a r, doe = 36524 * a + r ∧ a ≤ 3 ∧ r ≤ 36524 ∧ (r = 36524 → a = 3) := by
    by_cases h4 : doe = 146096
    · exact ⟨3, 36524, by omega⟩
    · exact ⟨doe / 36524, doe % 36524, by omega⟩
  obtain ⟨b, r2, h2, hb, hr2, hr2'⟩ :
      ∃ b r2, r = 1461 * b + r2 ∧ b ≤ 24 ∧ r2 ≤ 1460 ∧ (r2 = 1460 → b = 24 → a = 3) :=
    ⟨r / 1461, r % 1461, by omega⟩
  obtain ⟨c, d, h3, hc, hd, hd'⟩ :
      ∃ c d, r2 = 365 * c + d ∧ c ≤ 3 ∧ d ≤ 365 ∧ (d = 365 → c = 3) := by
    by_cases h4 : r2 = 1460
    · exact ⟨3, 365, by omega⟩
    · exact ⟨r2 / 365, r2 % 365, by omega⟩
  exact ⟨a, b, c, d, by omega, ha, hb, hc, hd, fun e => ⟨hd' e, hr2' (by have := hd' e; omega)⟩⟩

theorem div_eq_of_bounds {n k y : Nat} (h1 : k * y ≤ n) (h2 : n < k * y + k) : n / k = y := by
  have hk : 0 < k := by omega
  refine Nat.div_eq_of_lt_le ?_ ?_
  · rw [Nat.mul_comm]; exact h1
  · rw [Nat.succ_mul, Nat.mul_comm]; exact h2

theorem yoe_formula {a b c d doe : Nat} (e : doe = 36524 * a + 1461 * b + 365 * c + d)
    (ha : a ≤ 3) (hb : b ≤ 24) (hc : c ≤ 3) (hd : d ≤ 365)
    (hd' : d = 365 → c = 3 ∧ (b = 24 → a = 3)) :
    (doe - doe / 1460 + doe / 36524 - doe / 146096) / 365 = 100 * a + 4 * b + c := by
  have h3 : ∃ ε, doe / 1460 = 25 * a + b + ε ∧ ε ≤ 1 ∧ (ε = 1 → 1460 ≤ 24 * a + b + 365 * c + d) ∧
      (ε = 0 → d < 365) := by
    by_cases hl : 1460 ≤ 24 * a + b + 365 * c + d
    · exact ⟨1, div_eq_of_bounds (by omega) (by omega), by omega, fun _ => hl, by omega⟩
    · exact ⟨0, div_eq_of_bounds (by omega) (by omega), by omega, by omega, fun _ => by omega⟩
  obtain ⟨ε, h3, h4, h5, h6⟩ := h3
  have h12 : doe / 36524 = a + doe / 146096 := by
    by_cases hl : doe = 146096
    · rw [hl]; omega
    · rw [Nat.div_eq_of_lt (a := doe) (b := 146096) (by omega)]
      exact div_eq_of_bounds (by omega) (by omega)
  rw [h3, h12]
  have e2 : doe - (25 * a + b + ε) + (a + doe / 146096) - doe / 146096
      = doe - (25 * a + b + ε) + a := by
    rw [← Nat.add_assoc, Nat.add_sub_cancel]
  rw [e2]
  clear e2 h12 h3
  refine div_eq_of_bounds ?_ ?_
  · omega
  · omega

/-- The year of the era: the formula of `civilOf` finds the year containing the day. -/
theorem yoe_spec {doe : Nat} (h : doe < 146097) :
    ∃ yoe doy, (doe - doe / 1460 + doe / 36524 - doe / 146096) / 365 = yoe ∧ yoe < 400 ∧
      365 * yoe + yoe / 4 - yoe / 100 + doy = doe ∧ doy ≤ 365 ∧
      (doy = 365 → (yoe + 1) % 4 = 0 ∧ ((yoe + 1) % 100 ≠ 0 ∨ (yoe + 1) % 400 = 0)) := by
  obtain ⟨a, b, c, d, e, ha, hb, hc, hd, hd'⟩ := cycle_split h
  refine ⟨100 * a + 4 * b + c, d, yoe_formula e ha hb hc hd hd', ?_, ?_, hd, ?_⟩
  · clear e hd'; omega
  · have q1 : (100 * a + 4 * b + c) / 4 = 25 * a + b := div_eq_of_bounds (by omega) (by omega)
    have q2 : (100 * a + 4 * b + c) / 100 = a := div_eq_of_bounds (by omega) (by omega)
    rw [q1, q2]
    clear q1 q2 hd'
    omega
  · intro e
    obtain ⟨h1, h2⟩ := hd' e
    subst h1
    have : 100 * a + 4 * b + 3 + 1 = 4 * (25 * a + (b + 1)) := by omega
    rw [this]
    refine ⟨Nat.mul_mod_right _ _, ?_⟩
    by_cases hb' : b = 24
    · have ha3 := h2 hb'; subst hb'; subst ha3; exact .inr rfl
    · left; clear this e hd' h2 hd; omega

/-- Day and month of a day of the year that starts in March. -/
theorem month_spec (leap : Bool) (doy : Nat) (h : doy < 366) :
    let mp := (5 * doy + 2) / 153
    let d := doy - (153 * mp + 2) / 5 + 1
    let m := if mp < 10 then mp + 3 else mp - 9
    1 ≤ m ∧ m ≤ 12 ∧ 1 ≤ d ∧
    (m ≤ 2 → (doy = 365 → leap = true) → d ≤ daysInMonth leap m) ∧
    (m ≤ 2 → daysBeforeMonth leap m + (d - 1) + 306 = doy) ∧
    (2 < m → d ≤ daysInMonth leap m) ∧
    (2 < m → daysBeforeMonth leap m + (d - 1) = (if leap then 60 else 59) + doy) := by
  have : ∀ leap : Bool, ∀ doy < 366,
    let mp := (5 * doy + 2) / 153
    let d := doy - (153 * mp + 2) / 5 + 1
    let m := if mp < 10 then mp + 3 else mp - 9
    1 ≤ m ∧ m ≤ 12 ∧ 1 ≤ d ∧
    (m ≤ 2 → (doy = 365 → leap = true) → d ≤ daysInMonth leap m) ∧
    (m ≤ 2 → daysBeforeMonth leap m + (d - 1) + 306 = doy) ∧
    (2 < m → d ≤ daysInMonth leap m) ∧
    (2 < m → daysBeforeMonth leap m + (d - 1) = (if leap then 60 else 59) + doy) := by
    decide +kernel
  exact this leap doy h

/-- First day of the year after the year of the cycle. -/
theorem year_spec {era : Int} {yoe doe doy Y : Nat} (h1 : yoe < 400)
    (h2 : 365 * yoe + yoe / 4 - yoe / 100 + doy = doe) (hY : (Y : Int) = yoe + era * 400 + 1) :
    (daysBeforeYear Y : Int) + doy = era * 146097 + doe + 366 := by
  have h := daysBeforeYear_eq Y
  have a1 : (((Y + 99) / 100 : Nat) : Int) = (yoe / 100 : Nat) + era * 4 + 1 := by omega
  have a2 : (((Y + 3) / 4 : Nat) : Int) = (yoe / 4 : Nat) + era * 100 + 1 := by omega
  have a3 : (((Y + 399) / 400 : Nat) : Int) = era + 1 := by omega
  omega

/-- Day `z` counted from 0000-03-01: the date computed by `civilOf`. -/
theorem date_spec (z : Int) (hz : -60 ≤ z) :
    let era := z.fdiv 146097
    let doe := (z.fmod 146097).toNat
    let yoe := (doe - doe / 1460 + doe / 36524 - doe / 146096) / 365
    let doy := doe - (365 * yoe + yoe / 4 - yoe / 100)
    let mp := (5 * doy + 2) / 153
    let d := doy - (153 * mp + 2) / 5 + 1
    let m := if mp < 10 then mp + 3 else mp - 9
    ∃ y : Nat, (yoe : Int) + era * 400 + (if m ≤ 2 then 1 else 0) = y ∧
      1 ≤ m ∧ m ≤ 12 ∧ 1 ≤ d ∧ d ≤ daysInMonth (isLeap y) m ∧
      dayNumber y m d = z - 719468 ∧ (z < 3652425 - 60 → y < 10000) := by
  intro era doe
  have hz' : z = era * 146097 + doe := by
    have h0 : 0 ≤ z.fmod 146097 := Int.fmod_nonneg_of_pos _ (by decide)
    have h1 := Int.mul_fdiv_add_fmod z 146097
    show z = z.fdiv 146097 * 146097 + ((z.fmod 146097).toNat : Int)
    rw [Int.toNat_of_nonneg h0]
    omega
  have hdoe : doe < 146097 := by
    have h0 : 0 ≤ z.fmod 146097 := Int.fmod_nonneg_of_pos _ (by decide)
    have h1 := Int.fmod_lt_of_pos z (b := 146097) (by decide)
    show (z.fmod 146097).toNat < 146097
    omega
  clear_value era doe
  obtain ⟨yoe, doy, e1, hyoe, e2, hdoy, hleap⟩ := yoe_spec hdoe
  rw [e1]
  intro yoe' doy'
  have e3 : doy' = doy := by show doe - (365 * yoe + yoe / 4 - yoe / 100) = doy; clear e1 hz hz'; omega
  rw [e3]
  have e4 : yoe' = yoe := rfl
  rw [e4]
  clear e1 e3 e4
  clear_value yoe' doy'
  intro mp d m
  have hm0 : m = if mp < 10 then mp + 3 else mp - 9 := rfl
  obtain ⟨Y, hY⟩ : ∃ Y : Nat, (Y : Int) = yoe + era * 400 + 1 := by
    refine ⟨(yoe + era * 400 + 1).toNat, Int.toNat_of_nonneg ?_⟩
    omega
  have hyear := year_spec hyoe e2 hY
  have h1970 : daysBeforeYear 1970 = 719528 := by decide +kernel
  have hleapY : doy = 365 → isLeap Y = true := by
    intro h
    rw [isLeap_eq, decide_eq_true_eq]
    have := hleap h
    omega
  by_cases hm : m ≤ 2
  · obtain ⟨m1, m2, m3, m4, m5, -, -⟩ := month_spec (isLeap Y) doy (by omega)
    refine ⟨Y, by rw [if_pos hm]; exact hY.symm, m1, m2, m3, m4 hm hleapY, ?_, ?_⟩
    · have := m5 hm
      unfold dayNumber
      rw [h1970]
      show ((daysBeforeYear Y + daysBeforeMonth (isLeap Y) m + (d - 1) : Nat) : Int) - _ = _
      change daysBeforeMonth (isLeap Y) m + (d - 1) + 306 = doy at this
      clear_value d m
      omega
    · intro h; have := daysBeforeYear_eq Y
      have hdoy' : 306 ≤ doy := by have := m5 hm; omega
      clear_value d m mp
      omega
  · have hY0 : 0 < Y := by
      rcases Nat.eq_zero_or_pos Y with h | h
      · exfalso
        subst h
        have hd0 : daysBeforeYear 0 = 0 := rfl
        rw [hd0] at hyear
        have hdd : 306 ≤ doy := by omega
        have : 10 ≤ mp := by show 10 ≤ (5 * doy + 2) / 153; omega
        have : mp ≤ 11 := by show (5 * doy + 2) / 153 ≤ 11; omega
        apply hm
        rw [hm0, if_neg (by omega)]
        omega
      · exact h
    obtain ⟨y, rfl⟩ : ∃ y, Y = y + 1 := ⟨Y - 1, by omega⟩
    obtain ⟨m1, m2, m3, -, -, m6, m7⟩ := month_spec (isLeap y) doy (by omega)
    refine ⟨y, by rw [if_neg hm]; omega, m1, m2, m3, m6 (Nat.lt_of_not_le hm), ?_, ?_⟩
    · have := m7 (Nat.lt_of_not_le hm)
      unfold dayNumber
      rw [h1970]
      show ((daysBeforeYear y + daysBeforeMonth (isLeap y) m + (d - 1) : Nat) : Int) - _ = _
      change daysBeforeMonth (isLeap y) m + (d - 1) = _ at this
      have hy1 : daysBeforeYear (y + 1) = daysBeforeYear y + (if isLeap y then 366 else 365) := rfl
      clear_value d m
      cases hl : isLeap y <;> rw [hl] at this hy1 <;> simp at this hy1 <;> simp <;> omega
    · intro h; have := daysBeforeYear_eq (y + 1)
      clear_value d m mp
      omega

end Verif
