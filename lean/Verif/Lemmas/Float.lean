import Verif.Lemmas.Timestamp
import Verif.Spec.Float

/-!
# The text of floating-point numbers
-/

namespace Verif
open Spec

/-! ## Numbers of a binary format -/

theorem ieeeUnits_lt_succ (f n : Nat) : ieeeUnits f n < ieeeUnits f (n + 1) := by
  have hP : 0 < 2 ^ f := Nat.two_pow_pos f
  unfold ieeeUnits
  generalize 2 ^ f = P at hP
  by_cases h1 : n + 1 < P
  · rw [if_pos (by omega), if_pos h1]; omega
  by_cases h2 : n < P
  · have e : n + 1 = P := by omega
    rw [if_pos h2, if_neg h1, e, Nat.mod_self, Nat.div_self hP]
    simp only [Nat.add_zero, Nat.sub_self, Nat.pow_zero, Nat.mul_one]
    omega
  rw [if_neg h2, if_neg h1]
  have hq : 1 ≤ n / P := (Nat.one_le_div_iff hP).2 (by omega)
  have hr : n % P < P := Nat.mod_lt _ hP
  have e := Nat.div_add_mod n P
  by_cases h3 : n % P + 1 < P
  · have ed : (n + 1) / P = n / P := by
      rw [← e, Nat.add_assoc, Nat.mul_add_div hP, Nat.mul_add_div hP, Nat.div_eq_of_lt h3,
        Nat.div_eq_of_lt hr]
    have em : (n + 1) % P = n % P + 1 := by
      conv => lhs; rw [← e]
      rw [Nat.add_assoc, Nat.mul_add_mod, Nat.mod_eq_of_lt h3]
    rw [ed, em]
    exact Nat.mul_lt_mul_of_pos_right (by omega) (Nat.two_pow_pos _)
  · have e1 : n + 1 = P * (n / P + 1) := by rw [Nat.mul_add, Nat.mul_one]; omega
    have ed : (n + 1) / P = n / P + 1 := by rw [e1, Nat.mul_div_cancel_left _ hP]
    have em : (n + 1) % P = 0 := by rw [e1, Nat.mul_mod_right]
    rw [ed, em, Nat.add_zero, Nat.add_sub_cancel]
    have e2 : 2 ^ (n / P) = 2 * 2 ^ (n / P - 1) := by
      rw [← Nat.pow_succ', Nat.succ_eq_add_one, Nat.sub_add_cancel hq]
    rw [e2, ← Nat.mul_assoc]
    exact Nat.mul_lt_mul_of_pos_right (by omega) (Nat.two_pow_pos _)

theorem ieeeUnits_lt {f m n : Nat} (h : m < n) : ieeeUnits f m < ieeeUnits f n := by
  induction n with
  | zero => omega
  | succ n ih =>
    by_cases e : m = n
    · subst e; exact ieeeUnits_lt_succ f m
    · exact Nat.lt_trans (ih (by omega)) (ieeeUnits_lt_succ f n)

theorem ieeeUnits_le {f m n : Nat} (h : m ≤ n) : ieeeUnits f m ≤ ieeeUnits f n := by
  by_cases e : m = n
  · subst e; exact Nat.le_refl _
  · exact Nat.le_of_lt (ieeeUnits_lt (by omega))

theorem ieeeUnits_zero (f : Nat) : ieeeUnits f 0 = 0 := if_pos (Nat.two_pow_pos f)

theorem floatUnits_eq (n : Nat) : floatUnits n = ieeeUnits 52 n := by
  unfold floatUnits ieeeUnits
  by_cases h : n < 2 ^ 52
  · rw [if_pos h, if_pos (Nat.div_eq_of_lt h), Nat.mod_eq_of_lt h]
  · rw [if_neg h, if_neg]
    intro e
    have := (Nat.div_eq_zero_iff (a := n) (b := 2 ^ 52)).1 e
    omega

/-- The multiples of `T` by the numbers of the format, in order. -/
theorem units_mul_lt {f m n T : Nat} (hT : 0 < T) (h : m < n) :
    ieeeUnits f m * T < ieeeUnits f n * T :=
  Nat.mul_lt_mul_of_pos_right (ieeeUnits_lt h) hT

theorem units_mul_le {f m n T : Nat} (h : m ≤ n) : ieeeUnits f m * T ≤ ieeeUnits f n * T :=
  Nat.mul_le_mul_right T (ieeeUnits_le h)

/-- A number between the points half-way to the neighbours rounds to the number between them. -/
theorem roundsTo_of_between {F : FloatFormat} {N k n : Nat} (hn : n < F.infinity) (h0 : 0 < n)
    (hl : (ieeeUnits F.fraction (n - 1) + ieeeUnits F.fraction n) * 10 ^ k ≤
      N * 2 ^ F.smallest * 2)
    (hu : N * 2 ^ F.smallest * 2 ≤
      (ieeeUnits F.fraction n + ieeeUnits F.fraction (n + 1)) * 10 ^ k)
    (he : n % 2 = 1 →
      (ieeeUnits F.fraction (n - 1) + ieeeUnits F.fraction n) * 10 ^ k ≠
        N * 2 ^ F.smallest * 2 ∧
      N * 2 ^ F.smallest * 2 ≠
        (ieeeUnits F.fraction n + ieeeUnits F.fraction (n + 1)) * 10 ^ k) :
    RoundsTo F N k n := by
  refine ⟨hn, fun m _ hmn => ?_⟩
  unfold distance
  have hT : 0 < 10 ^ k := Nat.pow_pos (by decide)
  generalize 10 ^ k = T at *
  generalize N * 2 ^ F.smallest = a at *
  rw [Nat.add_mul] at *
  rw [Nat.add_mul] at *
  have h1 := units_mul_lt (f := F.fraction) hT (show n - 1 < n by omega)
  have h2 := units_mul_lt (f := F.fraction) hT (show n < n + 1 by omega)
  rcases Nat.lt_or_gt_of_ne hmn with h | h
  · have h3 := units_mul_le (f := F.fraction) (T := T) (show m ≤ n - 1 by omega)
    omega
  · have h3 := units_mul_le (f := F.fraction) (T := T) (show n + 1 ≤ m by omega)
    omega

/-- Between two even numbers there is another one, so that they are never equally near. -/
theorem roundsTo_even {F : FloatFormat} {N k n m : Nat} (h : RoundsTo F N k n)
    (hm : m ≤ F.infinity) (hne : m ≠ n) (he : m % 2 = 0) :
    distance F N k n < distance F N k m := by
  obtain ⟨hn, h⟩ := h
  rcases h m hm hne with h1 | ⟨h1, h2⟩
  · exact h1
  · exfalso
    have hT : 0 < 10 ^ k := Nat.pow_pos (by decide)
    rcases Nat.lt_or_gt_of_ne hne with hlt | hlt
    · have h3 := h (n - 1) (by omega) (by omega)
      unfold distance at *
      generalize 10 ^ k = T at *
      generalize N * 2 ^ F.smallest = a at *
      have h4 := units_mul_lt (f := F.fraction) hT (show n - 1 < n by omega)
      have h5 := units_mul_lt (f := F.fraction) hT (show m < n - 1 by omega)
      omega
    · have h3 := h (n + 1) (by omega) (by omega)
      unfold distance at *
      generalize 10 ^ k = T at *
      generalize N * 2 ^ F.smallest = a at *
      have h4 := units_mul_lt (f := F.fraction) hT (show n < n + 1 by omega)
      have h5 := units_mul_lt (f := F.fraction) hT (show n + 1 < m by omega)
      omega

theorem roundsTo_unique {F : FloatFormat} {N k n m : Nat} (h : RoundsTo F N k n)
    (h' : RoundsTo F N k m) : n = m := by
  by_cases e : n = m
  · exact e
  exfalso
  rcases h.2 m (Nat.le_of_lt h'.1) (Ne.symm e) with h1 | ⟨h1, h2⟩
  · rcases h'.2 n (Nat.le_of_lt h.1) e with h3 | ⟨h3, -⟩ <;> omega
  · have := roundsTo_even h' (Nat.le_of_lt h.1) e h2
    omega

/-- A number that rounds lies between the points half-way to the neighbours. -/
theorem between_of_roundsTo {F : FloatFormat} {N k n : Nat} (h : RoundsTo F N k n) (h0 : 0 < n) :
    (ieeeUnits F.fraction (n - 1) + ieeeUnits F.fraction n) * 10 ^ k ≤ N * 2 ^ F.smallest * 2 ∧
    N * 2 ^ F.smallest * 2 ≤
      (ieeeUnits F.fraction n + ieeeUnits F.fraction (n + 1)) * 10 ^ k ∧
    (n % 2 = 1 →
      (ieeeUnits F.fraction (n - 1) + ieeeUnits F.fraction n) * 10 ^ k ≠
        N * 2 ^ F.smallest * 2 ∧
      N * 2 ^ F.smallest * 2 ≠
        (ieeeUnits F.fraction n + ieeeUnits F.fraction (n + 1)) * 10 ^ k) := by
  obtain ⟨hn, h⟩ := h
  have h1 := h (n - 1) (by omega) (by omega)
  have h2 := h (n + 1) (by omega) (by omega)
  unfold distance at h1 h2
  have hT : 0 < 10 ^ k := Nat.pow_pos (by decide)
  have h3 := units_mul_lt (f := F.fraction) hT (show n - 1 < n by omega)
  have h4 := units_mul_lt (f := F.fraction) hT (show n < n + 1 by omega)
  generalize 10 ^ k = T at *
  generalize N * 2 ^ F.smallest = a at *
  rw [Nat.add_mul, Nat.add_mul]
  omega

/-! ## The search -/

theorem pow_succ_of (b : Nat) {e e' : Nat} (h : e' = e + 1) : b ^ e' = b ^ e * b := by
  rw [h, Nat.pow_succ]

theorem readsBack_iff {n d : Nat} {p : Int} (hn : n < binary64.infinity) (h0 : 0 < n) :
    readsBack n d p = true ↔ RoundsTo binary64 (d * 10 ^ p.toNat) (-p).toNat n := by
  have e : (d * 10 ^ p.toNat) * 2 ^ 1075 = d * 10 ^ p.toNat * 2 ^ binary64.smallest * 2 := by
    have e1 : binary64.smallest = 1074 := rfl
    rw [e1, pow_succ_of 2 (e := 1074) rfl, ← Nat.mul_assoc]
  simp only [readsBack, floatUnits_eq]
  rw [e]
  constructor
  · intro h
    have hh : (ieeeUnits 52 (n - 1) + ieeeUnits 52 n) * 10 ^ (-p).toNat ≤
          d * 10 ^ p.toNat * 2 ^ binary64.smallest * 2 ∧
        d * 10 ^ p.toNat * 2 ^ binary64.smallest * 2 ≤
          (ieeeUnits 52 n + ieeeUnits 52 (n + 1)) * 10 ^ (-p).toNat ∧
        (n % 2 = 1 → (ieeeUnits 52 (n - 1) + ieeeUnits 52 n) * 10 ^ (-p).toNat ≠
          d * 10 ^ p.toNat * 2 ^ binary64.smallest * 2 ∧
        d * 10 ^ p.toNat * 2 ^ binary64.smallest * 2 ≠
          (ieeeUnits 52 n + ieeeUnits 52 (n + 1)) * 10 ^ (-p).toNat) := by
      revert h
      generalize d * 10 ^ p.toNat * 2 ^ binary64.smallest * 2 = x
      generalize (ieeeUnits 52 (n - 1) + ieeeUnits 52 n) * 10 ^ (-p).toNat = l
      generalize (ieeeUnits 52 n + ieeeUnits 52 (n + 1)) * 10 ^ (-p).toNat = u
      split <;> simp only [Bool.and_eq_true, decide_eq_true_eq] <;> omega
    exact roundsTo_of_between hn h0 hh.1 hh.2.1 hh.2.2
  · intro h
    have hh := between_of_roundsTo h h0
    revert hh
    show ((ieeeUnits 52 (n - 1) + ieeeUnits 52 n) * 10 ^ (-p).toNat ≤
          d * 10 ^ p.toNat * 2 ^ binary64.smallest * 2 ∧
        d * 10 ^ p.toNat * 2 ^ binary64.smallest * 2 ≤
          (ieeeUnits 52 n + ieeeUnits 52 (n + 1)) * 10 ^ (-p).toNat ∧
        (n % 2 = 1 → (ieeeUnits 52 (n - 1) + ieeeUnits 52 n) * 10 ^ (-p).toNat ≠
          d * 10 ^ p.toNat * 2 ^ binary64.smallest * 2 ∧
        d * 10 ^ p.toNat * 2 ^ binary64.smallest * 2 ≠
          (ieeeUnits 52 n + ieeeUnits 52 (n + 1)) * 10 ^ (-p).toNat)) → _
    generalize d * 10 ^ p.toNat * 2 ^ binary64.smallest * 2 = x
    generalize (ieeeUnits 52 (n - 1) + ieeeUnits 52 n) * 10 ^ (-p).toNat = l
    generalize (ieeeUnits 52 n + ieeeUnits 52 (n + 1)) * 10 ^ (-p).toNat = u
    split <;> simp only [Bool.and_eq_true, decide_eq_true_eq] <;> omega

/-- What reads back is an interval around the number. -/
theorem readsBack_mono {n d d' : Nat} {p : Int} (h0 : 0 < n) (h : readsBack n d' p = true)
    (hb : d' ≤ d ∧ d * 10 ^ p.toNat * 2 ^ 1075 ≤ 2 * floatUnits n * 10 ^ (-p).toNat ∨
      d ≤ d' ∧ 2 * floatUnits n * 10 ^ (-p).toNat ≤ d * 10 ^ p.toNat * 2 ^ 1075) :
    readsBack n d p = true := by
  simp only [readsBack, floatUnits_eq] at h hb ⊢
  have hT : 0 < 10 ^ (-p).toNat := Nat.pow_pos (by decide)
  have h3 := units_mul_lt (f := 52) hT (show n - 1 < n by omega)
  have h4 := units_mul_lt (f := 52) hT (show n < n + 1 by omega)
  have h5 : d' ≤ d → d' * 10 ^ p.toNat * 2 ^ 1075 ≤ d * 10 ^ p.toNat * 2 ^ 1075 := fun h =>
    Nat.mul_le_mul_right _ (Nat.mul_le_mul_right _ h)
  have h6 : d ≤ d' → d * 10 ^ p.toNat * 2 ^ 1075 ≤ d' * 10 ^ p.toNat * 2 ^ 1075 := fun h =>
    Nat.mul_le_mul_right _ (Nat.mul_le_mul_right _ h)
  rw [Nat.mul_assoc 2] at hb
  rw [Nat.add_mul, Nat.add_mul] at h ⊢
  generalize d * 10 ^ p.toNat * 2 ^ 1075 = x at *
  generalize d' * 10 ^ p.toNat * 2 ^ 1075 = x' at *
  generalize ieeeUnits 52 n * 10 ^ (-p).toNat = u at *
  generalize ieeeUnits 52 (n - 1) * 10 ^ (-p).toNat = l at *
  generalize ieeeUnits 52 (n + 1) * 10 ^ (-p).toNat = v at *
  split at h <;> rename_i he <;> simp only [he, if_true, if_false] <;>
    simp only [Bool.and_eq_true, decide_eq_true_eq] at h ⊢ <;> omega

theorem readsBack_exact {n d : Nat} {p : Int} (h0 : 0 < n)
    (hb : d * 10 ^ p.toNat * 2 ^ 1075 = 2 * floatUnits n * 10 ^ (-p).toNat) :
    readsBack n d p = true := by
  simp only [readsBack, floatUnits_eq] at hb ⊢
  have hT : 0 < 10 ^ (-p).toNat := Nat.pow_pos (by decide)
  have h3 := units_mul_lt (f := 52) hT (show n - 1 < n by omega)
  have h4 := units_mul_lt (f := 52) hT (show n < n + 1 by omega)
  rw [Nat.add_mul, Nat.add_mul]
  rw [Nat.mul_assoc 2] at hb
  generalize d * 10 ^ p.toNat * 2 ^ 1075 = x at *
  generalize ieeeUnits 52 n * 10 ^ (-p).toNat = u at *
  generalize ieeeUnits 52 (n - 1) * 10 ^ (-p).toNat = l at *
  generalize ieeeUnits 52 (n + 1) * 10 ^ (-p).toNat = v at *
  split <;> simp only [Bool.and_eq_true, decide_eq_true_eq] <;> omega

/-- The quotient of the search and its successor enclose the number. -/
theorem quotient_bounds (u t k e : Nat) :
    u * t / (2 ^ e * 10 ^ k) * 10 ^ k * 2 ^ e ≤ u * t ∧
    u * t ≤ (u * t / (2 ^ e * 10 ^ k) + 1) * 10 ^ k * 2 ^ e := by
  have hd : 0 < 2 ^ e * 10 ^ k := Nat.mul_pos (Nat.two_pow_pos e) (Nat.pow_pos (by decide))
  rw [Nat.mul_assoc, Nat.mul_assoc, Nat.mul_comm (10 ^ k)]
  refine ⟨Nat.div_mul_le_self _ _, Nat.le_of_lt ?_⟩
  rw [Nat.mul_comm (_ + 1)]
  exact Nat.lt_mul_div_succ _ hd

/-- All numbers are multiples of `10 ^ -1074`. -/
theorem quotient_exact (u : Nat) {e e' : Nat} (he : e' = e + 1) :
    2 * u * 10 ^ e / (2 ^ e' * 10 ^ 0) * 10 ^ 0 * 2 ^ e' = 2 * u * 10 ^ e := by
  subst he
  have h : 2 * u * 10 ^ e = u * 5 ^ e * 2 ^ (e + 1) := by
    rw [show 10 = 5 * 2 from rfl, Nat.mul_pow, Nat.pow_succ]
    simp only [Nat.mul_comm, Nat.mul_left_comm, Nat.mul_assoc]
  rw [h, Nat.pow_zero, Nat.mul_one, Nat.mul_one, Nat.mul_div_cancel _ (Nat.two_pow_pos _)]

/-- The search finds a decimal that reads back, and none with a larger power of ten does. -/
theorem shortest_reads {n : Nat} (h0 : 0 < n) (fuel : Nat) (p : Int) (h1 : -1074 ≤ p)
    (h2 : p + 1075 ≤ fuel) :
    readsBack n (shortest n fuel p).1 (shortest n fuel p).2 = true ∧ (shortest n fuel p).2 ≤ p ∧
      ∀ d q, (shortest n fuel p).2 < q → q ≤ p → readsBack n d q = false := by
  induction fuel generalizing p with
  | zero => omega
  | succ fuel ih =>
    unfold shortest
    have hq := quotient_bounds (2 * floatUnits n) (10 ^ (-p).toNat) p.toNat 1075
    generalize hd : 2 * floatUnits n * 10 ^ (-p).toNat / (2 ^ 1075 * 10 ^ p.toNat) = d at hq
    simp only [hd]
    split
    · rename_i ha hb
      split
      · exact ⟨ha, Int.le_refl p, fun _ _ _ _ => by omega⟩
      · split
        · exact ⟨hb, Int.le_refl p, fun _ _ _ _ => by omega⟩
        · split
          · exact ⟨ha, Int.le_refl p, fun _ _ _ _ => by omega⟩
          · exact ⟨hb, Int.le_refl p, fun _ _ _ _ => by omega⟩
    · rename_i ha hb
      exact ⟨ha, Int.le_refl p, fun _ _ _ _ => by omega⟩
    · rename_i ha hb
      exact ⟨hb, Int.le_refl p, fun _ _ _ _ => by omega⟩
    · rename_i ha hb
      by_cases hp : p = -1074
      · exfalso
        subst hp
        have e1 : (-1074 : Int).toNat = 0 := rfl
        have e2 : (- -1074 : Int).toNat = 1074 := rfl
        have := readsBack_exact (p := -1074) (d := d) h0 (by
          rw [e1, e2, ← hd, e1, e2]
          exact quotient_exact (floatUnits n) (e := 1074) rfl)
        rw [this] at ha
        cases ha
      · obtain ⟨g1, g2, g3⟩ := ih (p - 1) (by omega) (by omega)
        refine ⟨g1, by omega, fun d' q hq1 hq2 => ?_⟩
        by_cases e : q = p
        · subst e
          cases hr : readsBack n d' q with
          | false => rfl
          | true =>
            exfalso
            rcases Nat.lt_or_ge d d' with hlt | hge
            · rw [readsBack_mono h0 hr (Or.inr ⟨hlt, hq.2⟩)] at hb
              cases hb
            · rw [readsBack_mono h0 hr (Or.inl ⟨hge, hq.1⟩)] at ha
              cases ha
        · exact g3 d' q hq1 (by omega)

/-! ## The text -/

theorem takeWhile_before {c : Char} {s t : Str} (h : c ∉ s) :
    (s ++ c :: t).takeWhile (· ≠ c) = s ∧ (s ++ c :: t).dropWhile (· ≠ c) = c :: t := by
  induction s with
  | nil => simp
  | cons a s ih =>
    simp only [List.mem_cons, not_or] at h
    have := ih h.2
    simp only [List.cons_append, List.takeWhile_cons, List.dropWhile_cons, ne_eq, Ne.symm h.1,
      not_false_eq_true, decide_true, if_true, List.cons.injEq, true_and]
    exact this

theorem dropWhile_without {c : Char} {s : Str} (h : c ∉ s) : s.dropWhile (· ≠ c) = [] := by
  induction s with
  | nil => rfl
  | cons a s ih =>
    simp only [List.mem_cons, not_or] at h
    simp only [List.dropWhile_cons, ne_eq, Ne.symm h.1, not_false_eq_true, decide_true, if_true]
    exact ih h.2

theorem dot_formatNat (n : Nat) : '.' ∉ formatNat n := fun h =>
  absurd (digit_of_mem_formatNat h) (by decide)

theorem minus_formatNat (n : Nat) : '-' ∉ formatNat n := fun h =>
  absurd (digit_of_mem_formatNat h) (by decide)

theorem readNat_padNat (w n : Nat) : readNat (padNat w n) = some n := by
  have h := digitsValue_padNat w n
  have hne : padNat w n ≠ [] := by
    unfold padNat
    exact fun e => formatNat_ne_nil n (List.append_eq_nil_iff.1 e).2
  cases hs : padNat w n with
  | nil => exact absurd hs hne
  | cons c s => rw [hs] at h; exact h

theorem readDecimal_formatNat (n : Nat) : readDecimal (formatNat n) = some (n, 0) := by
  unfold readDecimal
  rw [dropWhile_without (dot_formatNat n), readNat_formatNat]
  rfl

theorem readDecimal_point (i w f : Nat) (hw : 0 < w) (hf : f < 10 ^ w) :
    readDecimal (formatNat i ++ s%"." ++ padNat w f) = some (i * 10 ^ w + f, w) := by
  unfold readDecimal
  have e := takeWhile_before (t := padNat w f) (dot_formatNat i)
  rw [show formatNat i ++ s%"." ++ padNat w f = formatNat i ++ '.' :: padNat w f from
    List.append_assoc _ _ _, e.2, e.1]
  simp only [readNat_formatNat, readNat_padNat, padNat_length hw hf, Option.bind_some,
    Option.map_some]

theorem readDecimal_formatDecimal (d : Nat) (p : Int) :
    readDecimal (formatDecimal d p) = some (d * 10 ^ p.toNat, (-p).toNat) := by
  unfold formatDecimal
  split
  · rename_i hp
    rw [readDecimal_formatNat, show (-p).toNat = 0 by omega]
  · rename_i hp
    rw [readDecimal_point _ _ _ (by omega) (Nat.mod_lt _ (Nat.pow_pos (by decide))),
      show p.toNat = 0 by omega, Nat.pow_zero, Nat.mul_one, Nat.mul_comm, Nat.div_add_mod]

/-- The first character is a digit. -/
theorem formatDecimal_head (d : Nat) (p : Int) :
    ∃ c t, formatDecimal d p = c :: t ∧ ('0' ≤ c && c ≤ '9') = true := by
  have h : ∀ n : Nat, ∀ t, ∃ c u, formatNat n ++ t = c :: u ∧ ('0' ≤ c && c ≤ '9') = true := by
    intro n t
    cases hs : formatNat n with
    | nil => exact absurd hs (formatNat_ne_nil n)
    | cons c s =>
      exact ⟨c, s ++ t, rfl, digit_of_mem_formatNat (n := n) (by rw [hs]; exact List.mem_cons_self)⟩
  unfold formatDecimal
  split
  · simpa using h (d * 10 ^ p.toNat) []
  · rw [List.append_assoc]; exact h _ _

theorem readNumeral_signed {neg : Bool} {t : Str} {d : Nat × Nat} (h : readDecimal t = some d)
    (hm : ∀ u, t ≠ '-' :: u) :
    readNumeral ((if neg then s%"-" else []) ++ t) = some (neg, d) := by
  cases neg with
  | true => simp [readNumeral, h]
  | false =>
    simp only [Bool.false_eq_true, if_false, List.nil_append]
    unfold readNumeral
    split
    · rename_i u; exact absurd rfl (hm u)
    · rw [h]; rfl

theorem roundsTo_zero (F : FloatFormat) (h : 0 < F.infinity) : RoundsTo F 0 0 0 := by
  refine ⟨h, fun m _ hm => Or.inl ?_⟩
  have := ieeeUnits_lt (f := F.fraction) (show 0 < m by omega)
  simp only [distance, ieeeUnits_zero] at this ⊢
  omega

/-- The text of a finite number reads back as this number, and no numeral with fewer digits after
the point does. -/
theorem formatFloat_reads {x : BitVec 64} (h : x.toNat % 2 ^ 63 < 2047 * 2 ^ 52) :
    ∃ N k, readNumeral (formatFloat x) = some (decide (2 ^ 63 ≤ x.toNat), N, k) ∧
      RoundsTo binary64 N k (x.toNat % 2 ^ 63) ∧
      ∀ N' k', RoundsTo binary64 N' k' (x.toNat % 2 ^ 63) → k ≤ k' := by
  unfold formatFloat
  generalize x.toNat % 2 ^ 63 = n at *
  simp only
  rw [if_neg (by omega), if_neg (by omega)]
  by_cases h0 : n = 0
  · subst h0
    rw [if_pos rfl]
    refine ⟨0, 0, readNumeral_signed (d := (0, 0)) rfl ?_, roundsTo_zero _ (by decide),
      fun _ _ _ => Nat.zero_le _⟩
    intro u e
    cases e
  · rw [if_neg h0]
    obtain ⟨h1, h2, h3⟩ := shortest_reads (n := n) (by omega) 1384 309 (by omega) (by omega)
    generalize shortest n 1384 309 = r at *
    refine ⟨_, _, readNumeral_signed (readDecimal_formatDecimal r.1 r.2) ?_,
      (readsBack_iff h (by omega)).1 h1, ?_⟩
    · obtain ⟨c, t, e, hc⟩ := formatDecimal_head r.1 r.2
      rw [e]
      rintro u e'
      cases e'
      exact absurd hc (by decide)
    · intro N' k' hr
      by_cases hk : (-r.2).toNat ≤ k'
      · exact hk
      · exfalso
        have := h3 N' (-(k' : Int)) (by omega) (by omega)
        rw [(readsBack_iff h (by omega)).2] at this
        · cases this
        · rw [show (-(k' : Int)).toNat = 0 by omega, show (- -(k' : Int)).toNat = k' by omega,
            Nat.pow_zero, Nat.mul_one]
          exact hr

/-- The text in general: digits, perhaps with digits after a point and a sign before it; or a word
for what is not finite. -/
theorem formatFloat_form (x : BitVec 64) :
    formatFloat x = s%"NaN" ∨ formatFloat x = s%"+Inf" ∨ formatFloat x = s%"-Inf" ∨
      ∃ neg : Bool, ∃ ds t, ds ≠ [] ∧ (∀ c ∈ ds, ('0' ≤ c && c ≤ '9') = true) ∧
        formatFloat x = (if neg then s%"-" else []) ++ (ds ++ t) ∧
        (t = [] ∨ ∃ fs, t = '.' :: fs ∧ fs ≠ [] ∧ ∀ c ∈ fs, ('0' ≤ c && c ≤ '9') = true) := by
  unfold formatFloat
  generalize x.toNat % 2 ^ 63 = n
  simp only
  split
  · exact .inl rfl
  split
  · split
    · exact .inr (.inr (.inl rfl))
    · exact .inr (.inl rfl)
  refine .inr (.inr (.inr ⟨decide (2 ^ 63 ≤ x.toNat), ?_⟩))
  by_cases h0 : n = 0
  · rw [if_pos h0]
    exact ⟨s%"0", [], by decide, by decide, rfl, .inl rfl⟩
  rw [if_neg h0]
  generalize shortest n 1384 309 = r
  by_cases hp : 0 ≤ r.2
  · exact ⟨formatNat (r.1 * 10 ^ r.2.toNat), [], formatNat_ne_nil _,
      fun c hc => digit_of_mem_formatNat hc,
      by unfold formatDecimal; rw [if_pos hp, List.append_nil], .inl rfl⟩
  · refine ⟨formatNat (r.1 / 10 ^ (-r.2).toNat),
      '.' :: padNat (-r.2).toNat (r.1 % 10 ^ (-r.2).toNat), formatNat_ne_nil _,
      fun c hc => digit_of_mem_formatNat hc,
      by unfold formatDecimal; rw [if_neg hp, List.append_assoc]; rfl, .inr ⟨_, rfl, ?_, ?_⟩⟩
    · unfold padNat
      exact fun e => formatNat_ne_nil _ (List.append_eq_nil_iff.1 e).2
    · intro c hc
      simp only [padNat, List.mem_append, List.mem_replicate] at hc
      rcases hc with ⟨-, rfl⟩ | hc
      · rfl
      · exact digit_of_mem_formatNat hc

/-! ## Conversion of float32 -/

theorem ieeeUnits_normal {f q r : Nat} (hr : r < 2 ^ f) :
    ieeeUnits f ((q + 1) * 2 ^ f + r) = (2 ^ f + r) * 2 ^ q := by
  have hP : 0 < 2 ^ f := Nat.two_pow_pos f
  unfold ieeeUnits
  generalize 2 ^ f = P at *
  have h1 : (q + 1) * P = q * P + P := by rw [Nat.add_mul, Nat.one_mul]
  rw [if_neg (by omega), Nat.mul_comm (q + 1) P, Nat.mul_add_mod, Nat.mod_eq_of_lt hr,
    Nat.mul_add_div hP, Nat.div_eq_of_lt hr]
  simp only [Nat.add_zero, Nat.add_sub_cancel]

/-- The conversion keeps the number (up to the different units), also where the bits of infinity
stand for the number that would follow. -/
theorem units_widenBits (n : Nat) :
    ieeeUnits 52 (widenBits n) = ieeeUnits 23 n * 2 ^ 925 := by
  unfold widenBits
  by_cases h : n / 2 ^ 23 = 0
  · rw [if_pos h]
    have hn : n < 2 ^ 23 := by
      rcases Nat.div_eq_zero_iff.1 h with h | h
      · omega
      · exact h
    have e : ieeeUnits 23 n = n := if_pos hn
    by_cases h0 : n = 0
    · rw [if_pos h0, e, ieeeUnits_zero, h0, Nat.zero_mul]
    · rw [if_neg h0, e]
      have hlo : 2 ^ n.log2 ≤ n := Nat.log2_self_le h0
      have hhi : n < 2 ^ (n.log2 + 1) := Nat.lt_log2_self
      have hL : n.log2 < 23 := (Nat.log2_lt h0).2 hn
      generalize n.log2 = L at *
      have e2 : 52 - L + (L + 873) = 925 := by clear hlo hhi; omega
      have e1 : 2 ^ 52 = 2 ^ L * 2 ^ (52 - L) := by rw [← Nat.pow_add]; congr 1; omega
      have hr : (n - 2 ^ L) * 2 ^ (52 - L) < 2 ^ 52 := by
        rw [e1]
        refine Nat.mul_lt_mul_of_pos_right ?_ (Nat.two_pow_pos _)
        rw [Nat.pow_succ] at hhi
        omega
      rw [show L + 874 = (L + 873) + 1 from rfl, ieeeUnits_normal hr]
      conv => lhs; lhs; lhs; rw [e1]
      rw [← Nat.add_mul, Nat.add_sub_cancel' hlo, Nat.mul_assoc, ← Nat.pow_add,
        e2]
  · rw [if_neg h]
    have hd := Nat.div_add_mod n (2 ^ 23)
    have hr : n % 2 ^ 23 < 2 ^ 23 := Nat.mod_lt _ (Nat.two_pow_pos 23)
    obtain ⟨q, hq⟩ : ∃ q, n / 2 ^ 23 = q + 1 := ⟨n / 2 ^ 23 - 1, by omega⟩
    rw [hq] at hd ⊢
    generalize n % 2 ^ 23 = r at *
    rw [← hd, Nat.mul_comm (2 ^ 23), ieeeUnits_normal hr,
      show q + 1 + 896 = (q + 896) + 1 by omega, ieeeUnits_normal (by omega)]
    have e1 : 2 ^ 52 + r * 2 ^ 29 = (2 ^ 23 + r) * 2 ^ 29 := by omega
    rw [e1, Nat.mul_assoc, Nat.mul_assoc, ← Nat.pow_add, ← Nat.pow_add,
      show 29 + (q + 896) = q + 925 by omega]

theorem widenBits_even (n : Nat) : widenBits n % 2 = 0 := by
  unfold widenBits
  split
  · split
    · rfl
    · rename_i h h0
      have hn : n < 2 ^ 23 := by
        rcases Nat.div_eq_zero_iff.1 h with h | h
        · omega
        · exact h
      have hL : n.log2 < 23 := (Nat.log2_lt h0).2 hn
      have : 2 ^ (52 - n.log2) = 2 * 2 ^ (51 - n.log2) := by
        rw [← Nat.pow_succ']; congr 1; omega
      rw [this, Nat.mul_left_comm]
      omega
  · omega

theorem ieeeUnits_lt_iff {f m n : Nat} : ieeeUnits f m < ieeeUnits f n ↔ m < n := by
  constructor
  · intro h
    by_cases hc : m < n
    · exact hc
    · have := ieeeUnits_le (f := f) (show n ≤ m by omega)
      omega
  · exact ieeeUnits_lt

theorem widenBits_lt_iff {m n : Nat} : widenBits m < widenBits n ↔ m < n := by
  rw [← ieeeUnits_lt_iff (f := 52), units_widenBits, units_widenBits,
    Nat.mul_lt_mul_right (Nat.two_pow_pos 925), ieeeUnits_lt_iff]

theorem widenBits_infinity : widenBits (255 * 2 ^ 23) = 1151 * 2 ^ 52 := by decide

theorem widenBits_finite {n : Nat} (h : n ≤ 255 * 2 ^ 23) : widenBits n ≤ 1151 * 2 ^ 52 := by
  by_cases e : n = 255 * 2 ^ 23
  · rw [e, widenBits_infinity]; exact Nat.le_refl _
  · rw [← widenBits_infinity]
    exact Nat.le_of_lt (widenBits_lt_iff.2 (by omega))

theorem distance_widenBits (N k n : Nat) :
    distance binary64 N k (widenBits n) = 2 ^ 925 * distance binary32 N k n := by
  unfold distance
  have e : 2 ^ binary64.smallest = 2 ^ binary32.smallest * 2 ^ 925 := by
    rw [← Nat.pow_add]; rfl
  rw [show binary64.fraction = 52 from rfl, show binary32.fraction = 23 from rfl, units_widenBits, e]
  generalize 2 ^ 925 = c
  generalize 2 ^ binary32.smallest = s
  generalize 10 ^ k = T
  generalize ieeeUnits 23 n = u
  rw [← Nat.mul_assoc, Nat.mul_comm (N * s) c, Nat.mul_right_comm u c T, Nat.mul_comm _ c]
  rw [Int.natCast_mul, Int.natCast_mul c, ← Int.mul_sub, Int.natAbs_mul, Int.natAbs_natCast]

/-- What reads back as the converted number as a binary64 number also reads back as the number as a
binary32 number. -/
theorem roundsTo_binary32 {N k n : Nat} (hn : n < binary32.infinity)
    (h : RoundsTo binary64 N k (widenBits n)) : RoundsTo binary32 N k n := by
  refine ⟨hn, fun m hm hne => Or.inl ?_⟩
  have hi : binary32.infinity = 255 * 2 ^ 23 := rfl
  have hi' : binary64.infinity = 2047 * 2 ^ 52 := rfl
  have := widenBits_finite (n := m) (by omega)
  have := roundsTo_even h (m := widenBits m) (by omega) (by
    intro e
    rcases Nat.lt_or_gt_of_ne hne with h | h
    · have := widenBits_lt_iff.2 h; omega
    · have := widenBits_lt_iff.2 h; omega) (widenBits_even m)
  rw [distance_widenBits, distance_widenBits] at this
  exact Nat.lt_of_mul_lt_mul_left this

theorem widen_toNat (x : BitVec 32) :
    (widen x).toNat % 2 ^ 63 =
      (if 255 * 2 ^ 23 ≤ x.toNat % 2 ^ 31 then
        2047 * 2 ^ 52 + x.toNat % 2 ^ 31 % 2 ^ 23 * 2 ^ 29
       else widenBits (x.toNat % 2 ^ 31)) ∧
    decide (2 ^ 63 ≤ (widen x).toNat) = decide (2 ^ 31 ≤ x.toNat) := by
  have hx := x.isLt
  unfold widen
  generalize x.toNat = v at *
  simp only
  split
  · rw [BitVec.toNat_ofNat]
    refine ⟨by omega, ?_⟩
    rw [decide_eq_decide]
    omega
  · have := widenBits_finite (n := v % 2 ^ 31) (by omega)
    generalize widenBits (v % 2 ^ 31) = w at *
    rw [BitVec.toNat_ofNat]
    refine ⟨by omega, ?_⟩
    rw [decide_eq_decide]
    omega

end Verif
