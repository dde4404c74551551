import Verif.Lemmas.Calendar

/-!
# Reading back the printed time
-/

namespace Verif
open Spec

theorem readDigits_eq (l : Str) (acc : Nat) (rest : Str) :
    readDigits l.length acc (l ++ rest) = (digitsValue acc l).map fun n => (n, rest) := by
  induction l generalizing acc with
  | nil => rfl
  | cons c l ih =>
    simp only [List.length_cons, List.cons_append, readDigits, digitsValue]
    cases digitValue c with
    | none => rfl
    | some d => exact ih _

theorem digitsValue_zeros (k : Nat) (l : Str) :
    digitsValue 0 (List.replicate k '0' ++ l) = digitsValue 0 l := by
  induction k with
  | zero => rfl
  | succ k ih => rw [List.replicate_succ, List.cons_append, digitsValue]; exact ih

theorem padNat_length {w n : Nat} (hw : 0 < w) (h : n < 10 ^ w) : (padNat w n).length = w := by
  have h1 : (formatNat n).length ≤ w := by
    unfold formatNat; exact (Nat.length_toDigits_le_iff (by decide) hw).2 h
  simp only [padNat, List.length_append, List.length_replicate]
  omega

theorem digitsValue_padNat (w n : Nat) : digitsValue 0 (padNat w n) = some n := by
  simp only [padNat, digitsValue_zeros, digitsValue_formatNat]

theorem readDigits_padNat {w n : Nat} (hw : 0 < w) (h : n < 10 ^ w) (rest : Str) :
    readDigits w 0 (padNat w n ++ rest) = some (n, rest) := by
  have := readDigits_eq (padNat w n) 0 rest
  rw [padNat_length hw h, digitsValue_padNat] at this
  exact this

theorem digit_of_mem_padNat {w n : Nat} {c : Char} (h : c ∈ padNat w n) :
    (digitValue c).isSome = true := by
  have key : ('0' ≤ c && c ≤ '9') = true := by
    simp only [padNat, List.mem_append, List.mem_replicate] at h
    rcases h with ⟨-, rfl⟩ | h
    · decide
    · exact digit_of_mem_formatNat h
  rw [Bool.and_eq_true, decide_eq_true_eq, decide_eq_true_eq] at key
  simp [digitValue, key]

/-- A list is its part without trailing zeros and the zeros. -/
theorem dropTrailingZeros_spec (l : Str) :
    ∃ k, l = dropTrailingZeros l ++ List.replicate k '0' := by
  unfold dropTrailingZeros
  have h : ∀ r : Str, ∃ k, r = List.replicate k '0' ++ r.dropWhile (· = '0') := by
    intro r
    induction r with
    | nil => exact ⟨0, rfl⟩
    | cons c r ih =>
      obtain ⟨k, hk⟩ := ih
      rw [List.dropWhile_cons]
      split
      · rename_i hc
        simp only [decide_eq_true_eq] at hc
        subst hc
        exact ⟨k + 1, by rw [List.replicate_succ, List.cons_append, ← hk]⟩
      · exact ⟨0, rfl⟩
  obtain ⟨k, hk⟩ := h l.reverse
  refine ⟨k, ?_⟩
  have := congrArg List.reverse hk
  simpa [List.reverse_append] using this

theorem digitsValue_trailing {acc m : Nat} {l : Str} {k : Nat}
    (h : digitsValue acc (l ++ List.replicate k '0') = some m) :
    ∃ n, digitsValue acc l = some n ∧ m = n * 10 ^ k := by
  rw [digitsValue_append] at h
  cases hn : digitsValue acc l with
  | none => rw [hn] at h; cases h
  | some n =>
    rw [hn] at h
    refine ⟨n, rfl, ?_⟩
    have hz : ∀ (k n : Nat), digitsValue n (List.replicate k '0') = some (n * 10 ^ k) := by
      intro k
      induction k with
      | zero => intro n; simp [digitsValue]
      | succ k ih =>
        intro n
        rw [List.replicate_succ, digitsValue]
        show digitsValue (10 * n + 0) _ = _
        rw [ih, Nat.pow_succ, Nat.add_zero, Nat.mul_comm 10 n, Nat.mul_assoc, Nat.mul_comm 10]
    simp only [Option.bind_some] at h
    rw [hz] at h
    cases h; rfl

theorem takeWhile_append_stop {p : Char → Bool} {l : Str} {c : Char} {rest : Str}
    (h : ∀ x ∈ l, p x = true) (hc : p c = false) :
    (l ++ c :: rest).takeWhile p = l := by
  induction l with
  | nil => simp [hc]
  | cons x l ih =>
    rw [List.cons_append, List.takeWhile_cons, h x (by simp), if_pos rfl,
      ih (fun y hy => h y (by simp [hy]))]

theorem readFraction_formatMicros {nano : Nat} (h : nano < 1000000000) (rest : Str) :
    readFraction (formatMicros nano ++ '+' :: rest) = some (nano / 1000, '+' :: rest) := by
  unfold formatMicros
  have hm : nano / 1000 < 10 ^ 6 := by omega
  generalize hp : padNat 6 (nano / 1000) = p
  have hlen : p.length = 6 := by rw [← hp]; exact padNat_length (by decide) hm
  have hval : digitsValue 0 p = some (nano / 1000) := by rw [← hp]; exact digitsValue_padNat _ _
  have hdig : ∀ c ∈ p, (digitValue c).isSome = true := by
    intro c hc; rw [← hp] at hc; exact digit_of_mem_padNat hc
  obtain ⟨k, hk⟩ := dropTrailingZeros_spec p
  generalize dropTrailingZeros p = ds at hk
  rw [hk] at hval
  obtain ⟨n, hn, hn'⟩ := digitsValue_trailing hval
  cases ds with
  | nil =>
    simp only [digitsValue] at hn
    cases hn
    rw [hn', Nat.zero_mul]
    rfl
  | cons d ds =>
    have hl : (d :: ds).length + k = 6 := by
      rw [hk, List.length_append, List.length_replicate] at hlen; exact hlen
    have htw : ((d :: ds) ++ '+' :: rest).takeWhile (fun c => (digitValue c).isSome) = d :: ds :=
      takeWhile_append_stop
        (fun x hx => hdig x (by rw [hk]; exact List.mem_append_left _ hx)) (by decide)
    simp only [List.cons_append] at htw ⊢
    rw [readFraction]
    simp only [readChar, if_true, htw]
    rw [if_pos (by simp only [List.length_cons] at hl ⊢; omega), hn]
    simp only [Option.map_some, List.drop_succ_cons, List.length_cons, List.drop_left]
    rw [hn']
    congr 4
    simp only [List.length_cons] at hl
    omega

theorem readChar_self (c : Char) (s : Str) : readChar c (c :: s) = some s := by simp [readChar]

/-- Every field of `civilOf` for an instant from year 0 to 9999. -/
theorem civil_spec (ns : Int) (h0 : -62167219200000000000 ≤ ns) (h1 : ns < 253402300800000000000) :
    ∃ y : Nat, (civilOf ns).year = y ∧ y < 10000 ∧
      1 ≤ (civilOf ns).month ∧ (civilOf ns).month ≤ 12 ∧ 1 ≤ (civilOf ns).day ∧
      (civilOf ns).day ≤ daysInMonth (isLeap y) (civilOf ns).month ∧
      (civilOf ns).hour < 24 ∧ (civilOf ns).minute < 60 ∧ (civilOf ns).second < 60 ∧
      (civilOf ns).nano < 1000000000 ∧
      ((dayNumber y (civilOf ns).month (civilOf ns).day * 24 + (civilOf ns).hour) * 60
        + (civilOf ns).minute) * 60000000 + (civilOf ns).second * 1000000
        + ((civilOf ns).nano / 1000 : Nat) = ns.fdiv 1000 := by
  have hf : ∀ (a b : Int), 0 ≤ b → a.fdiv b = a / b := fun a b hb => Int.fdiv_eq_ediv_of_nonneg a hb
  have hg : ∀ (a b : Int), 0 ≤ b → a.fmod b = a % b := fun a b hb => Int.fmod_eq_emod_of_nonneg a hb
  obtain ⟨y, hy, m1, m2, d1, d2, hdn, hy'⟩ := date_spec ((ns.fdiv 1000000000).fdiv 86400 + 719468)
    (by rw [hf _ _ (by decide), hf _ _ (by decide)]; omega)
  refine ⟨y, hy, hy' (by rw [hf _ _ (by decide), hf _ _ (by decide)]; omega), m1, m2, d1, d2, ?_⟩
  simp only [civilOf]
  rw [hdn]
  rw [hf _ 1000 (by decide), hf ns _ (by decide), hf _ 86400 (by decide), hg ns _ (by decide),
    hg _ 86400 (by decide)]
  clear hdn hy hy' d2 d1 m1 m2 hf hg
  generalize hs : ns / 1000000000 = secs
  generalize hr : (ns % 1000000000).toNat = nano
  have e1 : ns = secs * 1000000000 + nano := by omega
  have e2 : nano < 1000000000 := by omega
  have e3 : ns / 1000 = secs * 1000000 + (nano / 1000 : Nat) := by omega
  rw [e3]
  generalize hd : secs / 86400 = days
  generalize hsod : (secs % 86400).toNat = sod
  have e4 : secs = days * 86400 + sod := by omega
  have e5 : sod < 86400 := by omega
  clear hsod hd hr hs e1 e3 h0 h1
  rw [e4]
  refine ⟨by omega, by omega, by omega, e2, ?_⟩
  omega

theorem readTimestamp_formatTime (ns : Int) (h0 : -62167219200000000000 ≤ ns)
    (h1 : ns < 253402300800000000000) (rest : Str) :
    readTimestamp (formatTime ns ++ rest) = some (ns.fdiv 1000, rest) := by
  obtain ⟨y, hy, hy', m1, m2, d1, d2, hh, hmi, hs, hn, hdn⟩ := civil_spec ns h0 h1
  have hdm : daysInMonth (isLeap y) (civilOf ns).month ≤ 31 := by
    unfold daysInMonth; split <;> split <;> omega
  have e : formatTime ns ++ rest = '\'' :: (padNat 4 y ++ '-' :: (padNat 2 (civilOf ns).month ++
      '-' :: (padNat 2 (civilOf ns).day ++ ' ' :: (padNat 2 (civilOf ns).hour ++ ':' ::
      (padNat 2 (civilOf ns).minute ++ ':' :: (padNat 2 (civilOf ns).second ++
      (formatMicros (civilOf ns).nano ++ '+' :: '0' :: '0' :: '\'' :: rest))))))) := by
    have hpy : padYear (civilOf ns).year = padNat 4 y := by rw [hy]; rfl
    simp only [formatTime, hpy, List.append_assoc, List.cons_append, List.nil_append]
  rw [e]
  unfold readTimestamp
  simp only [readChar_self, readDigits_padNat (w := 4) (by decide) hy',
    readDigits_padNat (w := 2) (n := (civilOf ns).month) (by decide) (by omega),
    readDigits_padNat (w := 2) (n := (civilOf ns).day) (by decide) (by omega),
    readDigits_padNat (w := 2) (n := (civilOf ns).hour) (by decide) (by omega),
    readDigits_padNat (w := 2) (n := (civilOf ns).minute) (by decide) (by omega),
    readDigits_padNat (w := 2) (n := (civilOf ns).second) (by decide) (by omega),
    readFraction_formatMicros hn, Option.bind_eq_bind, Option.bind_some]
  rw [if_pos ⟨m1, m2, d1, d2, hh, hmi, hs⟩, hdn]

/-! ## Any year -/

theorem dayNumber_cycle (y k m d : Nat) : dayNumber (y + 400 * k) m d = dayNumber y m d + k * 146097 := by
  have hl : isLeap (y + 400 * k) = isLeap y := by
    rw [isLeap_eq, isLeap_eq]
    have h1 : (y + 400 * k) % 4 = y % 4 := by omega
    have h2 : (y + 400 * k) % 100 = y % 100 := by omega
    have h3 : (y + 400 * k) % 400 = y % 400 := by omega
    rw [h1, h2, h3]
  have h1 := daysBeforeYear_eq (y + 400 * k)
  have h2 := daysBeforeYear_eq y
  unfold dayNumber
  rw [hl]
  generalize daysBeforeMonth (isLeap y) m = a
  generalize daysBeforeYear (y + 400 * k) = b at *
  generalize daysBeforeYear y = c at *
  generalize daysBeforeYear 1970 = e at *
  omega

theorem isLeapAny_nat (y : Nat) : isLeapAny y = isLeap y := by
  unfold isLeapAny
  have : ((y : Int) % 400).toNat = y % 400 := by omega
  rw [this, isLeap_eq, isLeap_eq]
  have h1 : y % 400 % 4 = y % 4 := by omega
  have h2 : y % 400 % 100 = y % 100 := by omega
  have h3 : y % 400 % 400 = y % 400 := by omega
  rw [h1, h2, h3]

theorem dayNumberAny_nat (y m d : Nat) : dayNumberAny y m d = dayNumber y m d := by
  unfold dayNumberAny
  have h1 : ((y : Int) % 400).toNat = y % 400 := by omega
  have h2 := dayNumber_cycle (y % 400) (y / 400) m d
  have h3 : y % 400 + 400 * (y / 400) = y := by omega
  rw [h3] at h2
  rw [h1, h2]
  omega

theorem isLeapAny_cycle (y : Int) (k : Int) : isLeapAny (y + k * 400) = isLeapAny y := by
  unfold isLeapAny
  have : (y + k * 400) % 400 = y % 400 := by omega
  rw [this]

theorem dayNumberAny_cycle (y : Int) (k : Int) (m d : Nat) :
    dayNumberAny (y + k * 400) m d = dayNumberAny y m d + k * 146097 := by
  unfold dayNumberAny
  have h1 : (y + k * 400) % 400 = y % 400 := by omega
  have h2 : (y + k * 400) / 400 = y / 400 + k := by omega
  rw [h1, h2]
  omega

/-- The date computed by `civilOf`, for every day. -/
theorem date_spec_any (z : Int) :
    let era := z.fdiv 146097
    let doe := (z.fmod 146097).toNat
    let yoe := (doe - doe / 1460 + doe / 36524 - doe / 146096) / 365
    let doy := doe - (365 * yoe + yoe / 4 - yoe / 100)
    let mp := (5 * doy + 2) / 153
    let d := doy - (153 * mp + 2) / 5 + 1
    let m := if mp < 10 then mp + 3 else mp - 9
    let y := (yoe : Int) + era * 400 + (if m ≤ 2 then 1 else 0)
    1 ≤ m ∧ m ≤ 12 ∧ 1 ≤ d ∧ d ≤ daysInMonth (isLeapAny y) m ∧ dayNumberAny y m d = z - 719468 := by
  have h0 : 0 ≤ z.fmod 146097 := Int.fmod_nonneg_of_pos _ (by decide)
  have h1 := Int.fmod_lt_of_pos z (b := 146097) (by decide)
  have h2 := Int.mul_fdiv_add_fmod z 146097
  have h := date_spec (z.fmod 146097) (by omega)
  have e1 : (z.fmod 146097).fdiv 146097 = 0 := by
    rw [Int.fdiv_eq_ediv_of_nonneg _ (by decide)]; omega
  have e2 : (z.fmod 146097).fmod 146097 = z.fmod 146097 := by
    rw [Int.fmod_eq_emod_of_nonneg _ (by decide)]; omega
  intro era doe yoe doy mp d m y
  simp only [e1, e2] at h
  obtain ⟨y0, hy, m1, m2, d1, d2, hdn, -⟩ := h
  have hy0 : y = y0 + era * 400 := by
    rw [← hy]
    show (yoe : Int) + era * 400 + (if m ≤ 2 then 1 else 0) =
      (yoe : Int) + 0 * 400 + (if m ≤ 2 then 1 else 0) + era * 400
    clear_value era yoe m
    omega
  refine ⟨m1, m2, d1, ?_, ?_⟩
  · rw [hy0, isLeapAny_cycle, isLeapAny_nat]; exact d2
  · rw [hy0, dayNumberAny_cycle, dayNumberAny_nat]
    refine (congrArg (· + era * 146097) hdn).trans ?_
    show z.fmod 146097 - 719468 + z.fdiv 146097 * 146097 = z - 719468
    omega

/-- Every field of `civilOf`. -/
theorem civil_spec_any (ns : Int) :
      1 ≤ (civilOf ns).month ∧ (civilOf ns).month ≤ 12 ∧ 1 ≤ (civilOf ns).day ∧
      (civilOf ns).day ≤ daysInMonth (isLeapAny (civilOf ns).year) (civilOf ns).month ∧
      (civilOf ns).hour < 24 ∧ (civilOf ns).minute < 60 ∧ (civilOf ns).second < 60 ∧
      (civilOf ns).nano < 1000000000 ∧
      ((dayNumberAny (civilOf ns).year (civilOf ns).month (civilOf ns).day * 24 + (civilOf ns).hour) * 60
        + (civilOf ns).minute) * 60000000 + (civilOf ns).second * 1000000
        + ((civilOf ns).nano / 1000 : Nat) = ns.fdiv 1000 := by
  have hf : ∀ (a b : Int), 0 ≤ b → a.fdiv b = a / b := fun a b hb => Int.fdiv_eq_ediv_of_nonneg a hb
  have hg : ∀ (a b : Int), 0 ≤ b → a.fmod b = a % b := fun a b hb => Int.fmod_eq_emod_of_nonneg a hb
  obtain ⟨m1, m2, d1, d2, hdn⟩ := date_spec_any ((ns.fdiv 1000000000).fdiv 86400 + 719468)
  refine ⟨m1, m2, d1, d2, ?_⟩
  simp only [civilOf]
  rw [hdn]
  rw [hf _ 1000 (by decide), hf ns _ (by decide), hf _ 86400 (by decide), hg ns _ (by decide),
    hg _ 86400 (by decide)]
  clear hdn d2 d1 m1 m2 hf hg
  generalize hs : ns / 1000000000 = secs
  generalize hr : (ns % 1000000000).toNat = nano
  have e1 : ns = secs * 1000000000 + nano := by omega
  have e2 : nano < 1000000000 := by omega
  have e3 : ns / 1000 = secs * 1000000 + (nano / 1000 : Nat) := by omega
  rw [e3]
  generalize hd : secs / 86400 = days
  generalize hsod : (secs % 86400).toNat = sod
  have e4 : secs = days * 86400 + sod := by omega
  have e5 : sod < 86400 := by omega
  clear hsod hd hr hs e1 e3
  rw [e4]
  refine ⟨by omega, by omega, by omega, e2, ?_⟩
  omega

theorem padNat_four (n : Nat) : 4 ≤ (padNat 4 n).length := by
  simp only [padNat, List.length_append, List.length_replicate]
  omega

theorem readYear_padYear (y : Int) (rest : Str) :
    readYear (padYear y ++ '-' :: rest) = some (y, '-' :: rest) := by
  have key : ∀ n : Nat, (padNat 4 n ++ '-' :: rest).takeWhile (fun c => (digitValue c).isSome) =
      padNat 4 n := fun n => takeWhile_append_stop (fun x hx => digit_of_mem_padNat hx) (by decide)
  cases y with
  | ofNat n =>
    show readYear (padNat 4 n ++ '-' :: rest) = _
    have hc : readChar '-' (padNat 4 n ++ '-' :: rest) = none := by
      have h4 := padNat_four n
      have hd := fun c => digit_of_mem_padNat (w := 4) (n := n) (c := c)
      cases hp : padNat 4 n with
      | nil => rw [hp] at h4; simp at h4
      | cons c l =>
        rw [List.cons_append, readChar, if_neg]
        intro h
        have := hd c (by rw [hp]; simp)
        rw [h] at this
        exact absurd this (by decide)
    unfold readYear
    simp only [hc, key, padNat_four, if_true, digitsValue_padNat, Option.map_some, List.drop_left]
    rfl
  | negSucc n =>
    show readYear ('-' :: (padNat 4 (n + 1) ++ '-' :: rest)) = _
    unfold readYear
    simp only [readChar_self, key, padNat_four, if_true, digitsValue_padNat, Option.map_some,
      List.drop_left]
    rfl

theorem readTimestampAny_formatTime (ns : Int) (rest : Str) :
    readTimestampAny (formatTime ns ++ rest) = some (ns.fdiv 1000, rest) := by
  obtain ⟨m1, m2, d1, d2, hh, hmi, hs, hn, hdn⟩ := civil_spec_any ns
  have hdm : daysInMonth (isLeapAny (civilOf ns).year) (civilOf ns).month ≤ 31 := by
    unfold daysInMonth; split <;> split <;> omega
  have e : formatTime ns ++ rest = '\'' :: (padYear (civilOf ns).year ++ '-' :: (padNat 2 (civilOf ns).month ++
      '-' :: (padNat 2 (civilOf ns).day ++ ' ' :: (padNat 2 (civilOf ns).hour ++ ':' ::
      (padNat 2 (civilOf ns).minute ++ ':' :: (padNat 2 (civilOf ns).second ++
      (formatMicros (civilOf ns).nano ++ '+' :: '0' :: '0' :: '\'' :: rest))))))) := by
    simp only [formatTime, List.append_assoc, List.cons_append, List.nil_append]
  rw [e]
  unfold readTimestampAny
  simp only [readChar_self, readYear_padYear,
    readDigits_padNat (w := 2) (n := (civilOf ns).month) (by decide) (by omega),
    readDigits_padNat (w := 2) (n := (civilOf ns).day) (by decide) (by omega),
    readDigits_padNat (w := 2) (n := (civilOf ns).hour) (by decide) (by omega),
    readDigits_padNat (w := 2) (n := (civilOf ns).minute) (by decide) (by omega),
    readDigits_padNat (w := 2) (n := (civilOf ns).second) (by decide) (by omega),
    readFraction_formatMicros hn, Option.bind_eq_bind, Option.bind_some]
  rw [if_pos ⟨m1, m2, d1, d2, hh, hmi, hs⟩, hdn]

/-- The year is not written with exactly four digits. -/
theorem readTimestamp_year_none (y : Int) (h : y < 0 ∨ 10000 ≤ y) (rest : Str) :
    readTimestamp ('\'' :: (padYear y ++ '-' :: rest)) = none := by
  unfold readTimestamp
  simp only [readChar_self, Option.bind_eq_bind, Option.bind_some]
  cases y with
  | negSucc n =>
    have : readDigits 4 0 (padYear (.negSucc n) ++ '-' :: rest) = none := rfl
    rw [this]; rfl
  | ofNat n =>
    have hn : 10000 ≤ n := by
      rcases h with h | h
      · exact absurd h (by simp)
      · exact Int.ofNat_le.1 h
    have hlen : 5 ≤ (padNat 4 n).length := by
      have h1 : ¬ (formatNat n).length ≤ 4 := by
        unfold formatNat
        rw [Nat.length_toDigits_le_iff (by decide) (by decide)]
        omega
      simp only [padNat, List.length_append, List.length_replicate]
      omega
    have hd := fun c => digit_of_mem_padNat (w := 4) (n := n) (c := c)
    show ((readDigits 4 0 (padNat 4 n ++ '-' :: rest)).bind _) = none
    match hp : padNat 4 n, hlen with
    | a :: b :: c :: d :: e :: l, _ =>
      rw [hp] at hd
      obtain ⟨a', ha⟩ := Option.isSome_iff_exists.1 (hd a (by simp))
      obtain ⟨b', hb⟩ := Option.isSome_iff_exists.1 (hd b (by simp))
      obtain ⟨c', hc⟩ := Option.isSome_iff_exists.1 (hd c (by simp))
      obtain ⟨d', hd'⟩ := Option.isSome_iff_exists.1 (hd d (by simp))
      have he : e ≠ '-' := by
        intro h
        have := hd e (by simp)
        rw [h] at this
        exact absurd this (by decide)
      simp only [List.cons_append, readDigits, ha, hb, hc, hd', Option.bind_some, readChar, if_neg he,
        Option.bind_none]

theorem month_end (leap : Bool) (m : Nat) (h1 : 1 ≤ m) (h2 : m ≤ 12) :
    daysBeforeMonth leap m + daysInMonth leap m ≤ if leap then 366 else 365 := by
  have : ∀ leap : Bool, ∀ m < 13, 1 ≤ m →
    daysBeforeMonth leap m + daysInMonth leap m ≤ if leap then 366 else 365 := by decide
  exact this leap m (by omega) h1

/-- The instants of the years 0 to 9999. -/
theorem civil_year_range (ns : Int) (h : 0 ≤ (civilOf ns).year ∧ (civilOf ns).year < 10000) :
    -62167219200000000000 ≤ ns ∧ ns < 253402300800000000000 := by
  obtain ⟨m1, m2, d1, d2, hh, hmi, hs, hn, hdn⟩ := civil_spec_any ns
  generalize (civilOf ns).year = yi at *
  obtain ⟨y, rfl⟩ : ∃ y : Nat, yi = y := ⟨yi.toNat, by omega⟩
  rw [isLeapAny_nat] at d2
  rw [dayNumberAny_nat] at hdn
  have hm := month_end (isLeap y) (civilOf ns).month m1 m2
  have h1 : daysBeforeYear (y + 1) = daysBeforeYear y + (if isLeap y then 366 else 365) := rfl
  have h2 := daysBeforeYear_eq (y + 1)
  have h1970 : daysBeforeYear 1970 = 719528 := by decide +kernel
  unfold dayNumber at hdn
  rw [h1970] at hdn
  rw [Int.fdiv_eq_ediv_of_nonneg ns (by decide)] at hdn
  generalize (if isLeap y = true then 366 else 365 : Nat) = len at *
  generalize daysBeforeYear (y + 1) = e at *
  generalize daysBeforeYear y = b at *
  generalize daysBeforeMonth (isLeap y) (civilOf ns).month = bm at *
  generalize daysInMonth (isLeap y) (civilOf ns).month = im at *
  generalize (civilOf ns).day = d at *
  generalize (civilOf ns).hour = hour at *
  generalize (civilOf ns).minute = mi at *
  generalize (civilOf ns).second = se at *
  generalize (civilOf ns).nano = na at *
  clear m1 m2 h1970
  have he : e ≤ 3652425 := by omega
  have hd0 : b + bm + (d - 1) < 3652425 := by omega
  generalize b + bm + (d - 1) = day at *
  clear h1 h2 hm d1 d2 he
  constructor <;> omega

end Verif
