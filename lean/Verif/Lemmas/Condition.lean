import Verif.Spec.Condition
import Verif.Lemmas.Quote
import Verif.Lemmas.Number

/-!
# Reading conditions back
-/

namespace Verif
open Spec

theorem strip_append (p s : Str) : strip p (p ++ s) = some s := by
  induction p with
  | nil => rfl
  | cons c p ih => simp [strip, ih]

/-- A text after which a comparison can end. -/
def ends (rest : Str) : Prop :=
  rest.head? ≠ some '"' ∧ rest.head? ≠ some '.' ∧ ∀ c, rest.head? = some c → c.isDigit = false

theorem ends_cons {c : Char} (h1 : c ≠ '"') (h2 : c ≠ '.') (h3 : c.isDigit = false) (s : Str) :
    ends (c :: s) := by
  refine ⟨by simpa using h1, by simpa using h2, ?_⟩
  intro d hd
  simp at hd
  subst hd
  exact h3

theorem ends_and (s : Str) : ends (s%" AND " ++ s) := ends_cons (by decide) (by decide) (by decide) _
theorem ends_or (s : Str) : ends (s%" OR " ++ s) := ends_cons (by decide) (by decide) (by decide) _
theorem ends_paren (s : Str) : ends (s%")" ++ s) := ends_cons (by decide) (by decide) (by decide) _

theorem ends_nil : ends [] := ⟨by simp, by simp, by simp⟩

/-- `Shows t x`: the text `x` is the tree `t`, with parentheses around every connective. -/
inductive Shows : Cond Comparison → Str → Prop
  | atom (c : Comparison) (x : Str) : x.head? ≠ some '(' →
      (∀ rest, ends rest → readComparison (x ++ rest) = some (c, rest)) → Shows (.atom c) x
  | paren (t : Cond Comparison) (x : Str) : Shows t x → Shows t (s%"(" ++ x ++ s%")")
  | and (l r : Cond Comparison) (x y : Str) : Shows l x → Shows r y →
      Shows (.and l r) (s%"(" ++ x ++ s%" AND " ++ y ++ s%")")
  | or (l r : Cond Comparison) (x y : Str) : Shows l x → Shows r y →
      Shows (.or l r) (s%"(" ++ x ++ s%" OR " ++ y ++ s%")")

theorem readOr_eq (n : Nat) (s : Str) : readOr (n + 1) s =
    match readAnd n s with
    | none => none
    | some (t, r) => readOrs n t r := by rw [readOr.eq_def]; rfl

theorem readAnd_eq (n : Nat) (s : Str) : readAnd (n + 1) s =
    match readUnit n s with
    | none => none
    | some (t, r) => readAnds n t r := by rw [readAnd.eq_def]; rfl

theorem readOrs_stop (n : Nat) (t : Cond Comparison) (s : Str) (h : strip s%" OR " s = none) :
    readOrs (n + 1) t s = some (t, s) := by rw [readOrs.eq_def]; simp only [h]

theorem readAnds_stop (n : Nat) (t : Cond Comparison) (s : Str) (h : strip s%" AND " s = none) :
    readAnds (n + 1) t s = some (t, s) := by rw [readAnds.eq_def]; simp only [h]

theorem readOrs_more (n : Nat) (t u : Cond Comparison) (s r : Str) (h : readAnd n s = some (u, r)) :
    readOrs (n + 1) t (s%" OR " ++ s) = readOrs n (.or t u) r := by
  rw [readOrs.eq_def]; simp only [strip_append, h]

theorem readAnds_more (n : Nat) (t u : Cond Comparison) (s r : Str)
    (h : readUnit n s = some (u, r)) :
    readAnds (n + 1) t (s%" AND " ++ s) = readAnds n (.and t u) r := by
  rw [readAnds.eq_def]; simp only [strip_append, h]

theorem readUnit_paren (n : Nat) (t : Cond Comparison) (s r : Str)
    (h : readOr n s = some (t, s%")" ++ r)) : readUnit (n + 1) (s%"(" ++ s) = some (t, r) := by
  rw [readUnit.eq_def]; simp only [strip_append, h]

theorem strip_lparen_none {x : Str} (h : x.head? ≠ some '(') : strip s%"(" x = none := by
  cases x with
  | nil => rfl
  | cons c x =>
    have : ¬ ('(' = c) := fun e => h (by rw [← e]; rfl)
    simp [strip, this]

theorem readUnit_atom (n : Nat) (c : Comparison) (s r : Str) (h0 : s.head? ≠ some '(')
    (h : readComparison s = some (c, r)) : readUnit (n + 1) s = some (.atom c, r) := by
  rw [readUnit.eq_def]; simp only [strip_lparen_none h0, h]

theorem strip_or_paren (s : Str) : strip s%" OR " (s%")" ++ s) = none := rfl
theorem strip_and_paren (s : Str) : strip s%" AND " (s%")" ++ s) = none := rfl
theorem strip_and_or (s : Str) : strip s%" AND " (s%" OR " ++ s) = none := rfl
theorem strip_or_and (s : Str) : strip s%" OR " (s%" AND " ++ s) = none := rfl

theorem shows_ne_nil {t : Cond Comparison} {x : Str} (h : Shows t x) : x ≠ [] := by
  cases h with
  | atom c x h0 h1 =>
    rintro rfl
    have := h1 [] ends_nil
    cases this
  | paren t x _ => simp
  | and => simp
  | or => simp

theorem readUnit_shows {t : Cond Comparison} {x : Str} (h : Shows t x) :
    ∀ (n : Nat) (rest : Str), 4 * x.length ≤ n → ends rest →
      readUnit n (x ++ rest) = some (t, rest) := by
  induction h with
  | atom c x h0 h1 =>
    intro n rest hn hr
    have hpos : 0 < x.length := List.length_pos_iff.2 (shows_ne_nil (Shows.atom c x h0 h1))
    obtain ⟨m, rfl⟩ : ∃ m, n = m + 1 := ⟨n - 1, by omega⟩
    refine readUnit_atom m c _ _ ?_ (h1 rest hr)
    cases x with
    | nil => simp at hpos
    | cons d x => simpa using h0
  | paren t x hx ih =>
    intro n rest hn hr
    rw [List.length_append, List.length_append] at hn
    obtain ⟨m, rfl⟩ : ∃ m, n = m + 4 := ⟨n - 4, by simp at hn; omega⟩
    rw [List.append_assoc, List.append_assoc]
    refine readUnit_paren (m + 3) t _ _ ?_
    rw [readOr_eq, readAnd_eq, ih (m + 1) _ (by simp at hn; omega) (ends_paren _)]
    simp only
    rw [readAnds_stop _ _ _ (strip_and_paren _)]
    simp only
    rw [readOrs_stop _ _ _ (strip_or_paren _)]
  | and l r x y hx hy ihx ihy =>
    intro n rest hn hr
    simp only [List.length_append, List.length_cons, List.length_nil] at hn
    obtain ⟨m, rfl⟩ : ∃ m, n = m + 5 := ⟨n - 5, by omega⟩
    simp only [List.append_assoc]
    refine readUnit_paren (m + 4) _ _ _ ?_
    rw [readOr_eq, readAnd_eq, ihx (m + 2) _ (by omega) (ends_and _)]
    simp only
    rw [readAnds_more _ _ r _ (s%")" ++ rest)
      (ihy (m + 1) _ (by omega) (ends_paren _))]
    rw [readAnds_stop _ _ _ (strip_and_paren _)]
    simp only
    rw [readOrs_stop _ _ _ (strip_or_paren _)]
  | or l r x y hx hy ihx ihy =>
    intro n rest hn hr
    simp only [List.length_append, List.length_cons, List.length_nil] at hn
    obtain ⟨m, rfl⟩ : ∃ m, n = m + 6 := ⟨n - 6, by omega⟩
    simp only [List.append_assoc]
    refine readUnit_paren (m + 5) _ _ _ ?_
    rw [readOr_eq, readAnd_eq, ihx (m + 3) _ (by omega) (ends_or _)]
    simp only
    rw [readAnds_stop _ _ _ (strip_and_or _)]
    simp only
    have hand : readAnd (m + 3) (y ++ (s%")" ++ rest)) = some (r, s%")" ++ rest) := by
      rw [readAnd_eq, ihy (m + 2) _ (by omega) (ends_paren _)]
      simp only
      rw [readAnds_stop _ _ _ (strip_and_paren _)]
    rw [readOrs_more _ _ _ _ _ hand, readOrs_stop _ _ _ (strip_or_paren _)]

theorem readCond_shows {t : Cond Comparison} {x : Str} (h : Shows t x) : readCond x = some t := by
  have key : readOr (4 * x.length + 4) x = some (t, []) := by
    have := readUnit_shows h (4 * x.length + 2) [] (by omega) ends_nil
    rw [List.append_nil] at this
    rw [readOr_eq, readAnd_eq, this]
    simp only
    rw [readAnds_stop _ _ _ rfl]
    simp only
    rw [readOrs_stop _ _ _ rfl]
  unfold readCond
  rw [key]

/-! ## Comparisons -/

/-- The text of an operand begins like this. -/
def operandText (o : Operand) (x : Str) : Prop :=
  (∀ rest, ends rest → readOperand (x ++ rest) = some (o, rest)) ∧
  (x.head? = some '"' ∨ x.head? = some '$' ∨ x = s%"NULL")

theorem operandText_null : operandText .null s%"NULL" :=
  ⟨fun _ _ => rfl, .inr (.inr rfl)⟩

theorem operandText_param (k : Nat) : operandText (.param k) (s%"$" ++ formatNat k) := by
  refine ⟨fun rest hr => ?_, .inr (.inl rfl)⟩
  have h1 : ∀ c ∈ formatNat k, c.isDigit = true := by
    intro c hc
    have := digit_of_mem_formatNat hc
    simp only [Bool.and_eq_true, decide_eq_true_eq] at this
    simp only [Char.isDigit, Bool.and_eq_true, decide_eq_true_eq]
    exact this
  have ht : (formatNat k ++ rest).takeWhile Char.isDigit = formatNat k := by
    rw [List.takeWhile_append_of_pos h1]
    cases rest with
    | nil => simp
    | cons c r => simp [hr.2.2 c rfl]
  have hd : (formatNat k ++ rest).dropWhile Char.isDigit = rest := by
    rw [List.dropWhile_append_of_pos h1]
    cases rest with
    | nil => simp
    | cons c r => simp [hr.2.2 c rfl]
  unfold readOperand
  rw [if_neg (by simp), if_pos (by simp)]
  simp only [List.cons_append, List.nil_append, List.tail_cons]
  rw [ht, readNat_formatNat, hd]

theorem operandText_name [GoRuntime] (parts : List Str) (hne : parts ≠ [])
    (h : ∀ p ∈ parts, p ≠ [] ∧ ∀ c ∈ p, ordinary c) :
    operandText (.name parts) (quote (List.intercalate s%"." parts)) := by
  refine ⟨fun rest hr => ?_, .inl (quote_head _)⟩
  have hh : (quote (List.intercalate s%"." parts) ++ rest).head? = some '"' := by
    rw [List.head?_append, quote_head]; rfl
  unfold readOperand
  rw [if_pos hh, readName_quote parts rest hne h hr.1 hr.2.1]

/-- The text of one comparison. -/
theorem readComparison_text {l r : Operand} {x y : Str} (hl : operandText l x)
    (hr : operandText r y) {op : Str} (hop : op ∈ comparisonOps) (rest : Str) (hrest : ends rest) :
    readComparison (x ++ s%" " ++ op ++ s%" " ++ y ++ rest) = some (⟨l, op, r⟩, rest) := by
  have h1 : readOperand (x ++ (s%" " ++ (op ++ (s%" " ++ (y ++ rest)))))
      = some (l, s%" " ++ (op ++ (s%" " ++ (y ++ rest)))) :=
    hl.1 _ (ends_cons (by decide) (by decide) (by decide) _)
  have h2 : readOp comparisonOps (op ++ (s%" " ++ (y ++ rest))) = some (op, y ++ rest) := by
    have hy := hr.2
    clear h1 hl hr hrest
    simp only [comparisonOps, List.mem_cons, List.not_mem_nil, or_false] at hop
    rcases hy with hy | hy | hy
    · cases y with
      | nil => cases hy
      | cons c y =>
        simp at hy
        subst hy
        rcases hop with h | h | h | h | h | h | h | h | h | h | h | h | h | h | h | h | h <;>
          subst h <;> rfl
    · cases y with
      | nil => cases hy
      | cons c y =>
        simp at hy
        subst hy
        rcases hop with h | h | h | h | h | h | h | h | h | h | h | h | h | h | h | h | h <;>
          subst h <;> rfl
    · subst hy
      rcases hop with h | h | h | h | h | h | h | h | h | h | h | h | h | h | h | h | h <;>
          subst h <;> rfl
  simp only [List.append_assoc]
  unfold readComparison
  rw [h1]
  simp only [strip_append, h2]
  rw [hr.1 rest hrest]

theorem head_of_operandText {o : Operand} {x : Str} (h : operandText o x) (s : Str) :
    (x ++ s).head? ≠ some '(' := by
  rcases h.2 with h | h | h
  · cases x with
    | nil => cases h
    | cons c x => simp at h; simp [h]
  · cases x with
    | nil => cases h
    | cons c x => simp at h; simp [h]
  · subst h; simp

theorem shows_comparison {l r : Operand} {x y : Str} (hl : operandText l x)
    (hr : operandText r y) {op : Str} (hop : op ∈ comparisonOps) :
    Shows (.atom ⟨l, op, r⟩) (x ++ s%" " ++ op ++ s%" " ++ y) := by
  refine Shows.atom _ _ ?_ ?_
  · simp only [List.append_assoc]
    exact head_of_operandText hl _
  · intro rest hrest
    exact readComparison_text hl hr hop rest hrest

end Verif
