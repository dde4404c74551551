import Verif.Model.Format
import Verif.Spec.Read

/-!
# Quoting against the readers
-/

set_option linter.unusedSectionVars false

namespace Verif
open Spec

/-! ## Reading the inside of a quoted text -/

theorem readBody_ne {q c : Char} (h : c ≠ q) (s : Str) :
    readBody q (c :: s) = (readBody q s).map fun p => (c :: p.1, p.2) := by
  cases s with
  | nil => simp [readBody, h]
  | cons d s => rw [readBody.eq_def]; simp only [if_neg h]; split <;> simp_all

theorem readBody_double {q : Char} (s : Str) :
    readBody q (q :: q :: s) = (readBody q s).map fun p => (q :: p.1, p.2) := by
  rw [readBody.eq_def]; simp only [if_true]; split <;> simp_all

theorem readBody_prefix {q : Char} {t : Str} (h : q ∉ t) (s : Str) :
    readBody q (t ++ s) = (readBody q s).map fun p => (t ++ p.1, p.2) := by
  induction t with
  | nil => cases h' : readBody q s <;> simp [h']
  | cons c t ih =>
    simp only [List.mem_cons, not_or] at h
    rw [List.cons_append, readBody_ne (Ne.symm h.1), ih h.2]
    cases readBody q s <;> rfl

theorem readBody_close {q : Char} {rest : Str} (h : rest.head? ≠ some q) :
    readBody q (q :: rest) = some ([], rest) := by
  cases rest with
  | nil => simp [readBody]
  | cons d r =>
    have : d ≠ q := fun e => h (by rw [e]; rfl)
    simp [readBody, this]

theorem readBody_plain {q : Char} {t rest : Str} (h : q ∉ t) (hr : rest.head? ≠ some q) :
    readBody q (t ++ q :: rest) = some (t, rest) := by
  rw [readBody_prefix h, readBody_close hr]; simp

theorem readBody_length {q : Char} {s x r : Str} (h : readBody q s = some (x, r)) :
    r.length < s.length := by
  induction hn : s.length using Nat.strongRecOn generalizing s x r with
  | _ n ih =>
    subst hn
    cases s with
    | nil => simp [readBody] at h
    | cons c s =>
      by_cases hc : c = q
      · subst hc
        cases s with
        | nil => simp [readBody] at h; simp [← h.2]
        | cons d s' =>
          by_cases hd : d = c
          · subst hd
            rw [readBody_double, Option.map_eq_some_iff] at h
            obtain ⟨⟨x', r'⟩, h', e⟩ := h
            cases e
            have := ih s'.length (by simp; omega) h' rfl
            simp; omega
          · rw [readBody_close (by simpa using hd)] at h
            cases h; simp
      · rw [readBody_ne hc, Option.map_eq_some_iff] at h
        obtain ⟨⟨x', r'⟩, h', e⟩ := h
        cases e
        have := ih s.length (by simp) h' rfl
        simp; omega

/-- A quote escaped by a backslash is not read as intended: the quoted text ends too early
or too late. -/
theorem readBody_broken {q : Char} {f : Char → Str} (hq : q ≠ '\\') (hfq : f q = ['\\', q])
    (hf : ∀ c, c ≠ q → q ∉ f c) (hne : ∀ c, f c ≠ []) {p : Str} (h : q ∈ p) (rest x : Str) :
    readBody q (p.flatMap f ++ q :: rest) ≠ some (x, rest) := by
  have hhead : ∀ c t, (f c ++ t).head? ≠ some q := by
    intro c t e
    by_cases hc : c = q
    · rw [hc, hfq] at e; simp at e; exact hq e.symm
    · cases hfc : f c with
      | nil => exact hne c hfc
      | cons a l =>
        rw [hfc] at e
        simp at e
        exact hf c hc (by rw [hfc, e]; simp)
  induction p generalizing x with
  | nil => cases h
  | cons c p ih =>
    rw [List.flatMap_cons, List.append_assoc]
    by_cases hc : c = q
    · subst hc
      rw [hfq, List.cons_append, readBody_ne (Ne.symm hq), List.cons_append, List.nil_append]
      intro e
      cases p with
      | nil =>
        rw [List.flatMap_nil, List.nil_append, readBody_double, Option.map_map,
          Option.map_eq_some_iff] at e
        obtain ⟨⟨x', r'⟩, hb, e⟩ := e
        cases e
        exact absurd (readBody_length hb) (Nat.lt_irrefl _)
      | cons d p =>
        rw [List.flatMap_cons, List.append_assoc, readBody_close (hhead d _)] at e
        simp only [Option.map_some, Option.some.injEq, Prod.mk.injEq] at e
        have := congrArg List.length e.2
        simp only [List.length_append, List.length_cons] at this
        omega
    · rw [readBody_prefix (hf c hc)]
      intro e
      have hm : q ∈ p := by
        rcases List.mem_cons.1 h with h | h
        · exact absurd h.symm hc
        · exact h
      cases hb : readBody q (p.flatMap f ++ q :: rest) with
      | none => rw [hb] at e; cases e
      | some y =>
        rw [hb] at e
        simp only [Option.map_some, Option.some.injEq, Prod.mk.injEq] at e
        exact ih hm y.1 (by rw [hb, ← e.2])

/-! ## Hexadecimal digits and escapes contain no quote -/

theorem hexDigit_ne (q : Char) (hq : q.toNat < 48) {n : Nat} (h : n < 16) : hexDigit n ≠ q := by
  have : ∀ n < 16, 48 ≤ (hexDigit n).toNat := by decide
  intro e
  have h1 := this n h
  rw [e] at h1
  omega

theorem hexFixed_not_mem (q : Char) (hq : q.toNat < 48) (w n : Nat) : q ∉ hexFixed w n := by
  induction w generalizing n with
  | zero => simp [hexFixed]
  | succ w ih =>
    simp only [hexFixed, List.mem_append, List.mem_singleton, not_or]
    exact ⟨ih _, fun e => hexDigit_ne q hq (Nat.mod_lt _ (by decide)) e.symm⟩

theorem ite_ind {P : Str → Prop} {c : Prop} [Decidable c] {a b : Str} (ha : c → P a)
    (hb : ¬c → P b) : P (if c then a else b) := by
  split
  · exact ha ‹_›
  · exact hb ‹_›

section
variable [GoRuntime]

theorem quoteRune_dq : quoteRune '"' = ['\\', '"'] := by simp [quoteRune]

theorem quoteRune_no_quote {c : Char} (h : c ≠ '"') : '"' ∉ quoteRune c := by
  have hx : ∀ w n, '"' ∉ hexFixed w n := hexFixed_not_mem '"' (by decide)
  have h' : '"' ≠ c := Ne.symm h
  unfold quoteRune
  refine ite_ind (P := fun s => '"' ∉ s) (fun _ => ?_) (fun _ => ?_)
  · exact List.not_mem_cons_of_ne_of_not_mem (by decide) (by simpa using h')
  refine ite_ind (P := fun s => '"' ∉ s) (fun _ => ?_) (fun _ => ?_)
  · simpa using h'
  iterate 7 refine ite_ind (P := fun s => '"' ∉ s) (fun _ => (by decide)) (fun _ => ?_)
  refine ite_ind (P := fun s => '"' ∉ s) (fun _ => ?_) (fun _ => ?_)
  · exact fun e => (List.mem_append.1 e).elim (by decide) (hx _ _)
  refine ite_ind (P := fun s => '"' ∉ s) (fun _ => ?_) (fun _ => ?_)
  · exact fun e => (List.mem_append.1 e).elim (by decide) (hx _ _)
  · exact fun e => (List.mem_append.1 e).elim (by decide) (hx _ _)

theorem quoteRune_ne_nil (c : Char) : quoteRune c ≠ [] := by
  unfold quoteRune
  iterate 9 refine ite_ind (P := fun s => s ≠ []) (fun _ => List.cons_ne_nil _ _) (fun _ => ?_)
  iterate 2 refine ite_ind (P := fun s => s ≠ []) (fun _ => List.cons_ne_nil _ _) (fun _ => ?_)
  exact List.cons_ne_nil _ _

/-- A rune that `strconv.Quote` leaves as it is. -/
def plainRune (c : Char) : Prop := c ≠ '"' ∧ c ≠ '\\' ∧ GoRuntime.isPrint c = true

theorem quoteRune_plain {c : Char} (h : plainRune c) : quoteRune c = [c] := by
  simp [quoteRune, h.1, h.2.1, h.2.2]

theorem flatMap_plain {s : Str} (h : ∀ c ∈ s, plainRune c) : s.flatMap quoteRune = s := by
  induction s with
  | nil => rfl
  | cons c s ih =>
    rw [List.flatMap_cons, quoteRune_plain (h c (by simp)), ih (fun d hd => h d (by simp [hd]))]; rfl

theorem flatMap_no_quote {s : Str} (h : '"' ∉ s) : '"' ∉ s.flatMap quoteRune := by
  intro e
  obtain ⟨c, hc, he⟩ := List.mem_flatMap.1 e
  exact quoteRune_no_quote (fun e => h (e ▸ hc)) he

theorem flatMap_ne_nil {s : Str} (h : s ≠ []) : s.flatMap quoteRune ≠ [] := by
  cases s with
  | nil => exact absurd rfl h
  | cons c s => simp [quoteRune_ne_nil]

theorem readIdent_goQuote {s rest : Str} (hq : '"' ∉ s) (hne : s ≠ [])
    (hr : rest.head? ≠ some '"') :
    readIdent (goQuote s ++ rest) = some (s.flatMap quoteRune, rest) := by
  have h1 : readQuoted '"' (goQuote s ++ rest) = some (s.flatMap quoteRune, rest) := by
    simp only [goQuote, List.cons_append, List.nil_append, List.append_assoc, readQuoted, if_true]
    exact readBody_plain (flatMap_no_quote hq) hr
  rw [readIdent, h1]
  split
  · rename_i h
    simp only [Option.some.injEq, Prod.mk.injEq] at h
    exact absurd h.1 (flatMap_ne_nil hne)
  · rfl

theorem readIdent_goQuote_broken {s rest x : Str} (hq : '"' ∈ s) :
    readIdent (goQuote s ++ rest) ≠ some (x, rest) := by
  intro e
  have h1 : readQuoted '"' (goQuote s ++ rest) = some (x, rest) := by
    rw [readIdent] at e
    split at e
    · cases e
    · exact e
  simp only [goQuote, List.cons_append, List.nil_append, List.append_assoc, readQuoted,
    if_true] at h1
  exact readBody_broken (by decide) quoteRune_dq (fun c => quoteRune_no_quote) quoteRune_ne_nil hq
    rest x h1

/-! ## Dotted names -/

/-- The quoted parts separated by dots. -/
def quotedParts (parts : List Str) : Str := joinWith s%"." (parts.map goQuote)

theorem readNameUpTo_parts {parts : List Str} {rest : Str} (hparts : parts ≠ [])
    (h : ∀ p ∈ parts, '"' ∉ p ∧ p ≠ []) (h1 : rest.head? ≠ some '"') (h2 : rest.head? ≠ some '.')
    (n : Nat) (hn : parts.length ≤ n) :
    readNameUpTo n (quotedParts parts ++ rest)
      = some (parts.map (·.flatMap quoteRune), rest) := by
  induction parts generalizing n with
  | nil => exact absurd rfl hparts
  | cons p ps ih =>
    cases n with
    | zero => simp at hn
    | succ n =>
      obtain ⟨hp1, hp2⟩ := h p (by simp)
      cases ps with
      | nil =>
        simp only [quotedParts, List.map_cons, List.map_nil, joinWith, readNameUpTo,
          readIdent_goQuote hp1 hp2 h1]
        cases rest with
        | nil => rfl
        | cons c r =>
          split
          · rename_i e; cases e
          · rename_i e; cases e; exact absurd rfl h2
          · rename_i e; cases e; rfl
      | cons p' ps' =>
        have ih' := ih (by simp) (fun q hq => h q (by simp [hq])) n (by simpa using hn)
        have e : quotedParts (p :: p' :: ps') ++ rest
            = goQuote p ++ ('.' :: (quotedParts (p' :: ps') ++ rest)) := by
          simp [quotedParts, joinWith]
        rw [e, readNameUpTo, readIdent_goQuote hp1 hp2 (by simp)]
        simp only [ih', List.map_cons]

theorem goQuote_length (p : Str) : 2 ≤ (goQuote p).length := by
  simp [goQuote]

theorem quotedParts_length (parts : List Str) : parts.length ≤ (quotedParts parts).length := by
  induction parts with
  | nil => simp [quotedParts, joinWith]
  | cons p ps ih =>
    have hg := goQuote_length p
    cases ps with
    | nil => simp only [quotedParts, List.map_cons, List.map_nil, joinWith, List.length_singleton]; omega
    | cons p' ps' =>
      simp only [quotedParts, List.map_cons, joinWith, List.length_append, List.length_cons,
        List.length_nil] at ih ⊢
      omega

theorem readName_parts {parts : List Str} {rest : Str} (hparts : parts ≠ [])
    (h : ∀ p ∈ parts, '"' ∉ p ∧ p ≠ []) (h1 : rest.head? ≠ some '"') (h2 : rest.head? ≠ some '.') :
    readName (quotedParts parts ++ rest) = some (parts.map (·.flatMap quoteRune), rest) := by
  refine readNameUpTo_parts hparts h h1 h2 _ ?_
  have := quotedParts_length parts
  simp; omega

end

/-! ## Splitting on dots -/

theorem splitOn_append_sep {sep : Char} {p : Str} (h : sep ∉ p) (s : Str) :
    splitOn sep (p ++ sep :: s) = p :: splitOn sep s := by
  induction p with
  | nil => simp [splitOn]
  | cons c p ih =>
    simp only [List.mem_cons, not_or] at h
    rw [List.cons_append, splitOn, if_neg (Ne.symm h.1), ih h.2]

theorem splitOn_no_sep {sep : Char} {p : Str} (h : sep ∉ p) : splitOn sep p = [p] := by
  induction p with
  | nil => rfl
  | cons c p ih =>
    simp only [List.mem_cons, not_or] at h
    rw [splitOn, if_neg (Ne.symm h.1), ih h.2]

theorem splitOn_intercalate {sep : Char} {parts : List Str} (hne : parts ≠ [])
    (h : ∀ p ∈ parts, sep ∉ p) : splitOn sep (List.intercalate [sep] parts) = parts := by
  induction parts with
  | nil => exact absurd rfl hne
  | cons p ps ih =>
    cases ps with
    | nil => simpa [List.intercalate, List.intersperse] using splitOn_no_sep (h p (by simp))
    | cons p' ps' =>
      have e : List.intercalate [sep] (p :: p' :: ps')
          = p ++ sep :: List.intercalate [sep] (p' :: ps') := by
        simp [List.intercalate, List.intersperse]
      rw [e, splitOn_append_sep (h p (by simp)), ih (by simp) (fun q hq => h q (by simp [hq]))]

theorem splitOn_ne_nil (sep : Char) (s : Str) : splitOn sep s ≠ [] := by
  cases s with
  | nil => simp [splitOn]
  | cons c s =>
    rw [splitOn]
    split
    · simp
    · split <;> simp

theorem mem_splitOn {sep : Char} {s p : Str} (h : p ∈ splitOn sep s) : ∀ c ∈ p, c ∈ s := by
  induction s generalizing p with
  | nil => simp [splitOn] at h; subst h; simp
  | cons a s ih =>
    rw [splitOn] at h
    split at h
    · rcases List.mem_cons.1 h with rfl | h
      · simp
      · intro c hc; exact List.mem_cons_of_mem _ (ih h c hc)
    · split at h
      · rename_i hs; exact absurd hs (splitOn_ne_nil _ _)
      · rename_i q qs hs
        rcases List.mem_cons.1 h with rfl | h
        · intro c hc
          rcases List.mem_cons.1 hc with rfl | hc
          · simp
          · exact List.mem_cons_of_mem _ (ih (p := q) (by rw [hs]; simp) c hc)
        · intro c hc; exact List.mem_cons_of_mem _ (ih (p := p) (by rw [hs]; simp [h]) c hc)

/-! ## Ordinary names -/

section
variable [GoRuntime]

theorem ordinary_plain {c : Char} (h : ordinary c) : plainRune c := by
  obtain ⟨h1, h2, h3, h4, -⟩ := h
  refine ⟨h3, h4, ?_⟩
  rw [GoRuntime.isPrint_ascii c (by omega)]
  simp [h1, h2]

theorem readName_quote (parts : List Str) (rest : Str) (hparts : parts ≠ [])
    (h : ∀ p ∈ parts, p ≠ [] ∧ ∀ c ∈ p, ordinary c)
    (h1 : rest.head? ≠ some '"') (h2 : rest.head? ≠ some '.') :
    readName (quote (List.intercalate s%"." parts) ++ rest) = some (parts, rest) := by
  have hsplit : splitOn '.' (List.intercalate ['.'] parts) = parts :=
    splitOn_intercalate hparts (fun p hp hd => ((h p hp).2 '.' hd).2.2.2.2 rfl)
  have hq : quote (List.intercalate ['.'] parts) = quotedParts parts := by
    show quotedParts (splitOn '.' _) = _
    rw [hsplit]
  rw [hq, readName_parts hparts
    (fun p hp => ⟨fun hd => ((h p hp).2 '"' hd).2.2.1 rfl, (h p hp).1⟩) h1 h2]
  congr 2
  have : ∀ p ∈ parts, p.flatMap quoteRune = p :=
    fun p hp => flatMap_plain (fun c hc => ordinary_plain ((h p hp).2 c hc))
  rw [List.map_congr_left this, List.map_id']

theorem quote_head (s : Str) : (quote s).head? = some '"' := by
  obtain ⟨p, ps, h⟩ := List.exists_cons_of_ne_nil (splitOn_ne_nil '.' s)
  show (quotedParts (splitOn '.' s)).head? = _
  rw [h]
  cases ps <;> rfl

end

end Verif
