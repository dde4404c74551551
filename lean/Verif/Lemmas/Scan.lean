import Verif.Spec.Scan
import Verif.Lemmas.Quote
import Verif.Lemmas.Number
import Verif.Lemmas.Weave

/-!
# Scanning rendered statements
-/

set_option linter.unusedSectionVars false

namespace Verif
open Spec

/-! ## The scanner -/

theorem scan_nil (b : Bool) (s : Scan) : scan b s [] = s := rfl

theorem scan_cons (b : Bool) (s : Scan) (c : Char) (t : Str) :
    scan b s (c :: t) = scan b (s.step b c) t := rfl

theorem scan_append (b : Bool) (s : Scan) (t u : Str) :
    scan b s (t ++ u) = scan b (scan b s t) u := by
  simp [scan, List.foldl_append]

theorem scan_bad (b : Bool) {s : Scan} (h : s.mode = .bad) (t : Str) : scan b s t = s := by
  induction t with
  | nil => rfl
  | cons c t ih =>
    rw [scan_cons]
    have : s.step b c = s := by unfold Scan.step; rw [h]
    rw [this, ih]

/-- The same state inside more parentheses and after more placeholders. -/
def shift (e : Nat) (gs : List Str) (s : Scan) : Scan := ⟨s.mode, s.depth + e, gs ++ s.found⟩

theorem start_shift (e : Nat) (gs : List Str) (s : Scan) (c : Char)
    (h : (s.start c).mode ≠ .bad) : (shift e gs s).start c = shift e gs (s.start c) := by
  unfold Scan.start shift at *
  simp only
  split
  · rfl
  · split
    · rfl
    · split
      · simp only [Scan.mk.injEq, true_and, and_true]; omega
      · split
        · rename_i h1 h2 h3 h4
          rw [if_neg h1, if_neg h2, if_neg h3, if_pos h4] at h
          by_cases hd : s.depth = 0
          · rw [if_pos hd] at h; exact absurd rfl h
          · rw [if_neg hd, if_neg (by omega)]
            simp only [Scan.mk.injEq, true_and, and_true]; omega
        · split
          · rfl
          · split
            · rfl
            · split
              · rfl
              · split <;> rfl

theorem step_shift (b : Bool) (e : Nat) (gs : List Str) (s : Scan) (c : Char)
    (h : (s.step b c).mode ≠ .bad) : (shift e gs s).step b c = shift e gs (s.step b c) := by
  obtain ⟨m, d, fs⟩ := s
  cases m with
  | free => exact start_shift e gs _ c h
  | word =>
    simp only [Scan.step, shift] at h ⊢
    split
    · rfl
    · rename_i h1
      rw [if_neg h1] at h
      split
      · rfl
      · rename_i h2
        rw [if_neg h2] at h
        exact start_shift e gs _ c h
  | dash =>
    simp only [Scan.step, shift] at h ⊢
    split
    · rfl
    · rename_i h1
      rw [if_neg h1] at h
      exact start_shift e gs _ c h
  | slash =>
    simp only [Scan.step, shift] at h ⊢
    split
    · rfl
    · rename_i h1
      rw [if_neg h1] at h
      exact start_shift e gs _ c h
  | dollar ds =>
    simp only [Scan.step, shift] at h ⊢
    split
    · rfl
    · rename_i h1
      rw [if_neg h1] at h
      split
      · rfl
      · rename_i h2
        rw [if_neg h2] at h
        rw [List.append_assoc]
        exact start_shift e gs _ c h
  | name => simp only [Scan.step, shift]; split <;> rfl
  | literal =>
    simp only [Scan.step, shift]
    split
    · rfl
    · split <;> rfl
  | escape => rfl
  | comment => simp only [Scan.step, shift]; split <;> rfl
  | bad => rfl

theorem scan_shift (b : Bool) (e : Nat) (gs : List Str) (s : Scan) (t : Str)
    (h : (scan b s t).mode ≠ .bad) : scan b (shift e gs s) t = shift e gs (scan b s t) := by
  induction t generalizing s with
  | nil => rfl
  | cons c t ih =>
    rw [scan_cons] at h ⊢
    have h1 : (s.step b c).mode ≠ .bad := by
      intro hb
      rw [scan_bad b hb] at h
      exact h hb
    rw [scan_cons, step_shift b e gs s c h1, ih _ h]

theorem settle_bad {s : Scan} (h : s.settle.mode = .free) : s.mode ≠ .bad := by
  intro hb
  unfold Scan.settle at h
  rw [hb] at h
  cases h

theorem settle_shift (e : Nat) (gs : List Str) (s : Scan) :
    (shift e gs s).settle = shift e gs s.settle := by
  unfold Scan.settle shift
  cases hm : s.mode with
  | dollar ds => simp only; split <;> simp
  | _ => rfl

/-- A closed text is closed wherever it stands between tokens. -/
theorem closed_at {b : Bool} {t : Str} {ps : List Str} (h : ClosedWith b t ps) (d : Nat)
    (fs : List Str) : (scan b ⟨.free, d, fs⟩ t).settle = ⟨.free, d, fs ++ ps⟩ := by
  have h1 : (scan b .init t).mode ≠ .bad := settle_bad (by rw [h])
  have h2 : (⟨.free, d, fs⟩ : Scan) = shift d fs .init := by simp [shift, Scan.init]
  rw [h2, scan_shift b d fs _ t h1, settle_shift, h]
  simp [shift]

/-- Characters that end any token. -/
def delim (c : Char) : Bool := c = ' ' || c = ',' || c = ';' || c = '(' || c = ')'

theorem settle_step {b : Bool} {s : Scan} {d : Nat} {fs : List Str} {c : Char}
    (h : s.settle = ⟨.free, d, fs⟩) (hc : delim c = true) :
    s.step b c = Scan.start ⟨.free, d, fs⟩ c := by
  have hc' : c = ' ' ∨ c = ',' ∨ c = ';' ∨ c = '(' ∨ c = ')' := by
    simpa [delim, or_assoc] using hc
  obtain ⟨m, d', fs'⟩ := s
  cases m with
  | dollar ds =>
    simp only [Scan.settle] at h
    split at h
    · cases h
    · next hds =>
      cases h
      rcases hc' with rfl | rfl | rfl | rfl | rfl <;>
        simp [Scan.step, hds, isDigit, wordStart, Scan.start]
  | name => cases h
  | literal => cases h
  | escape => cases h
  | comment => cases h
  | bad => cases h
  | _ =>
    cases h
    rcases hc' with rfl | rfl | rfl | rfl | rfl <;> simp [Scan.step, wordStart, Scan.start]

theorem scan_settled {b : Bool} {s : Scan} {d : Nat} {fs : List Str} {c : Char} {t : Str}
    (h : s.settle = ⟨.free, d, fs⟩) (hc : delim c = true) :
    scan b s (c :: t) = scan b ⟨.free, d, fs⟩ (c :: t) := by
  rw [scan_cons, scan_cons, settle_step h hc]
  rfl

/-! ## Layouts -/

section
variable [GoRuntime]

/-- What is asked of a piece, including the text that stands for its value. -/
def Good (b : Bool) (ph : Nat → Val → Str) (mark : Nat → List Str) (p : Piece) : Prop :=
  TameButComments b p ∧ ∀ v, p = .val v → v ≠ .nil → ∀ k, ClosedWith b (ph k v) (mark k)

/-- The pieces, scanned from between tokens, lead from `d0` more open parentheses to `d1` more. -/
def RunsTo (b : Bool) (ph : Nat → Val → Str) (mark : Nat → List Str) (d0 d1 : Nat)
    (l : List Piece) : Prop :=
  ∀ k d fs, (scan b ⟨.free, d + d0, fs⟩ (render ph k l)).settle
    = ⟨.free, d + d1, fs ++ (List.range' k (arguments l).length).flatMap mark⟩

/-- No comment among the pieces. -/
def NoNote (l : List Piece) : Prop := ∀ c, Piece.note c ∉ l

theorem noNote_nil : NoNote [] := by simp [NoNote]

theorem noNote_append {a l : List Piece} : NoNote (a ++ l) ↔ NoNote a ∧ NoNote l := by
  simp [NoNote, not_or, forall_and]

theorem noNote_sql {t : Str} {l : List Piece} : NoNote (.sql t :: l) ↔ NoNote l := by
  simp [NoNote]

/-- The pieces, scanned from between tokens, lead from `d0` more open parentheses to `d1` more if
there is no comment among them; up to the first comment they lead to the end of a token. -/
def Runs (b : Bool) (ph : Nat → Val → Str) (mark : Nat → List Str) (d0 d1 : Nat)
    (l : List Piece) : Prop :=
  (NoNote l → RunsTo b ph mark d0 d1 l) ∧
    ∀ A c B, l = A ++ .note c :: B → NoNote A → ∃ e, RunsTo b ph mark d0 e A

variable {b : Bool} {ph : Nat → Val → Str} {mark : Nat → List Str}

theorem runsTo_nil (d : Nat) : RunsTo b ph mark d d [] := by
  intro k d fs
  rw [render]
  simp [scan_nil, Scan.settle, arguments]

theorem runsTo_add {d0 d1 : Nat} {l : List Piece} (h : RunsTo b ph mark d0 d1 l) (e : Nat) :
    RunsTo b ph mark (d0 + e) (d1 + e) l := by
  intro k d fs
  have := h k (d + e) fs
  rw [show d + (d0 + e) = d + e + d0 by omega, this]
  simp only [Scan.mk.injEq, true_and, and_true]
  omega

theorem runsTo_sql {d0 d1 d2 : Nat} {t : Str} {l : List Piece}
    (ht : ∀ d fs, scan b ⟨.free, d + d0, fs⟩ t = ⟨.free, d + d1, fs⟩)
    (h : RunsTo b ph mark d1 d2 l) : RunsTo b ph mark d0 d2 (.sql t :: l) := by
  intro k d fs
  rw [render, scan_append, ht]
  exact h k d fs

theorem runsTo_append {d0 d1 d2 : Nat} {a : List Piece} {c : Char} {t : Str} {l : List Piece}
    (ha : RunsTo b ph mark d0 d1 a) (hc : delim c = true)
    (h : RunsTo b ph mark d1 d2 (.sql (c :: t) :: l)) :
    RunsTo b ph mark d0 d2 (a ++ .sql (c :: t) :: l) := by
  intro k d fs
  rw [render_append, scan_append]
  have h1 := ha k d fs
  have h2 := h (k + (arguments a).length) d (fs ++ (List.range' k (arguments a).length).flatMap mark)
  rw [render] at h2 ⊢
  rw [List.cons_append] at h2 ⊢
  rw [scan_settled h1 hc, h2]
  simp only [arguments_append, arguments, List.length_append, List.append_assoc, Scan.mk.injEq,
    true_and]
  rw [← List.flatMap_append, List.range'_append_1]

theorem runs_nil (d : Nat) : Runs b ph mark d d [] :=
  ⟨fun _ => runsTo_nil d, fun A c B h => by cases A <;> simp at h⟩

theorem runs_add {d0 d1 : Nat} {l : List Piece} (h : Runs b ph mark d0 d1 l) (e : Nat) :
    Runs b ph mark (d0 + e) (d1 + e) l := by
  refine ⟨fun hn => runsTo_add (h.1 hn) e, fun A c B hl hn => ?_⟩
  obtain ⟨f, hf⟩ := h.2 A c B hl hn
  exact ⟨f + e, runsTo_add hf e⟩

theorem runs_sql {d0 d1 d2 : Nat} {t : Str} {l : List Piece}
    (ht : ∀ d fs, scan b ⟨.free, d + d0, fs⟩ t = ⟨.free, d + d1, fs⟩)
    (h : Runs b ph mark d1 d2 l) : Runs b ph mark d0 d2 (.sql t :: l) := by
  refine ⟨fun hn => runsTo_sql ht (h.1 (noNote_sql.1 hn)), fun A c B hl hn => ?_⟩
  cases A with
  | nil => cases hl
  | cons p A =>
    rw [List.cons_append] at hl
    injection hl with h1 h2
    subst h1
    obtain ⟨f, hf⟩ := h.2 A c B h2 (noNote_sql.1 hn)
    exact ⟨f, runsTo_sql ht hf⟩

/-- Where the first comment of two lists is. -/
theorem split_note {a l A B : List Piece} {c : Str} (h : a ++ l = A ++ .note c :: B)
    (hn : NoNote A) :
    (∃ B', a = A ++ .note c :: B') ∨ (NoNote a ∧ ∃ A', A = a ++ A' ∧ l = A' ++ .note c :: B) := by
  rcases List.append_eq_append_iff.1 h with ⟨A', h1, h2⟩ | ⟨B', h1, h2⟩
  · refine .inr ⟨?_, A', h1, h2⟩
    rw [h1] at hn
    exact (noNote_append.1 hn).1
  · cases B' with
    | nil =>
      rw [List.append_nil] at h1
      rw [List.nil_append] at h2
      exact .inr ⟨h1 ▸ hn, [], by simp [h1], h2.symm⟩
    | cons p B' =>
      rw [List.cons_append] at h2
      injection h2 with h3 h4
      subst h3
      exact .inl ⟨B', h1⟩

theorem runs_append {d0 d1 d2 : Nat} {a : List Piece} {c : Char} {t : Str} {l : List Piece}
    (ha : Runs b ph mark d0 d1 a) (hc : delim c = true)
    (h : Runs b ph mark d1 d2 (.sql (c :: t) :: l)) :
    Runs b ph mark d0 d2 (a ++ .sql (c :: t) :: l) := by
  constructor
  · intro hn
    rw [noNote_append] at hn
    exact runsTo_append (ha.1 hn.1) hc (h.1 hn.2)
  · intro A x B hl hn
    rcases split_note hl hn with ⟨B', h1⟩ | ⟨h1, A', rfl, h2⟩
    · exact ha.2 A x B' h1 hn
    · cases A' with
      | nil => cases h2
      | cons p A' =>
        have h3 := h2
        rw [List.cons_append] at h3
        injection h3 with h4 h5
        subst h4
        obtain ⟨f, hf⟩ := h.2 _ x B h2 (noNote_append.1 hn).2
        exact ⟨f, runsTo_append (ha.1 h1) hc hf⟩

theorem runs_one {d0 d1 : Nat} {p : Piece} (hp : ∀ c, p ≠ .note c) (h : RunsTo b ph mark d0 d1 [p]) :
    Runs b ph mark d0 d1 [p] := by
  refine ⟨fun _ => h, fun A c B hl _ => ?_⟩
  cases A with
  | nil => injection hl with h1; exact absurd h1 (hp c)
  | cons q A => cases A <;> simp at hl

/-- A comment after pieces. -/
theorem runs_comment {a : List Piece} (c : Str) (h : Runs b ph mark 0 0 a) :
    Runs b ph mark 0 0 (a ++ commentL c) := by
  unfold commentL
  split
  · rwa [List.append_nil]
  · constructor
    · intro hn
      exact absurd (List.mem_append_right a List.mem_cons_self) (hn c)
    · intro A x B hl hn
      rcases split_note hl hn with ⟨B', h1⟩ | ⟨h1, A', rfl, h2⟩
      · exact h.2 A x B' h1 hn
      · cases A' with
        | nil => rw [List.append_nil]; exact ⟨0, h.1 h1⟩
        | cons p A' => cases A' <;> simp at h2

theorem runs_raw {t : Str} (h : SelfContained b t) : Runs b ph mark 0 0 [.raw t] := by
  refine runs_one (by simp) ?_
  intro k d fs
  rw [render, render, List.append_nil, closed_at h]
  simp [arguments]

theorem scan_name {n : Str} (h : '"' ∉ n) (s : Scan) (hs : s.mode = .name) : scan b s n = s := by
  induction n with
  | nil => rfl
  | cons c n ih =>
    have h1 : c ≠ '"' := fun e => h (e ▸ List.mem_cons_self)
    rw [scan_cons]
    have : s.step b c = s := by
      unfold Scan.step
      rw [hs]
      simp [h1]
    rw [this]
    exact ih fun hm => h (List.mem_cons_of_mem _ hm)

theorem scan_goQuote {n : Str} (h : '"' ∉ n) (d : Nat) (fs : List Str) :
    scan b ⟨.free, d, fs⟩ (goQuote n) = ⟨.free, d, fs⟩ := by
  unfold goQuote
  rw [scan_append, scan_append]
  rw [show scan b ⟨.free, d, fs⟩ s%"\"" = ⟨.name, d, fs⟩ from rfl]
  rw [scan_name (flatMap_no_quote h) _ rfl]
  rfl

theorem scan_quotedParts {l : List Str} (h : ∀ p ∈ l, '"' ∉ p) (d : Nat) (fs : List Str) :
    scan b ⟨.free, d, fs⟩ (quotedParts l) = ⟨.free, d, fs⟩ := by
  induction l with
  | nil => rfl
  | cons p l ih =>
    cases l with
    | nil => exact scan_goQuote (h p List.mem_cons_self) d fs
    | cons q l =>
      show scan b _ (goQuote p ++ s%"." ++ quotedParts (q :: l)) = _
      rw [scan_append, scan_append, scan_goQuote (h p List.mem_cons_self)]
      exact ih fun x hx => h x (List.mem_cons_of_mem _ hx)

theorem scan_quote {n : Str} (h : '"' ∉ n) (d : Nat) (fs : List Str) :
    scan b ⟨.free, d, fs⟩ (quote n) = ⟨.free, d, fs⟩ :=
  scan_quotedParts (fun _ hp hq => h (mem_splitOn hp _ hq)) d fs

theorem runs_name {n : Str} (h : '"' ∉ n) : Runs b ph mark 0 0 [.name n] := by
  refine runs_one (by simp) ?_
  intro k d fs
  rw [render, render, List.append_nil, scan_quote h]
  simp [Scan.settle, arguments]

theorem runs_val {v : Val} (h : v ≠ .nil → ∀ k, ClosedWith b (ph k v) (mark k)) :
    Runs b ph mark 0 0 [.val v] := by
  refine runs_one (by simp) ?_
  intro k d fs
  cases v
  case nil =>
    simp only [render, arguments]
    rw [show scan b ⟨.free, d + 0, fs⟩ (s%"NULL" ++ []) = ⟨.word, d, fs⟩ from rfl]
    simp [Scan.settle]
  all_goals
    simp only [render, arguments, List.append_nil]
    rw [closed_at (h (by simp) k)]
    simp

/-- A list of pieces whose pieces are good. -/
def AllGood (b : Bool) (ph : Nat → Val → Str) (mark : Nat → List Str) (l : List Piece) : Prop :=
  ∀ p ∈ l, Good b ph mark p

theorem allGood_append {l m : List Piece} :
    AllGood b ph mark (l ++ m) ↔ AllGood b ph mark l ∧ AllGood b ph mark m := by
  simp [AllGood, or_imp, forall_and]

theorem allGood_cons {p : Piece} {l : List Piece} :
    AllGood b ph mark (p :: l) ↔ Good b ph mark p ∧ AllGood b ph mark l := by
  simp [AllGood]

theorem allGood_nil : AllGood b ph mark [] := by simp [AllGood]

theorem allGood_commaSep {l : List (List Piece)} (h : AllGood b ph mark (commaSep l)) :
    ∀ a ∈ l, AllGood b ph mark a := by
  induction l with
  | nil => simp
  | cons a l ih =>
    cases l with
    | nil => simpa [commaSep] using h
    | cons a' l =>
      rw [commaSep, allGood_append, allGood_cons] at h
      intro x hx
      rcases List.mem_cons.1 hx with rfl | hx
      · exact h.1
      · exact ih h.2.2 x hx

theorem runs_commaSep {l : List (List Piece)} (h : ∀ a ∈ l, Runs b ph mark 0 0 a) :
    Runs b ph mark 0 0 (commaSep l) := by
  induction l with
  | nil => exact runs_nil 0
  | cons a l ih =>
    cases l with
    | nil => exact h a List.mem_cons_self
    | cons a' l =>
      rw [commaSep]
      exact runs_append (h a List.mem_cons_self) rfl (runs_sql (fun _ _ => rfl)
        (ih fun x hx => h x (List.mem_cons_of_mem _ hx)))

theorem allGood_spaceTail {l : List (Option (List Piece))} (h : AllGood b ph mark (spaceTail l)) :
    ∀ a, some a ∈ l → AllGood b ph mark a := by
  induction l with
  | nil => simp
  | cons c l ih =>
    cases c with
    | none =>
      intro a ha
      exact ih h a (by simpa using ha)
    | some x =>
      rw [spaceTail_some, List.cons_append, allGood_cons, allGood_append] at h
      intro a ha
      rcases List.mem_cons.1 ha with ha | ha
      · cases ha; exact h.2.1
      · exact ih h.2.2 a ha

theorem allGood_spaced {l : List (Option (List Piece))} (h : AllGood b ph mark (spaced l)) :
    ∀ a, some a ∈ l → AllGood b ph mark a := by
  induction l with
  | nil => simp
  | cons c l ih =>
    cases c with
    | none =>
      intro a ha
      exact ih h a (by simpa using ha)
    | some x =>
      rw [spaced_some, allGood_append] at h
      intro a ha
      rcases List.mem_cons.1 ha with ha | ha
      · cases ha; exact h.1
      · exact allGood_spaceTail h.2 a ha

theorem runs_spaceTail {l : List (Option (List Piece))} (h : ∀ a, some a ∈ l → Runs b ph mark 0 0 a) :
    ∀ {a : List Piece}, Runs b ph mark 0 0 a → Runs b ph mark 0 0 (a ++ spaceTail l) := by
  induction l with
  | nil => intro a ha; simpa using ha
  | cons c l ih =>
    intro a ha
    cases c with
    | none => exact ih (fun x hx => h x (List.mem_cons_of_mem _ hx)) ha
    | some x =>
      rw [spaceTail_some, List.cons_append]
      exact runs_append ha rfl (runs_sql (fun _ _ => rfl)
        (ih (fun x hx => h x (List.mem_cons_of_mem _ hx)) (h x List.mem_cons_self)))

theorem runs_spaced {l : List (Option (List Piece))} (h : ∀ a, some a ∈ l → Runs b ph mark 0 0 a) :
    Runs b ph mark 0 0 (spaced l) := by
  induction l with
  | nil => exact runs_nil 0
  | cons c l ih =>
    cases c with
    | none => exact ih fun x hx => h x (List.mem_cons_of_mem _ hx)
    | some x =>
      rw [spaced_some]
      exact runs_spaceTail (fun x hx => h x (List.mem_cons_of_mem _ hx)) (h x List.mem_cons_self)

/-- A keyword and a space before pieces. -/
theorem runs_keyword {t : Str} {l : List Piece}
    (ht : ∀ d fs, scan b ⟨.free, d + 0, fs⟩ t = ⟨.free, d + 0, fs⟩) (h : Runs b ph mark 0 0 l) :
    Runs b ph mark 0 0 (.sql t :: l) := runs_sql ht h

/-- Pieces between parentheses. -/
theorem runs_paren {o : Str} {l : List Piece}
    (ho : ∀ d fs, scan b ⟨.free, d + 0, fs⟩ o = ⟨.free, d + 1, fs⟩) (h : Runs b ph mark 0 0 l) :
    Runs b ph mark 0 0 (.sql o :: l ++ [.sql s%")"]) := by
  rw [List.cons_append]
  refine runs_sql (d1 := 1) ho (runs_append (runs_add h 1) rfl (runs_sql (d1 := 0) ?_ (runs_nil 0)))
  intro d fs
  rfl

/-- `left op right` -/
theorem runs_infix {l r : List Piece} {op : Str} (hl : Runs b ph mark 0 0 l)
    (ho : SelfContained b op) (hr : Runs b ph mark 0 0 r) :
    Runs b ph mark 0 0 (l ++ .sql s%" " :: .raw op :: .sql s%" " :: r) :=
  runs_append hl rfl (runs_sql (fun _ _ => rfl)
    (runs_append (a := [.raw op]) (runs_raw ho) rfl (runs_sql (fun _ _ => rfl) hr)))

theorem runs_aliased {n a : Str} (h : AllGood b ph mark (aliased n a)) :
    Runs b ph mark 0 0 (aliased n a) := by
  unfold aliased at *
  rw [allGood_cons] at h
  split
  · exact runs_name h.1.1
  · rename_i ha
    rw [if_neg ha, allGood_cons, allGood_cons] at h
    exact runs_append (a := [.name n]) (runs_name h.1.1) rfl
      (runs_sql (fun _ _ => rfl) (runs_name h.2.2.1.1))

theorem runs_column {c : Column} (h : AllGood b ph mark (columnL c)) :
    Runs b ph mark 0 0 (columnL c) := runs_aliased h

theorem runs_table {t : Table} (h : AllGood b ph mark (tableL t)) :
    Runs b ph mark 0 0 (tableL t) := by
  unfold tableL at *
  rw [allGood_append] at h
  split
  · exact runs_sql (fun _ _ => rfl) (runs_aliased h.2)
  · exact runs_aliased h.2

theorem runs_fromItem {t : FromItem} (h : AllGood b ph mark (fromItemL t)) :
    Runs b ph mark 0 0 (fromItemL t) := by
  cases t with
  | nil => exact runs_nil 0
  | table t => exact runs_table h
  | raw s => exact runs_raw (allGood_cons.1 h).1.1

theorem runs_order {o : Order} (h : AllGood b ph mark (orderL o)) :
    Runs b ph mark 0 0 (orderL o) := by
  unfold orderL at *
  split
  · exact runs_nil 0
  · rename_i ho
    rw [if_neg ho, allGood_cons, allGood_cons, allGood_cons] at h
    exact runs_append (a := [.raw o.expression]) (runs_raw h.1.1) rfl
      (runs_sql (fun _ _ => rfl) (runs_raw h.2.2.1.1))

theorem runs_map {α : Type} {f : α → List Piece}
    (hf : ∀ x, AllGood b ph mark (f x) → Runs b ph mark 0 0 (f x)) {l : List α}
    (h : AllGood b ph mark (commaSep (l.map f))) : Runs b ph mark 0 0 (commaSep (l.map f)) := by
  refine runs_commaSep fun a ha => ?_
  obtain ⟨x, -, rfl⟩ := List.mem_map.1 ha
  exact hf x (allGood_commaSep h _ ha)

theorem runs_from {l : List FromItem} (h : AllGood b ph mark (fromL l)) :
    Runs b ph mark 0 0 (fromL l) :=
  runs_keyword (fun _ _ => rfl) (runs_map (fun _ => runs_fromItem) (allGood_cons.1 h).2)

theorem runs_argument {v a : Str} (hv : SelfContained b v) (ha : AllGood b ph mark (aggAliasL a)) :
    Runs b ph mark 1 0 (.raw v :: .sql s%")" :: aggAliasL a) := by
  refine runs_append (a := [.raw v]) (runs_add (runs_raw hv) 1) rfl
    (runs_sql (d1 := 0) (fun _ _ => rfl) ?_)
  unfold aggAliasL at *
  split
  · exact runs_nil 0
  · rename_i h
    rw [if_neg h, allGood_cons, allGood_cons] at ha
    exact runs_sql (fun _ _ => rfl) (runs_raw ha.2.1.1)

theorem runs_aggregate {o v a : Str} (ho : ∀ d fs, scan b ⟨.free, d + 0, fs⟩ o = ⟨.free, d + 1, fs⟩)
    (hv : SelfContained b v) (ha : AllGood b ph mark (aggAliasL a)) :
    Runs b ph mark 0 0 (.sql o :: .raw v :: .sql s%")" :: aggAliasL a) :=
  runs_sql (d1 := 1) ho (runs_argument hv ha)

/-- Fixed text that is self-contained. -/
theorem runs_text {t : Str} (h : SelfContained b t) : Runs b ph mark 0 0 [.sql t] := by
  refine runs_one (by simp) ?_
  intro k d fs
  rw [render, render, List.append_nil, closed_at h]
  simp [arguments]

/-- A clause that is fine if it is there. -/
def Fine (b : Bool) (ph : Nat → Val → Str) (mark : Nat → List Str) (o : Option (List Piece)) :
    Prop := ∀ a, o = some a → AllGood b ph mark a → Runs b ph mark 0 0 a

theorem fine_clause {p : Bool} {c : List Piece}
    (h : AllGood b ph mark c → Runs b ph mark 0 0 c) : Fine b ph mark (clause p c) := by
  intro a ha
  unfold clause at ha
  split at ha
  · cases ha; exact h
  · cases ha

theorem fine_some {c : List Piece}
    (h : AllGood b ph mark c → Runs b ph mark 0 0 c) : Fine b ph mark (some c) := by
  intro a ha
  cases ha
  exact h

theorem runs_fine {l : List (Option (List Piece))} (hl : ∀ o ∈ l, Fine b ph mark o)
    (h : AllGood b ph mark (spaced l)) : Runs b ph mark 0 0 (spaced l) :=
  runs_spaced fun a ha => hl _ ha a rfl (allGood_spaced h a ha)

theorem scan_digits {t : Str} (h : ∀ c ∈ t, isDigit c = true) {d : Nat} {fs : List Str} :
    scan b ⟨.word, d, fs⟩ t = ⟨.word, d, fs⟩ := by
  induction t with
  | nil => rfl
  | cons c t ih =>
    rw [scan_cons]
    have hc : wordStart c = true := by
      have := h c List.mem_cons_self
      simp only [isDigit, Bool.and_eq_true, decide_eq_true_eq] at this
      simp [wordStart, this.1, this.2]
    have : Scan.step b ⟨.word, d, fs⟩ c = ⟨.word, d, fs⟩ := by simp [Scan.step, hc]
    rw [this]
    exact ih fun x hx => h x (List.mem_cons_of_mem _ hx)

theorem start_digit {c : Char} (h : isDigit c = true) (s : Scan) :
    s.start c = { s with mode := .word } := by
  have hw : wordStart c = true := by
    simp only [isDigit, Bool.and_eq_true, decide_eq_true_eq] at h
    simp [wordStart, h.1, h.2]
  have hne : ∀ x : Char, isDigit x = false → c ≠ x := by
    intro x hx he
    rw [he, hx] at h
    cases h
  simp [Scan.start, hw, hne '"' rfl, hne '\'' rfl, hne '(' rfl, hne ')' rfl, hne '$' rfl,
    hne '-' rfl, hne '/' rfl]

end

end Verif
