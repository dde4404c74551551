import Verif.Lemmas.Quote
import Verif.Lemmas.Weave

/-!
# String literals and valuers
-/

set_option linter.unusedSectionVars false

namespace Verif
open Spec

/-! ## Literals read with backslash escapes -/

theorem readEscBody_plain {c : Char} (h1 : c ≠ '\'') (h2 : c ≠ '\\') (s : Str) :
    readEscBody (c :: s) = (readEscBody s).map fun p => (c :: p.1, p.2) := by
  rw [readEscBody.eq_def]
  split
  · rename_i e; cases e
  · rename_i e; cases e; exact absurd rfl h1
  · rename_i e; cases e; exact absurd rfl h2
  · rename_i e; cases e; split <;> simp_all

theorem readEscBody_close {rest : Str} (h : rest.head? ≠ some '\'') :
    readEscBody ('\'' :: rest) = some ([], rest) := by
  cases rest with
  | nil => rfl
  | cons d r =>
    have hd : d ≠ '\'' := fun e => h (by rw [e]; rfl)
    rw [readEscBody.eq_def]
    simp only
    split
    · rename_i e; cases e; exact absurd rfl hd
    · rfl

theorem readEscBody_rune (c : Char) (s : Str) :
    readEscBody (formatStringRune c ++ s) = (readEscBody s).map fun p => (c :: p.1, p.2) := by
  unfold formatStringRune
  split
  · rename_i h; subst h; show readEscBody ('\\' :: '\'' :: s) = _
    rw [readEscBody]; cases readEscBody s <;> rfl
  split
  · rename_i h; subst h; show readEscBody ('\\' :: '\\' :: s) = _
    rw [readEscBody]; cases readEscBody s <;> rfl
  split
  · rename_i h; subst h; show readEscBody ('\\' :: 'n' :: s) = _
    rw [readEscBody]; cases readEscBody s <;> rfl
  split
  · rename_i h; subst h; show readEscBody ('\\' :: 'r' :: s) = _
    rw [readEscBody]; cases readEscBody s <;> rfl
  split
  · rename_i h; subst h; show readEscBody ('\\' :: 't' :: s) = _
    rw [readEscBody]; cases readEscBody s <;> rfl
  · rename_i h1 h2 _ _ _
    exact readEscBody_plain h1 h2 s

theorem readEsc_formatString {s rest : Str} (h : rest.head? ≠ some '\'') :
    readEsc (formatString s ++ rest) = some (s, rest) := by
  have e : formatString s ++ rest = '\'' :: (s.flatMap formatStringRune ++ '\'' :: rest) := by
    simp [formatString]
  rw [e]
  show readEscBody _ = _
  induction s with
  | nil => exact readEscBody_close h
  | cons c s ih =>
    rw [List.flatMap_cons, List.append_assoc, readEscBody_rune, ih (by simp [formatString])]
    rfl

/-! ## Literals read with standard conforming strings -/

/-- A rune that `format.String` leaves as it is. -/
def plainInLiteral (c : Char) : Prop := c ≠ '\'' ∧ c ≠ '\\' ∧ c ≠ '\n' ∧ c ≠ '\r' ∧ c ≠ '\t'

theorem formatStringRune_plain {c : Char} (h : plainInLiteral c) : formatStringRune c = [c] := by
  obtain ⟨h1, h2, h3, h4, h5⟩ := h
  simp [formatStringRune, h1, h2, h3, h4, h5]

theorem formatStringRune_length (c : Char) :
    1 ≤ (formatStringRune c).length ∧ (¬plainInLiteral c → 2 ≤ (formatStringRune c).length) := by
  unfold formatStringRune plainInLiteral
  split
  · exact ⟨by decide, fun _ => by decide⟩
  split
  · exact ⟨by decide, fun _ => by decide⟩
  split
  · exact ⟨by decide, fun _ => by decide⟩
  split
  · exact ⟨by decide, fun _ => by decide⟩
  split
  · exact ⟨by decide, fun _ => by decide⟩
  · exact ⟨by simp, fun h => absurd ⟨‹_›, ‹_›, ‹_›, ‹_›, ‹_›⟩ h⟩

theorem formatStringRune_no_quote {c : Char} (h : c ≠ '\'') : '\'' ∉ formatStringRune c := by
  unfold formatStringRune
  split
  · exact absurd ‹_› h
  split
  · decide
  split
  · decide
  split
  · decide
  split
  · decide
  · simpa using Ne.symm h

theorem formatStringRune_ne_nil (c : Char) : formatStringRune c ≠ [] := by
  have := (formatStringRune_length c).1
  intro e; rw [e] at this; simp at this

/-- Expanding each rune into at least one, and into at least two unless it is plain, gives the
text itself exactly when every rune is plain. -/
theorem flatMap_eq_self {f : Char → Str} {plain : Char → Prop} (hp : ∀ c, plain c → f c = [c])
    (h1 : ∀ c, 1 ≤ (f c).length) (h2 : ∀ c, ¬plain c → 2 ≤ (f c).length) (s : Str) :
    s.flatMap f = s ↔ ∀ c ∈ s, plain c := by
  have hlen : ∀ s : Str, s.length ≤ (s.flatMap f).length := by
    intro s
    induction s with
    | nil => simp
    | cons c s ih =>
      have := h1 c
      simp only [List.flatMap_cons, List.length_append, List.length_cons]; omega
  constructor
  · intro e
    have e' := congrArg List.length e
    clear e
    induction s with
    | nil => simp
    | cons c s ih =>
      have h3 := h1 c
      have h4 := hlen s
      simp only [List.flatMap_cons, List.length_append, List.length_cons] at e'
      intro d hd
      rcases List.mem_cons.1 hd with rfl | hd
      · refine Classical.byContradiction fun hn => ?_
        have := h2 d hn
        omega
      · exact ih (by omega) d hd
  · intro h
    induction s with
    | nil => rfl
    | cons c s ih =>
      rw [List.flatMap_cons, hp c (h c (by simp)), ih (fun d hd => h d (by simp [hd]))]; rfl

theorem readStd_formatString {s rest : Str} (hq : '\'' ∉ s) (hr : rest.head? ≠ some '\'') :
    readStd (formatString s ++ rest) = some (s.flatMap formatStringRune, rest) := by
  have e : formatString s ++ rest = '\'' :: (s.flatMap formatStringRune ++ '\'' :: rest) := by
    simp [formatString]
  rw [e]
  show readQuoted '\'' _ = _
  rw [readQuoted, if_pos rfl]
  refine readBody_plain ?_ hr
  intro h
  obtain ⟨c, hc, he⟩ := List.mem_flatMap.1 h
  exact formatStringRune_no_quote (fun e => hq (e ▸ hc)) he

theorem readStd_broken {s rest x : Str} (hq : '\'' ∈ s) :
    readStd (formatString s ++ rest) ≠ some (x, rest) := by
  have e : formatString s ++ rest = '\'' :: (s.flatMap formatStringRune ++ '\'' :: rest) := by
    simp [formatString]
  rw [e]
  show readQuoted '\'' _ ≠ _
  rw [readQuoted, if_pos rfl]
  exact readBody_broken (by decide) (by decide) (fun c => formatStringRune_no_quote)
    formatStringRune_ne_nil hq rest x

/-! ## Quoted runes are longer unless plain -/

section
variable [GoRuntime]

theorem two_le_cons_cons {a b : Char} {l : Str} : 2 ≤ (a :: b :: l).length := by simp

theorem quoteRune_length (c : Char) : ¬plainRune c → 2 ≤ (quoteRune c).length := by
  intro h
  unfold quoteRune
  refine ite_ind (P := fun s => 2 ≤ s.length) (fun _ => two_le_cons_cons) (fun h1 => ?_)
  refine ite_ind (P := fun s => 2 ≤ s.length) (fun h2 => ?_) (fun _ => ?_)
  · simp only [Bool.or_eq_true, decide_eq_true_eq, not_or] at h1
    exact absurd ⟨h1.1, h1.2, h2⟩ h
  iterate 7 refine ite_ind (P := fun s => 2 ≤ s.length) (fun _ => two_le_cons_cons) (fun _ => ?_)
  iterate 2 refine ite_ind (P := fun s => 2 ≤ s.length) (fun _ => two_le_cons_cons) (fun _ => ?_)
  exact two_le_cons_cons

theorem quoteRune_length_pos (c : Char) : 1 ≤ (quoteRune c).length := by
  have := quoteRune_ne_nil c
  cases h : quoteRune c with
  | nil => exact absurd h this
  | cons a l => simp

theorem flatMap_quoteRune_eq_self (s : Str) :
    s.flatMap quoteRune = s ↔ ∀ c ∈ s, plainRune c :=
  flatMap_eq_self (fun _ => quoteRune_plain) quoteRune_length_pos quoteRune_length s

/-! ## Valuers -/

/-- Replacing values by values that print alike does not change what `String` writes. -/
theorem run_raw_map {f : Val → Val} (hf : ∀ v, formatValue (f v) = formatValue v) (l : List Piece)
    (b : Str) :
    rawContext.run (evs (l.map (mapPiece f))) b = rawContext.run (evs l) b := by
  have hbind : ∀ v b, rawContext.bind v b =
      match formatValue v with
      | .error p => .error p
      | .ok t => .ok (b ++ t) := fun _ _ => rfl
  have hval : ∀ (v : Val) (l : List Ev) (b : Str),
      rawContext.run ((Piece.val v).evs ++ l) b =
        match formatValue v with
        | .error p => .error p
        | .ok t => rawContext.run l (b ++ t) := by
    intro v l b
    cases v
    case nil => simp only [Piece.evs, run_text_raw, formatValue]
    all_goals
      simp only [Piece.evs, List.cons_append, List.nil_append, Context.run]
      rw [hbind]
      cases formatValue _ <;> rfl
  induction l generalizing b with
  | nil => rfl
  | cons p l ih =>
    cases p with
    | sql t => simp only [List.map_cons, mapPiece, evs_cons, Piece.evs, run_text_raw]; exact ih _
    | name t => simp only [List.map_cons, mapPiece, evs_cons, Piece.evs, run_text_raw]; exact ih _
    | raw t => simp only [List.map_cons, mapPiece, evs_cons, Piece.evs, run_text_raw]; exact ih _
    | note t => simp only [List.map_cons, mapPiece, evs_cons, Piece.evs, run_text_raw]; exact ih _
    | val v =>
      simp only [List.map_cons, mapPiece, evs_cons]
      rw [hval, hval, hf]
      split
      · rfl
      · exact ih _

end

end Verif
