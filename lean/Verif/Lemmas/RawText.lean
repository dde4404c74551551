import Verif.Lemmas.CondText

/-!
# `String`: the text with the values written as literals
-/

set_option linter.unusedSectionVars false

namespace Verif
open Spec

section
variable [GoRuntime]

/-- The text of a piece with its value written as a literal. -/
def Spec.Piece.rawText : Piece → Go Str
  | .sql t => .ok t
  | .name s => .ok (quote s)
  | .raw t => .ok t
  | .note c => .ok (s%"; -- " ++ c)
  | .val v => formatValue v

/-- The text of pieces with the values written as literals. -/
def rawText : List Piece → Go Str
  | [] => .ok []
  | p :: l =>
    match p.rawText with
    | .error e => .error e
    | .ok t =>
      match rawText l with
      | .error e => .error e
      | .ok u => .ok (t ++ u)

theorem run_raw (l : List Piece) (b : Str) :
    rawContext.run (evs l) b =
      match rawText l with
      | .error e => .error e
      | .ok t => .ok (b ++ t) := by
  induction l generalizing b with
  | nil => simp [Context.run, rawText]
  | cons p l ih =>
    cases p with
    | sql t => simp only [evs_cons, Piece.evs, run_text_raw, ih, rawText, Piece.rawText]; cases rawText l <;> simp
    | name t => simp only [evs_cons, Piece.evs, run_text_raw, ih, rawText, Piece.rawText]; cases rawText l <;> simp
    | raw t => simp only [evs_cons, Piece.evs, run_text_raw, ih, rawText, Piece.rawText]; cases rawText l <;> simp
    | note t => simp only [evs_cons, Piece.evs, run_text_raw, ih, rawText, Piece.rawText]; cases rawText l <;> simp
    | val v =>
      cases v
      case nil =>
        simp only [evs_cons, Piece.evs, run_text_raw, ih, rawText, Piece.rawText, formatValue]
        cases rawText l <;> simp
      all_goals
        simp only [evs_cons, Piece.evs, List.cons_append, List.nil_append, Context.run, rawText,
          Piece.rawText]
        simp only [rawContext]
        cases h : formatValue _ with
        | error e => rfl
        | ok t =>
          simp only
          have := ih (b ++ t)
          simp only [rawContext] at this
          rw [this]
          cases rawText l <;> simp

theorem rawText_append (a b : List Piece) :
    rawText (a ++ b) =
      match rawText a with
      | .error e => .error e
      | .ok t =>
        match rawText b with
        | .error e => .error e
        | .ok u => .ok (t ++ u) := by
  induction a with
  | nil => simp only [List.nil_append, rawText]; cases rawText b <;> rfl
  | cons p a ih =>
    simp only [List.cons_append, rawText, ih]
    cases p.rawText with
    | error e => rfl
    | ok t =>
      cases rawText a with
      | error e => rfl
      | ok u => cases rawText b <;> simp

theorem rawText_append_ok {a b : List Piece} {t u : Str} (ha : rawText a = .ok t)
    (hb : rawText b = .ok u) : rawText (a ++ b) = .ok (t ++ u) := by
  rw [rawText_append, ha, hb]

theorem rawText_sql_ok {x : Str} {l : List Piece} {t : Str} (h : rawText l = .ok t) :
    rawText (.sql x :: l) = .ok (x ++ t) := by
  simp only [rawText, Piece.rawText, h]

theorem rawText_raw_ok {x : Str} {l : List Piece} {t : Str} (h : rawText l = .ok t) :
    rawText (.raw x :: l) = .ok (x ++ t) := by
  simp only [rawText, Piece.rawText, h]

theorem rawText_append_inv {a b : List Piece} {t : Str} (h : rawText (a ++ b) = .ok t) :
    ∃ x y, rawText a = .ok x ∧ rawText b = .ok y ∧ t = x ++ y := by
  rw [rawText_append] at h
  cases ha : rawText a with
  | error e => rw [ha] at h; cases h
  | ok x =>
    cases hb : rawText b with
    | error e => rw [ha, hb] at h; cases h
    | ok y => rw [ha, hb] at h; exact ⟨x, y, rfl, rfl, by cases h; rfl⟩

theorem string_denotes {w : W} {ok : Bool} {l : List Piece} (h : Denotes w ok (evs l)) (t : Str) :
    w.string = .ok t ↔ ok = true ∧ rawText l = .ok t := by
  cases ok with
  | true =>
    rw [W.string, h.1 rfl _ _ rawContext_additive, run_raw]
    cases rawText l <;> simp
  | false =>
    obtain ⟨p, es, hl⟩ := h.2 rfl
    rw [W.string, hl _ _ rawContext_additive]
    simp only [Bool.false_eq_true, false_and, iff_false]
    cases rawContext.run es [] <;> simp

theorem expr_string (e : Expr) (t : Str) :
    e.write.string = .ok t ↔ okE e = true ∧ rawText (exprL e) = .ok t :=
  string_denotes (denotes_expr e) t

theorem stmt_string (s : Stmt) (t : Str) :
    s.write.string = .ok t ↔ okStmt s = true ∧ rawText (layout s) = .ok t :=
  string_denotes (denotes_stmt s) t

theorem select_string (s : SelectStmt) (t : Str) :
    s.write.string = .ok t ↔ okS s = true ∧ rawText (selectL s) = .ok t :=
  string_denotes (denotes_select s) t

end

end Verif
