import Verif.Lemmas.Clauses

/-!
# Which pieces can be written with `String()`
-/

set_option linter.unusedSectionVars false

namespace Verif
open Spec

section
variable [GoRuntime]

/-- The pieces have a text. -/
def Renders (l : List Piece) : Prop := ∃ t, rawText l = .ok t

theorem renders_nil : Renders [] := ⟨[], rfl⟩

theorem renders_append (a b : List Piece) : Renders (a ++ b) ↔ Renders a ∧ Renders b := by
  constructor
  · rintro ⟨t, h⟩
    obtain ⟨x, y, hx, hy, _⟩ := rawText_append_inv h
    exact ⟨⟨x, hx⟩, ⟨y, hy⟩⟩
  · rintro ⟨⟨x, hx⟩, ⟨y, hy⟩⟩
    exact ⟨_, rawText_append_ok hx hy⟩

theorem renders_sql (x : Str) (l : List Piece) : Renders (.sql x :: l) ↔ Renders l := by
  constructor
  · rintro ⟨t, h⟩
    obtain ⟨u, hu, _⟩ := rawText_sql_inv h
    exact ⟨u, hu⟩
  · rintro ⟨t, h⟩
    exact ⟨_, rawText_sql_ok h⟩

theorem renders_raw (x : Str) (l : List Piece) : Renders (.raw x :: l) ↔ Renders l := by
  show (∃ _, _) ↔ ∃ _, _
  simp only [rawText, Piece.rawText]
  cases rawText l <;> simp

theorem renders_name (x : Str) (l : List Piece) : Renders (.name x :: l) ↔ Renders l := by
  show (∃ _, _) ↔ ∃ _, _
  simp only [rawText, Piece.rawText]
  cases rawText l <;> simp

theorem renders_commaSep (l : List (List Piece)) :
    Renders (commaSep l) ↔ ∀ a ∈ l, Renders a := by
  match l with
  | [] => simp [commaSep, renders_nil]
  | [a] => simp [commaSep]
  | a :: b :: l =>
    have ih := renders_commaSep (b :: l)
    rw [commaSep, renders_append, renders_sql, ih, List.forall_mem_cons (a := a)]

theorem renders_spaceTail (l : List (Option (List Piece))) :
    Renders (spaceTail l) ↔ ∀ a, some a ∈ l → Renders a := by
  induction l with
  | nil => simp [spaceTail_nil, renders_nil]
  | cons c l ih =>
    cases c with
    | none => show Renders (spaceTail l) ↔ _; simp [ih]
    | some a =>
      rw [spaceTail_some, List.cons_append, renders_sql, renders_append, ih]
      simp [List.mem_cons, or_imp, forall_and]

theorem renders_spaced (l : List (Option (List Piece))) :
    Renders (spaced l) ↔ ∀ a, some a ∈ l → Renders a := by
  induction l with
  | nil => simp [spaced, renders_nil]
  | cons c l ih =>
    cases c with
    | none => rw [spaced, ih]; simp
    | some a =>
      rw [spaced_some, renders_append, renders_spaceTail]
      simp [List.mem_cons, or_imp, forall_and]

theorem renders_clause (c : Bool) (a : List Piece) :
    (∀ x, some x = clause c a → Renders x) ↔ (c = true → Renders a) := by
  cases c <;> simp [clause]

theorem renders_column (c : Column) : Renders (columnL c) := by
  unfold columnL aliased
  split <;> simp [renders_name, renders_sql, renders_nil]

theorem renders_table (t : Table) : Renders (tableL t) := by
  unfold tableL aliased
  split <;> split <;> simp [renders_name, renders_sql, renders_nil]

theorem renders_fromItem (t : FromItem) : Renders (fromItemL t) := by
  cases t with
  | nil => exact renders_nil
  | table t => exact renders_table t
  | raw s => exact (renders_raw _ _).2 renders_nil

theorem renders_order (o : Order) : Renders (orderL o) := by
  unfold orderL
  split <;> simp [renders_raw, renders_sql, renders_nil]

theorem renders_comment (c : Str) : Renders (commentL c) := by
  unfold commentL
  split
  · exact renders_nil
  · exact ⟨_, rfl⟩

theorem string_renders {w : W} {ok : Bool} {l : List Piece} (h : Denotes w ok (evs l)) :
    (∃ t, w.string = .ok t) ↔ ok = true ∧ Renders l := by
  constructor
  · rintro ⟨t, ht⟩
    obtain ⟨h1, h2⟩ := (string_denotes h t).1 ht
    exact ⟨h1, t, h2⟩
  · rintro ⟨h1, t, h2⟩
    exact ⟨t, (string_denotes h t).2 ⟨h1, h2⟩⟩

theorem with_denotes (w : WithQuery) :
    Denotes w.write (okIf w.isEmpty (okE w.subquery)) (evs (withL w)) := by
  obtain ⟨n, e⟩ := w
  exact denotes_with n e

theorem okWiths_all (l : List WithQuery) :
    okWiths l = true ↔ ∀ w ∈ l, okIf w.isEmpty (okE w.subquery) = true := by
  induction l with
  | nil => simp [okWiths]
  | cons w l ih => obtain ⟨n, e⟩ := w; simp [okWiths, ih]

theorem okJoins_all (l : List Join) :
    okJoins l = true ↔ ∀ j ∈ l, okE j.cond = true := by
  induction l with
  | nil => simp [okJoins]
  | cons j l ih => obtain ⟨a, b, c⟩ := j; simp [okJoins, ih]

/-- A list of elements can be written exactly when each of them can. -/
theorem list_renders {α : Type} {f : α → W} {g : α → List Piece} {ok : α → Bool}
    (hd : ∀ a, Denotes (f a) (ok a) (evs (g a))) (l : List α) :
    (∀ a ∈ l, ∃ t, (f a).string = .ok t) ↔
      (∀ a ∈ l, ok a = true) ∧ ∀ a ∈ l, Renders (g a) := by
  simp only [fun a => string_renders (hd a), forall_and]

/-- A condition that is absent or can be written. -/
theorem cond_renders {e : Expr} (h : e = .nil ∨ ∃ t, e.write.string = .ok t) :
    okIf e.isUnset (okE e) = true ∧ (blank e = false → Renders (exprL e)) := by
  rcases h with rfl | h
  · exact ⟨rfl, fun h => by cases h⟩
  · obtain ⟨h1, h2⟩ := (string_renders (denotes_expr e)).1 h
    refine ⟨?_, fun _ => h2⟩
    rw [isUnset_of h1, h1]
    cases blank e <;> rfl

end

end Verif
