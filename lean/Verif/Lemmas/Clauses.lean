import Verif.Lemmas.Where
import Verif.Spec.Clauses

/-!
# Lemmas about texts made of clauses
-/

set_option linter.unusedSectionVars false

namespace Verif
open Spec

section
variable [GoRuntime]

/-- The text of one clause. -/
def ClauseText : Option (List Piece) → Option Str → Prop
  | none, none => True
  | some a, some x => rawText a = .ok x
  | _, _ => False

/-- The texts of clauses. -/
def AllText : List (Option (List Piece)) → List (Option Str) → Prop
  | [], [] => True
  | c :: cs, x :: xs => ClauseText c x ∧ AllText cs xs
  | _, _ => False

theorem allText_cons {c : Option (List Piece)} {cs : List (Option (List Piece))}
    {xs : List (Option Str)} (h : AllText (c :: cs) xs) :
    ∃ y ys, xs = y :: ys ∧ ClauseText c y ∧ AllText cs ys := by
  cases xs with
  | nil => cases h
  | cons y ys => exact ⟨y, ys, rfl, h.1, h.2⟩

theorem allText_nil {xs : List (Option Str)} (h : AllText [] xs) : xs = [] := by
  cases xs with
  | nil => rfl
  | cons y ys => cases h

theorem allText_append {a b : List (Option (List Piece))} {xs : List (Option Str)}
    (h : AllText (a ++ b) xs) : ∃ ys zs, xs = ys ++ zs ∧ AllText a ys ∧ AllText b zs := by
  induction a generalizing xs with
  | nil => exact ⟨[], xs, rfl, trivial, h⟩
  | cons c a ih =>
    obtain ⟨y, ys, rfl, h1, h2⟩ := allText_cons h
    obtain ⟨us, vs, rfl, h3, h4⟩ := ih h2
    exact ⟨y :: us, vs, rfl, ⟨h1, h3⟩, h4⟩

theorem clauseText_some {a : List Piece} {x : Option Str} (h : ClauseText (some a) x) :
    ∃ y, rawText a = .ok y ∧ x = some y := by
  cases x with
  | none => cases h
  | some y => exact ⟨y, h, rfl⟩

theorem clauseText_clause {c : Bool} {a : List Piece} {x : Option Str}
    (h : ClauseText (clause c a) x) : ∃ y, (c = true → rawText a = .ok y) ∧ x = when c y := by
  cases c with
  | true =>
    obtain ⟨y, hy, rfl⟩ := clauseText_some h
    exact ⟨y, fun _ => hy, rfl⟩
  | false =>
    cases x with
    | none => exact ⟨[], ⟨fun h => Bool.noConfusion h, rfl⟩⟩
    | some y => cases h

theorem spaceTail_text {l : List (Option (List Piece))} : ∀ {t : Str}, rawText (spaceTail l) = .ok t →
    ∃ xs, AllText l xs ∧ t = (xs.filterMap id).flatMap (fun x => s%" " ++ x) := by
  induction l with
  | nil => intro t h; rw [spaceTail_nil] at h; cases h; exact ⟨[], trivial, rfl⟩
  | cons c l ih =>
    intro t h
    cases c with
    | none =>
      obtain ⟨xs, h1, rfl⟩ := ih (t := t) h
      exact ⟨none :: xs, ⟨trivial, h1⟩, rfl⟩
    | some a =>
      rw [spaceTail_some] at h
      obtain ⟨u, hu, rfl⟩ := rawText_sql_inv h
      obtain ⟨x, v, hx, hv, rfl⟩ := rawText_append_inv hu
      obtain ⟨xs, h1, rfl⟩ := ih hv
      exact ⟨some x :: xs, ⟨hx, h1⟩, by simp⟩

theorem intercalate_flatMap (sep x : Str) (l : List Str) :
    List.intercalate sep (x :: l) = x ++ l.flatMap (fun y => sep ++ y) := by
  induction l generalizing x with
  | nil => simp [List.intercalate]
  | cons y l ih => rw [intercalate_cons2, ih]; simp

/-- The text of clauses. -/
theorem spaced_text {l : List (Option (List Piece))} : ∀ {t : Str}, rawText (spaced l) = .ok t →
    ∃ xs, AllText l xs ∧ t = oneSpace xs := by
  induction l with
  | nil => intro t h; cases h; exact ⟨[], trivial, rfl⟩
  | cons c l ih =>
    intro t h
    cases c with
    | none =>
      rw [spaced] at h
      obtain ⟨xs, h1, rfl⟩ := ih h
      exact ⟨none :: xs, ⟨trivial, h1⟩, rfl⟩
    | some a =>
      rw [spaced_some] at h
      obtain ⟨x, v, hx, hv, rfl⟩ := rawText_append_inv h
      obtain ⟨xs, h1, rfl⟩ := spaceTail_text hv
      refine ⟨some x :: xs, ⟨hx, h1⟩, ?_⟩
      simp [oneSpace, intercalate_flatMap]

/-- A clause after another one, inside a text. -/
theorem oneSpace_split {l r : List (Option Str)} {a x : Str} (h : some a ∈ l) :
    ∃ pre post, oneSpace (l ++ some x :: r) = pre ++ (s%" " ++ x) ++ post := by
  have hj : ∀ (m : List Str) (y : Str) (r : List Str), ∃ post,
      List.intercalate s%" " (y :: r) = y ++ post := by
    intro m y r
    cases r with
    | nil => exact ⟨[], by simp [List.intercalate]⟩
    | cons z r => exact ⟨_, (intercalate_cons2 _ _ _ _).trans (List.append_assoc ..)⟩
  have key : ∀ (l r : List Str) (x : Str), l ≠ [] → ∃ pre post,
      List.intercalate s%" " (l ++ x :: r) = pre ++ (s%" " ++ x) ++ post := by
    intro l
    induction l with
    | nil => intro r x h; exact absurd rfl h
    | cons y l ih =>
      intro r x _
      cases l with
      | nil =>
        obtain ⟨post, hp⟩ := hj [] x r
        refine ⟨y, post, ?_⟩
        show List.intercalate s%" " (y :: x :: r) = _
        rw [intercalate_cons2, hp]
        simp
      | cons z l =>
        obtain ⟨pre, post, hp⟩ := ih r x (by simp)
        refine ⟨y ++ s%" " ++ pre, post, ?_⟩
        show List.intercalate s%" " (y :: z :: (l ++ x :: r)) = _
        rw [intercalate_cons2]
        have : z :: (l ++ x :: r) = (z :: l) ++ x :: r := rfl
        rw [this, hp]
        simp
  have : (l ++ some x :: r).filterMap id = l.filterMap id ++ x :: r.filterMap id := by simp
  rw [oneSpace, this]
  refine key _ _ _ ?_
  intro h0
  have : a ∈ l.filterMap id := List.mem_filterMap.2 ⟨some a, h, rfl⟩
  rw [h0] at this
  cases this

theorem texts_of {α : Type} {f : α → W} {g : α → List Piece} {ok : α → Bool}
    (hd : ∀ a, Denotes (f a) (ok a) (evs (g a))) (l : List α) : ∀ {ts : List Str},
    (∀ a ∈ l, ok a = true) → (l.map g).map rawText = ts.map .ok →
      Texts (fun a => (f a).string) l ts := by
  induction l with
  | nil => intro ts _ h; cases ts with
    | nil => rfl
    | cons _ _ => cases h
  | cons a l ih =>
    intro ts hok h
    cases ts with
    | nil => cases h
    | cons t ts =>
      simp only [List.map_cons, List.cons.injEq] at h
      have := ih (fun b hb => hok b (List.mem_cons_of_mem _ hb)) h.2
      simp only [Texts, List.map_cons, List.cons.injEq]
      exact ⟨(string_denotes (hd a) t).2 ⟨hok a List.mem_cons_self, h.1⟩, this⟩

/-- The text of a comma-separated list. -/
theorem commaSep_texts {α : Type} {f : α → W} {g : α → List Piece} {ok : α → Bool}
    (hd : ∀ a, Denotes (f a) (ok a) (evs (g a))) {l : List α} (hok : ∀ a ∈ l, ok a = true) {t : Str}
    (h : rawText (commaSep (l.map g)) = .ok t) :
    ∃ ts, Texts (fun a => (f a).string) l ts ∧ t = commaText ts := by
  obtain ⟨ts, h1, rfl⟩ := (rawText_commaSep _ _).1 h
  exact ⟨ts, texts_of hd l hok h1, rfl⟩

theorem selExprsL_map (l : List SelExpr) : selExprsL l = l.map selExprL := by
  induction l with
  | nil => rfl
  | cons e l ih => rw [selExprsL, ih, List.map_cons]

theorem withsL_map (l : List WithQuery) : withsL l = l.map withL := by
  induction l with
  | nil => rfl
  | cons e l ih => rw [withsL, ih, List.map_cons]

theorem joinsL_map (l : List Join) : joinsL l = l.map (fun j => some (joinL j)) := by
  induction l with
  | nil => rfl
  | cons e l ih => rw [joinsL, ih, List.map_cons]

theorem okSels_all (l : List SelExpr) : okSels l = true ↔ ∀ e ∈ l, okSel e = true := by
  induction l with
  | nil => simp [okSels]
  | cons e l ih => simp [okSels, ih]

theorem denotes_join (j : Join) : Denotes j.write (okE j.cond) (evs (joinL j)) := by
  obtain ⟨type, table, cond⟩ := j
  have h := denotes_joins [⟨type, table, cond⟩]
  have hc := denotes_expr cond
  rw [Join.write, joinL]
  refine ((Denotes.text type).seq ((Denotes.text s%" ").seq ((denotes_table table).seq
    ((Denotes.text s%" ").seq ((Denotes.text Token.On).seq ((Denotes.text s%" ").seq hc)))))).congr ?_ ?_
  · simp
  · simp [evs, Piece.evs, chs, Token.On]

theorem joins_texts {l : List Join} {xs : List (Option Str)} (hok : ∀ j ∈ l, okE j.cond = true)
    (h : AllText (joinsL l) xs) :
    ∃ ts, Texts (fun j : Join => j.write.string) l ts ∧ xs = ts.map some := by
  rw [joinsL_map] at h
  induction l generalizing xs with
  | nil => rw [allText_nil h]; exact ⟨[], rfl, rfl⟩
  | cons j l ih =>
    obtain ⟨y, ys, rfl, h1, h2⟩ := allText_cons h
    obtain ⟨x, hx, rfl⟩ := clauseText_some h1
    obtain ⟨ts, h3, rfl⟩ := ih (fun j hj => hok j (List.mem_cons_of_mem _ hj)) h2
    refine ⟨x :: ts, ?_, rfl⟩
    simp only [Texts, List.map_cons, List.cons.injEq]
    exact ⟨(string_denotes (denotes_join j) x).2 ⟨hok j List.mem_cons_self, hx⟩, h3⟩

end

end Verif
