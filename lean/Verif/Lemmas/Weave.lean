import Verif.Lemmas.Embed
import Verif.Lemmas.Substitute
import Verif.Spec.Weave

/-!
# Rendering as weaving fragments and placeholders
-/

set_option linter.unusedSectionVars false

namespace Verif
open Spec

/-- The placeholders shown for a list of arguments. -/
def holes (ph : Nat → Val → Str) : Nat → List Val → List Str
  | _, [] => []
  | k, v :: l => ph k v :: holes ph (k + 1) l

theorem holes_length (ph : Nat → Val → Str) (k : Nat) (l : List Val) :
    (holes ph k l).length = l.length := by
  induction l generalizing k with
  | nil => rfl
  | cons v l ih => simp [holes, ih]

theorem holes_dollar (k : Nat) (l : List Val) : holes dollar k l = dollars k l.length := by
  induction l generalizing k with
  | nil => rfl
  | cons v l ih =>
    rw [holes, ih, List.length_cons, dollars, dollars, List.range'_succ, List.map_cons]; rfl

theorem holes_colon (k : Nat) (l : List Val) : holes colon k l = colons k l.length := by
  induction l generalizing k with
  | nil => rfl
  | cons v l ih =>
    rw [holes, ih, List.length_cons, colons, colons, List.range'_succ, List.map_cons]; rfl

theorem namedFrom_eq (k : Nat) (l : List Val) :
    namedFrom k l = ((List.range' k l.length).map fun i => s%"arg_" ++ numeral i).zip l := by
  induction l generalizing k with
  | nil => rfl
  | cons v l ih =>
    rw [namedFrom, ih, List.length_cons, List.range'_succ, List.map_cons, List.zip_cons_cons]; rfl

theorem namedMap_eq (l : List Val) : namedMap l = Spec.namedArgs l := by
  unfold namedMap Spec.namedArgs argNames
  rw [namedFrom_eq]

section
variable [GoRuntime]

theorem prepend_length (t : Str) (l : List Str) (h : l ≠ []) : (prepend t l).length = l.length := by
  cases l with
  | nil => exact absurd rfl h
  | cons f fs => rfl

theorem prepend_ne_nil (t : Str) (l : List Str) : prepend t l ≠ [] := by
  cases l <;> simp [prepend]

theorem fragments_ne_nil (l : List Piece) : fragments l ≠ [] := by
  cases l with
  | nil => simp [fragments]
  | cons p l =>
    cases p with
    | val v => cases v <;> simp [fragments, prepend_ne_nil]
    | _ => simp [fragments, prepend_ne_nil]

theorem fragments_length (l : List Piece) : (fragments l).length = (arguments l).length + 1 := by
  induction l with
  | nil => rfl
  | cons p l ih =>
    have h := fragments_ne_nil l
    cases p with
    | val v => cases v <;> simp [fragments, arguments, prepend_length, h, ih]
    | _ => simp [fragments, arguments, prepend_length, h, ih]

theorem weave_prepend (t : Str) (fs hs : List Str) (h : fs ≠ []) :
    weave (prepend t fs) hs = t ++ weave fs hs := by
  cases fs with
  | nil => exact absurd rfl h
  | cons f fs => cases hs <;> simp [prepend, weave]

theorem render_weave (ph : Nat → Val → Str) (k : Nat) (l : List Piece) :
    render ph k l = weave (fragments l) (holes ph k (arguments l)) := by
  induction l generalizing k with
  | nil => rfl
  | cons p l ih =>
    have h := fragments_ne_nil l
    cases p with
    | val v =>
      cases v
      case nil => simp only [render, fragments, arguments, weave_prepend _ _ _ h, ih]
      all_goals simp only [render, fragments, arguments, holes, weave, ih, List.nil_append]
    | _ => simp only [render, fragments, arguments, weave_prepend _ _ _ h, ih]

/-! ## Whole statements -/

theorem query_ok {s : Stmt} {r : Str × List Val} (h : s.write.query = .ok r) :
    okStmt s = true ∧ r = (render dollar 1 (layout s), arguments (layout s)) := by
  cases hok : okStmt s with
  | true => rw [query_eq s hok] at h; exact ⟨rfl, by cases h; rfl⟩
  | false =>
    obtain ⟨p, hp, _⟩ := panics s hok
    rw [hp] at h; cases h

theorem namedQuery_ok {s : Stmt} {r : Str × Option (List (Str × Val))}
    (h : s.write.namedQuery = .ok r) :
    okStmt s = true ∧ r = (render colon 1 (layout s), namedMap (arguments (layout s))) := by
  cases hok : okStmt s with
  | true => rw [namedQuery_eq s hok] at h; exact ⟨rfl, by cases h; rfl⟩
  | false =>
    obtain ⟨p, _, hp, _⟩ := panics s hok
    rw [hp] at h; cases h

theorem holes_literal {k : Nat} {vs : List Val} {lits : List Str}
    (h : vs.map formatValue = lits.map .ok) : holes literal k vs = lits := by
  induction vs generalizing k lits with
  | nil => cases lits <;> simp_all [holes]
  | cons v vs ih =>
    cases lits with
    | nil => simp at h
    | cons t lits =>
      simp only [List.map_cons, List.cons.injEq] at h
      rw [holes, ih h.2, literal, h.1]

/-- Either all values can be formatted, or one cannot. -/
theorem formatAll (vs : List Val) :
    (∃ lits : List Str, vs.map formatValue = lits.map .ok) ∨ ∃ v ∈ vs, ∃ p, formatValue v = .error p := by
  induction vs with
  | nil => exact .inl ⟨[], rfl⟩
  | cons v vs ih =>
    cases hv : formatValue v with
    | error p => exact .inr ⟨v, by simp, p, hv⟩
    | ok t =>
      rcases ih with ⟨lits, h⟩ | ⟨w, hw, p, hp⟩
      · exact .inl ⟨t :: lits, by simp [hv, h]⟩
      · exact .inr ⟨w, by simp [hw], p, hp⟩

end

end Verif
