import Verif.Lemmas.ScanText
import Verif.Spec.Slice

/-!
# Reading the text of a slice
-/

namespace Verif
open Spec

theorem splitBlanks_ne_nil (t : Str) : splitBlanks t ≠ [] := by
  cases t with
  | nil => exact nofun
  | cons c t =>
    rw [splitBlanks]
    split
    · exact nofun
    · split <;> exact nofun

theorem splitBlanks_word {p : Str} (h : ' ' ∉ p) : splitBlanks p = [p] := by
  induction p with
  | nil => rfl
  | cons c p ih =>
    simp only [List.mem_cons, not_or] at h
    rw [splitBlanks, if_neg (Ne.symm h.1), ih h.2]

theorem splitBlanks_blank {p : Str} (h : ' ' ∉ p) (t : Str) :
    splitBlanks (p ++ ' ' :: t) = p :: splitBlanks t := by
  induction p with
  | nil => rfl
  | cons c p ih =>
    simp only [List.mem_cons, not_or] at h
    rw [List.cons_append, splitBlanks, if_neg (Ne.symm h.1), ih h.2]

theorem splitBlanks_join {l : List Str} (hne : l ≠ []) (h : ∀ p ∈ l, ' ' ∉ p) :
    splitBlanks (joinWith s%" " l) = l := by
  induction l with
  | nil => exact absurd rfl hne
  | cons p l ih =>
    have hp := h p List.mem_cons_self
    cases l with
    | nil => exact splitBlanks_word hp
    | cons q l =>
      rw [joinWith, List.append_assoc, show s%" " ++ joinWith s%" " (q :: l) =
        ' ' :: joinWith s%" " (q :: l) from rfl, splitBlanks_blank hp,
        ih nofun fun x hx => h x (List.mem_cons_of_mem _ hx)]

theorem readItems_bracketed (t : Str) :
    readItems (s%"[" ++ t ++ s%"]") = some (if t = [] then [] else splitBlanks t) := by
  simp [readItems]

theorem joinWith_eq_nil {l : List Str} (h : ∀ p ∈ l, p ≠ []) : joinWith s%" " l = [] ↔ l = [] := by
  cases l with
  | nil => simp [joinWith]
  | cons p l =>
    have hp := h p List.mem_cons_self
    cases l with
    | nil => simpa [joinWith] using hp
    | cons q l => simp [joinWith]

theorem readItems_join {l : List Str} (h : ∀ p ∈ l, p ≠ [] ∧ ' ' ∉ p) :
    readItems (s%"[" ++ joinWith s%" " l ++ s%"]") = some l := by
  rw [readItems_bracketed]
  congr 1
  by_cases hl : l = []
  · subst hl; rfl
  · rw [if_neg fun e => hl ((joinWith_eq_nil fun p hp => (h p hp).1).1 e),
      splitBlanks_join hl fun p hp => (h p hp).2]

theorem splitBlanks_no_blank (t : Str) : ∀ p ∈ splitBlanks t, ' ' ∉ p := by
  induction t with
  | nil => simp [splitBlanks]
  | cons c t ih =>
    rw [splitBlanks]
    split
    · intro p hp
      rcases List.mem_cons.1 hp with rfl | hp
      · simp
      · exact ih p hp
    · next hc =>
      split
      · simp [Ne.symm hc]
      · next q qs hq =>
        rw [hq] at ih
        intro p hp
        rcases List.mem_cons.1 hp with rfl | hp
        · simp [Ne.symm hc, ih q List.mem_cons_self]
        · exact ih p (List.mem_cons_of_mem _ hp)

/-- The elements are read from the text exactly if none contains a space and the slice is not one of a
single empty element. -/
theorem readItems_exact (l : List Str) :
    readItems (s%"[" ++ joinWith s%" " l ++ s%"]") = some l ↔ (∀ p ∈ l, ' ' ∉ p) ∧ l ≠ [[]] := by
  rw [readItems_bracketed, Option.some.injEq]
  constructor
  · intro h
    refine ⟨?_, ?_⟩
    · split at h
      · subst h; simp
      · rw [← h]; exact splitBlanks_no_blank _
    · rintro rfl
      simp [joinWith] at h
  · rintro ⟨h1, h2⟩
    by_cases hl : l = []
    · subst hl; rfl
    · rw [if_neg ?_, splitBlanks_join hl h1]
      match l, hl, h2 with
      | [p], _, h2 => simpa [joinWith] using h2
      | _ :: _ :: _, _, _ => simp [joinWith]

theorem formatInt_word (n : Int) : formatInt n ≠ [] ∧ ' ' ∉ formatInt n := by
  cases n with
  | ofNat m =>
    exact ⟨formatNat_ne_nil m, fun h => absurd (digit_of_mem_formatNat h) (by decide)⟩
  | negSucc m =>
    refine ⟨nofun, fun h => ?_⟩
    rcases List.mem_cons.1 h with h | h
    · exact absurd h (by decide)
    · exact absurd (digit_of_mem_formatNat h) (by decide)

theorem readInts_formatInt (ns : List Int) : readInts (ns.map formatInt) = some ns := by
  induction ns with
  | nil => rfl
  | cons n ns ih => simp [readInts, readInt_formatInt, ih]

/-- The converse of `closed_bracketed`. -/
theorem closed_of_bracketed {b : Bool} {t : Str} (h : SelfContained b (s%"[" ++ t ++ s%"]")) :
    SelfContained b t := by
  unfold SelfContained ClosedWith at *
  rw [List.append_assoc, scan_append, show scan b .init s%"[" = Scan.init from rfl,
    scan_append] at h
  generalize scan b .init t = s at *
  obtain ⟨m, d, f⟩ := s
  cases m with
  | free => exact h
  | word => exact h
  | dash => exact h
  | slash => exact h
  | dollar ds =>
    simp only [scan, List.foldl, Scan.step, show Spec.isDigit ']' = false from rfl,
      show wordStart ']' = false from rfl] at h
    by_cases hd : ds = []
    · simp [hd, Scan.settle] at h
    · simp [hd, Scan.start, Scan.settle, show wordStart ']' = false from rfl] at h
  | name => simp [scan, Scan.step, Scan.settle] at h
  | literal => cases b <;> simp [scan, Scan.step, Scan.settle] at h
  | escape => simp [scan, Scan.step, Scan.settle] at h
  | comment => simp [scan, Scan.step, Scan.settle] at h
  | bad => simp [scan, Scan.step, Scan.settle] at h

end Verif
