import Verif.Lemmas.Fork
import Verif.Lemmas.HeapInsert

/-!
# What the loop of `OnConflict` does to slices of the same array
-/

namespace Verif
open Spec

variable {α : Type}

namespace Store

/-- `append` of one element, cell by cell, for a slice `t` of any array. -/
theorem append_one (g : Growth) {st : Store α} {s : Slice} {x : α} (hv : s.Valid st) {t : Slice}
    (ht : t.Valid st) :
    (∀ m, ((st.append g s [x]).1.read t)[m]? =
      if s.arr = t.arr ∧ m = s.len ∧ m < t.len then some x else (st.read t)[m]?) ∧
    (st.append g s [x]).2.len = s.len + 1 ∧
    ((st.append g s [x]).2.arr = s.arr ∨
      (st.append g s [x]).2.arr ≠ t.arr ∧ (s.arr = t.arr → t.len ≤ s.len)) := by
  rcases hv with ⟨ha, hl⟩ | ⟨a, y, ha, hay, h1, h2⟩
  · have he : st.append g s [x] =
        (st ++ [⟨[x], g.cap st.length 0 1⟩], ⟨some st.length, 1⟩) := by
      unfold append
      rw [ha]
      rfl
    rw [he]
    refine ⟨fun m => ?_, by rw [hl], .inr ⟨fun h => ?_, fun h => ?_⟩⟩
    · rw [(snoc_other ht).1]
      split
      · next hc =>
        rcases ht with ⟨_, h0⟩ | ⟨b, _, hb, _⟩
        · omega
        · rw [ha, hb] at hc; cases hc.1
      · rfl
    · have := valid_lt ht h.symm
      omega
    · rcases ht with ⟨_, h0⟩ | ⟨b, _, hb, _⟩
      · omega
      · rw [ha, hb] at h; cases h
  · by_cases hc : s.len + 1 ≤ st.cap s
    · have he : st.append g s [x] = (st.write a s.len [x], ⟨some a, s.len + 1⟩) := by
        unfold append
        rw [ha]
        simp only [List.length_singleton, if_pos hc]
        rfl
      rw [he]
      refine ⟨fun m => ?_, rfl, .inl ha.symm⟩
      rcases ht with ⟨hta, htl⟩ | ⟨b, z, hta, hz, h3, h4⟩
      · rw [read_none hta, read_none hta, if_neg (by omega)]
      · by_cases hab : a = b
        · subst hab
          rw [hay] at hz; cases hz
          have hw : (st.write a s.len [x])[a]? = some { y with
              cells := y.cells.take s.len ++ [x] ++ y.cells.drop (s.len + 1) } := by
            rw [get_write hay, if_pos rfl]; rfl
          rw [read_some hta hw, read_some hta hay, ha, hta]
          have hlt : (y.cells.take s.len).length = s.len := by rw [List.length_take]; omega
          simp only [true_and, List.getElem?_take]
          by_cases hm : m < t.len
          · simp only [hm, and_true, if_true]
            split
            · next h =>
              subst h
              rw [List.append_assoc, List.getElem?_append_right (by omega), hlt]
              simp
            · next h =>
              by_cases hlt' : m < s.len
              · rw [List.append_assoc, List.getElem?_append_left (by omega), List.getElem?_take,
                  if_pos hlt']
              · rw [List.getElem?_append_right (by simp [hlt]; omega)]
                simp only [List.length_append, hlt, List.length_singleton, List.getElem?_drop]
                congr 1
                omega
          · simp [hm]
        · have hb : (st.write a s.len [x])[b]? = some z := by rw [get_write hz, if_neg hab]
          rw [read_some hta hb, read_some hta hz, if_neg]
          rintro ⟨h, -⟩
          rw [ha, hta] at h; cases h; exact hab rfl
    · have he : st.append g s [x] =
          (st ++ [⟨st.read s ++ [x], g.cap st.length (st.cap s) (s.len + 1)⟩],
            ⟨some st.length, s.len + 1⟩) := by
        unfold append
        rw [ha]
        simp only [List.length_singleton, if_neg hc]
        rfl
      have hle : s.arr = t.arr → t.len ≤ s.len := by
        intro h
        rw [cap_some ha hay] at hc
        rcases ht with ⟨hta, _⟩ | ⟨b, z, hta, hz, h3, h4⟩
        · rw [ha, hta] at h; cases h
        · rw [ha, hta] at h; cases h
          rw [hay] at hz; cases hz
          omega
      rw [he]
      refine ⟨fun m => ?_, rfl, .inr ⟨fun h => ?_, hle⟩⟩
      · rw [(snoc_other ht).1, if_neg]
        rintro ⟨h5, h6, h7⟩
        have := hle h5
        omega
      · have := valid_lt ht h.symm
        omega

end Store

/-- The loop, cell by cell: the named columns are written over the cells that follow the slice. -/
theorem conflictLoop_read (g : Growth) (args : List Any) : ∀ (h : InsHeap) (r : InsRef),
    r.target.Valid h.targets → ∀ t : Slice, t.Valid h.targets →
    t.Valid (r.conflictLoop g h args).1.targets ∧
    ∀ m, ((r.conflictLoop g h args).1.targets.read t)[m]? =
      if r.target.arr = t.arr ∧ r.target.len ≤ m ∧ m < t.len ∧
          m < r.target.len + (namedTargets args).length then
        (namedTargets args)[m - r.target.len]?
      else (h.targets.read t)[m]? := by
  induction args with
  | nil =>
    intro h r hv t ht
    refine ⟨ht, fun m => ?_⟩
    rw [if_neg (by simp [namedTargets]; omega)]
    rfl
  | cons a l ih =>
    intro h r hv t ht
    have stop : (r.conflictLoop g h (a :: l)).1.targets = h.targets → namedTargets (a :: l) = [] →
        t.Valid (r.conflictLoop g h (a :: l)).1.targets ∧
        ∀ m, ((r.conflictLoop g h (a :: l)).1.targets.read t)[m]? =
          if r.target.arr = t.arr ∧ r.target.len ≤ m ∧ m < t.len ∧
              m < r.target.len + (namedTargets (a :: l)).length then
            (namedTargets (a :: l))[m - r.target.len]?
          else (h.targets.read t)[m]? := by
      intro h1 h2
      rw [h1, h2]
      exact ⟨ht, fun m => by rw [if_neg (by simp; omega)]⟩
    have go : ∀ c, r.conflictLoop g h (a :: l) =
          InsRef.conflictLoop g { h with targets := (h.targets.append g r.target [c]).1 }
            { r with target := (h.targets.append g r.target [c]).2 } l →
        namedTargets (a :: l) = c :: namedTargets l →
        t.Valid (r.conflictLoop g h (a :: l)).1.targets ∧
        ∀ m, ((r.conflictLoop g h (a :: l)).1.targets.read t)[m]? =
          if r.target.arr = t.arr ∧ r.target.len ≤ m ∧ m < t.len ∧
              m < r.target.len + (namedTargets (a :: l)).length then
            (namedTargets (a :: l))[m - r.target.len]?
          else (h.targets.read t)[m]? := by
      intro c h1 h2
      rw [h1, h2]
      obtain ⟨-, v1, v2⟩ := Store.append_any g (xs := [c]) hv
      obtain ⟨a1, a2, a3⟩ := Store.append_one g (x := c) hv ht
      obtain ⟨i1, i2⟩ := ih { h with targets := (h.targets.append g r.target [c]).1 }
        { r with target := (h.targets.append g r.target [c]).2 } v1 t (v2 t ht).1
      refine ⟨i1, fun m => ?_⟩
      rw [i2 m, a2, a1 m]
      simp only [List.length_cons]
      rcases a3 with a3 | ⟨a3, a4⟩
      · rw [a3]
        by_cases hs : r.target.arr = t.arr
        · simp only [hs, true_and]
          by_cases hm : m = r.target.len
          · subst hm
            rw [if_neg (by omega)]
            by_cases ht : r.target.len < t.len
            · rw [if_pos ⟨rfl, ht⟩, if_pos (by omega)]; simp
            · rw [if_neg (by omega), if_neg (by omega)]
          · rw [if_neg (c := m = r.target.len ∧ m < t.len) (by omega)]
            by_cases hc : r.target.len + 1 ≤ m ∧ m < t.len ∧
                m < r.target.len + 1 + (namedTargets l).length
            · rw [if_pos hc, if_pos (by omega)]
              obtain ⟨d, rfl⟩ : ∃ d, m = r.target.len + 1 + d := ⟨m - (r.target.len + 1), by omega⟩
              rw [show r.target.len + 1 + d - (r.target.len + 1) = d by omega,
                show r.target.len + 1 + d - r.target.len = d + 1 by omega]
              rfl
            · rw [if_neg hc, if_neg (by omega)]
        · simp only [hs, false_and, if_false]
      · simp only [a3, false_and, if_false]
        rw [if_neg, if_neg]
        · rintro ⟨h5, h6, h7, -⟩
          have := a4 h5
          omega
        · rintro ⟨h5, h6, h7⟩
          have := a4 h5
          omega
    cases a with
    | conflictUpdate set =>
      refine stop ?_ rfl
      simp only [InsRef.conflictLoop]
      split <;> rfl
    | val v =>
      cases v with
      | str s =>
        by_cases hs : trimSpace s = []
        · refine stop ?_ ?_
          · have : toColumn (.val (.str s)) = Go.panic "loukoum: given column is undefined" := by
              simp [toColumn, Column.isEmpty, hs]
            simp only [InsRef.conflictLoop, this]
            rfl
          · simp [namedTargets, hs]
        · refine go { name := trimSpace s } ?_ ?_
          · have : toColumn (.val (.str s)) = .ok { name := trimSpace s } := by
              simp [toColumn, Column.isEmpty, hs]
            simp only [InsRef.conflictLoop, this]
          · simp [namedTargets, hs]
      | _ => exact stop rfl rfl
    | selExpr e =>
      cases e with
      | column c =>
        by_cases hs : c.name = []
        · refine stop ?_ ?_
          · have : toColumn (.selExpr (.column c)) =
                Go.panic "loukoum: given column is undefined" := by
              simp [toColumn, Column.isEmpty, hs]
            simp only [InsRef.conflictLoop, this]
            rfl
          · simp [namedTargets, hs]
        · refine go c ?_ ?_
          · have : toColumn (.selExpr (.column c)) = .ok c := by
              simp [toColumn, Column.isEmpty, hs]
            simp only [InsRef.conflictLoop, this]
          · simp [namedTargets, hs]
      | _ => exact stop rfl rfl
    | _ => exact stop rfl rfl

end Verif
