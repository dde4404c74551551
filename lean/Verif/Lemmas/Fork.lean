import Verif.Lemmas.HeapSelect
import Verif.Spec.Fork

/-!
# What `append` does to slices of the same array
-/

namespace Verif

variable {α : Type}

/-- Writing `xs` over the cells from position `m` on leaves the first `n` cells as they are if and
only if what they held there is the same. -/
theorem overwrite_take (c xs : List α) (m n : Nat) (hm : m ≤ c.length) (hn : n ≤ c.length) :
    (c.take m ++ xs ++ c.drop (m + xs.length)).take n = c.take n ↔
      (m < n → ((c.take n).drop m).take xs.length = xs.take (n - m)) := by
  by_cases h : m < n
  · simp only [h, true_implies]
    obtain ⟨d, rfl⟩ : ∃ d, n = m + d := ⟨n - m, by omega⟩
    have h1 : (c.take m ++ xs ++ c.drop (m + xs.length)).take (m + d) =
        c.take m ++ (xs ++ c.drop (m + xs.length)).take d := by
      rw [List.append_assoc, List.take_append, List.length_take, Nat.min_eq_left hm,
        List.take_of_length_le (by rw [List.length_take]; omega)]
      congr 2
      omega
    have h2 : (c.take (m + d)).drop m = (c.drop m).take d := by
      rw [List.drop_take]; congr 1; omega
    rw [h1, h2, List.take_add, List.append_cancel_left_eq]
    rw [show m + d - m = d by omega, List.take_take]
    by_cases hk : xs.length ≤ d
    · obtain ⟨e, rfl⟩ : ∃ e, d = xs.length + e := ⟨d - xs.length, by omega⟩
      rw [List.take_append, Nat.min_eq_left (by omega), List.take_of_length_le (l := xs) (by omega),
        List.take_add, List.drop_drop, show xs.length + e - xs.length = e by omega,
        List.append_cancel_right_eq]
      exact eq_comm
    · rw [Nat.min_eq_right (by omega), List.take_append_of_le_length (by omega)]
      exact eq_comm
  · simp only [h, false_implies, iff_true]
    rw [List.append_assoc, List.take_append_of_le_length (by rw [List.length_take]; omega),
      List.take_take, Nat.min_eq_left (by omega)]

namespace Store

/-- `append`, for any slices. -/
theorem append_any (g : Growth) {st : Store α} {s : Slice} {xs : List α} (hv : s.Valid st) :
    (st.append g s xs).1.read (st.append g s xs).2 = st.read s ++ xs ∧
    (st.append g s xs).2.Valid (st.append g s xs).1 ∧
    ∀ t : Slice, t.Valid st → t.Valid (st.append g s xs).1 ∧
      ((st.append g s xs).1.read t ≠ st.read t ↔ st.Clobbers s xs t) := by
  by_cases hx : xs = []
  · subst hx
    rw [append_nil]
    refine ⟨by simp, hv, fun t ht => ⟨ht, ?_⟩⟩
    simp [Clobbers]
  have hxe : xs.isEmpty = false := by cases xs with
    | nil => exact absurd rfl hx
    | cons => rfl
  rcases hv with ⟨ha, hl⟩ | ⟨a, x, ha, hax, h1, h2⟩
  · have he : st.append g s xs =
        (st ++ [⟨xs, g.cap st.length 0 xs.length⟩], ⟨some st.length, xs.length⟩) := by
      unfold append
      rw [hxe, ha]
      rfl
    rw [he]
    refine ⟨?_, .inr ⟨_, _, rfl, get_last, Nat.le_refl _, g.enough _ _ _⟩,
      fun t ht => ⟨(snoc_other ht).2.1, ?_⟩⟩
    · rw [read_some rfl get_last, read_none ha]; simp
    · rw [(snoc_other ht).1]
      refine iff_of_false (fun h => h rfl) ?_
      rintro ⟨-, -, h, -⟩
      have : st.cap s = 0 := by unfold cap; rw [ha]
      rw [this] at h
      have : xs.length ≠ 0 := by simpa using hx
      omega
  · by_cases hc : s.len + xs.length ≤ st.cap s
    · have he : st.append g s xs = (st.write a s.len xs, ⟨some a, s.len + xs.length⟩) := by
        unfold append
        rw [hxe, ha]
        simp only [if_pos hc]
        rfl
      have hc' := hc
      rw [cap_some ha hax] at hc
      have hw : (st.write a s.len xs)[a]? = some { x with
          cells := x.cells.take s.len ++ xs ++ x.cells.drop (s.len + xs.length) } := by
        rw [get_write hax, if_pos rfl]
      have hl : (x.cells.take s.len).length = s.len := by rw [List.length_take]; omega
      have hbound : (x.cells.take s.len ++ xs ++ x.cells.drop (s.len + xs.length)).length ≤ x.cap := by
        simp only [List.length_append, hl, List.length_drop]
        omega
      rw [he]
      refine ⟨?_, .inr ⟨_, _, rfl, hw, ?_, hbound⟩, fun t ht => ?_⟩
      · rw [read_some (s := ⟨some a, s.len + xs.length⟩) rfl hw, read_some ha hax]
        simp only
        rw [List.take_append_of_le_length (by simp only [List.length_append, hl]; omega),
          List.take_of_length_le (by simp only [List.length_append, hl]; omega)]
      · simp only [List.length_append, hl]; omega
      · rcases ht with ⟨hta, htl⟩ | ⟨b, z, hta, hz, h3, h4⟩
        · refine ⟨.inl ⟨hta, htl⟩, iff_of_false ?_ ?_⟩
          · rw [read_none hta, read_none hta]; exact fun h => h rfl
          · rintro ⟨h, -⟩; rw [ha, hta] at h; cases h
        · by_cases hab : a = b
          · subst hab
            rw [hax] at hz; cases hz
            refine ⟨.inr ⟨_, _, hta, hw, ?_, hbound⟩, ?_⟩
            · simp only [List.length_append, hl, List.length_drop]; omega
            · rw [read_some hta hw, read_some hta hax]
              rw [Ne, overwrite_take _ _ _ _ h1 h3]
              unfold Clobbers
              rw [ha, hta, read_some hta hax]
              simp only [Classical.not_imp, true_and, hc']
          · have hb : (st.write a s.len xs)[b]? = some z := by rw [get_write hz, if_neg hab]
            refine ⟨.inr ⟨_, _, hta, hb, h3, h4⟩, iff_of_false ?_ ?_⟩
            · rw [read_some hta hb, read_some hta hz]; exact fun h => h rfl
            · rintro ⟨h, -⟩; rw [ha, hta] at h; cases h; exact hab rfl
    · have he : st.append g s xs =
          (st ++ [⟨st.read s ++ xs, g.cap st.length (st.cap s) (s.len + xs.length)⟩],
            ⟨some st.length, s.len + xs.length⟩) := by
        unfold append
        rw [hxe, ha]
        simp only [if_neg hc]
        rfl
      have hl : (st.read s ++ xs).length = s.len + xs.length := by
        rw [read_some ha hax, List.length_append, List.length_take]; omega
      rw [he]
      refine ⟨?_, .inr ⟨_, _, rfl, get_last, ?_, ?_⟩, fun t ht => ⟨(snoc_other ht).2.1, ?_⟩⟩
      · rw [read_some rfl get_last]
        exact List.take_of_length_le (by rw [hl]; exact Nat.le_refl _)
      · exact hl ▸ Nat.le_refl _
      · rw [hl]; exact g.enough _ _ _
      · rw [(snoc_other ht).1]
        refine iff_of_false (fun h => h rfl) ?_
        rintro ⟨-, -, h, -⟩
        exact hc h

/-- A new array. -/
theorem alloc_any {st : Store α} {xs : List α} :
    (st.alloc xs).1.read (st.alloc xs).2 = xs ∧ (st.alloc xs).2.Valid (st.alloc xs).1 ∧
    ∀ t : Slice, t.Valid st → t.Valid (st.alloc xs).1 ∧ (st.alloc xs).1.read t = st.read t := by
  unfold alloc
  refine ⟨?_, .inr ⟨_, _, rfl, get_last, Nat.le_refl _, Nat.le_refl _⟩,
    fun t ht => ⟨(snoc_other ht).2.1, (snoc_other ht).1⟩⟩
  rw [read_some rfl get_last]; simp

end Store
end Verif
