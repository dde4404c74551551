import Verif.Lemmas.Shared
import Verif.Props.Caller

/-!
# C69, exactly

The theorems of `Props/Caller.lean` are about programs that leave a slice alone once it has been
passed. Here are all programs.
-/

namespace Verif.Props
open Spec

/-! ## GroupBy, DistinctOn, Columns and Returning -/

/-- C69, GROUP BY, exactly, for all programs: a builder that has been given a slice is attached to the
variable, and gets all assignments to its elements, until `append` has to move the variable; and
nothing else changes a builder or a slice (`SharedValues`). -/
theorem C69_groupBy_exact (g : Growth) (ops : List (CallerAct Column)) :
    (CallerWorld.run g groupByTakes ops).values = (SharedValues.run g groupByValue ops).values :=
  shared_run g groupBy_keeps ops

/-- C69, DISTINCT ON, exactly. As for GROUP BY. -/
theorem C69_distinctOn_exact (g : Growth) (ops : List (CallerAct Column)) :
    (CallerWorld.run g distinctOnTakes ops).values =
      (SharedValues.run g distinctOnValue ops).values :=
  shared_run g distinctOn_keeps ops

/-- C69, the columns of INSERT, exactly. As for GROUP BY. -/
theorem C69_insertColumns_exact (g : Growth) (ops : List (CallerAct Column)) :
    (CallerWorld.run g insertColumnsTakes ops).values =
      (SharedValues.run g insertColumnsValue ops).values :=
  shared_run g insertColumns_keeps ops

/-- C69, the columns of SELECT, exactly. As for GROUP BY. -/
theorem C69_selectColumns_exact (g : Growth) (ops : List (CallerAct SelExpr)) :
    (CallerWorld.run g selectColumnsTakes ops).values =
      (SharedValues.run g selectColumnsValue ops).values :=
  shared_run g selectColumns_keeps ops

/-- C69, RETURNING, exactly. As for GROUP BY. -/
theorem C69_returning_exact (g : Growth) (ops : List (CallerAct SelExpr)) :
    (CallerWorld.run g returningTakes ops).values =
      (SharedValues.run g returningValue ops).values :=
  shared_run g returning_keeps ops

/-- The variables do not depend on the builders. -/
private theorem shared_vars {α : Type} (g : Growth) (method : List α → List α → Go (List α))
    (ops : List (CallerAct α)) :
    (SharedValues.run g method ops).values.vars = (CallerValues.run method ops).vars := by
  suffices h : ∀ (w : SharedValues α) (w' : CallerValues α), w.vars.map SharedVar.elems = w'.vars →
      (ops.foldl (SharedValues.step g method) w).vars.map SharedVar.elems =
        (ops.foldl (CallerValues.step method) w').vars from h _ _ rfl
  induction ops with
  | nil => exact fun _ _ h => h
  | cons op l ih =>
    intro w w' h
    refine ih _ _ ?_
    cases op with
    | make xs spare => simp [SharedValues.step, CallerValues.step, h]
    | new => exact h
    | assign v i x =>
      simp only [SharedValues.step, CallerValues.step, ← h, List.getElem?_map]
      cases hv : w.vars[v]? with
      | none => exact h
      | some s =>
        simp only [Option.map_some]
        by_cases hi : i < s.elems.length
        · rw [if_pos hi]; simp [List.map_set]
        · rw [if_neg hi, List.set_eq_of_length_le (l := s.elems) (by omega), set_same]
          rw [List.getElem?_map, hv]; rfl
    | grow v xs =>
      simp only [SharedValues.step, CallerValues.step, ← h, List.getElem?_map]
      cases hv : w.vars[v]? with
      | none => exact h
      | some s =>
        simp only [Option.map_some]
        split <;> simp [List.map_set]
    | give b v =>
      simp only [SharedValues.step, CallerValues.step]
      repeat' split
      all_goals exact h
    | pass b xs =>
      simp only [SharedValues.step, CallerValues.step]
      repeat' split
      all_goals exact h

/-- C69, the half about the slices of the caller: in all programs they are those of the program on
values. No call of `GroupBy`, `DistinctOn`, `Columns` or `Returning`, and nothing that happens to the
builders, changes them. -/
theorem C69_slices (g : Growth) (ops : List (CallerAct Column)) (ops' : List (CallerAct SelExpr)) :
    (CallerWorld.run g groupByTakes ops).values.vars = (CallerValues.run groupByValue ops).vars ∧
    (CallerWorld.run g distinctOnTakes ops).values.vars =
      (CallerValues.run distinctOnValue ops).vars ∧
    (CallerWorld.run g insertColumnsTakes ops).values.vars =
      (CallerValues.run insertColumnsValue ops).vars ∧
    (CallerWorld.run g selectColumnsTakes ops').values.vars =
      (CallerValues.run selectColumnsValue ops').vars ∧
    (CallerWorld.run g returningTakes ops').values.vars =
      (CallerValues.run returningValue ops').vars := by
  rw [C69_groupBy_exact, C69_distinctOn_exact, C69_insertColumns_exact, C69_selectColumns_exact,
    C69_returning_exact]
  exact ⟨shared_vars _ _ _, shared_vars _ _ _, shared_vars _ _ _, shared_vars _ _ _,
    shared_vars _ _ _⟩

/-! ## With and OrderBy -/

private theorem alters_exact {α : Type} (g : Growth) {keep : Bool} {takes : Takes α}
    (hm : AppendsOrKeeps g keep takes) (ops : List (CallerAct α)) (op : CallerAct α) :
    (∀ (k : Nat) (t : Slice), (CallerWorld.run g takes ops).refs[k]? = some t →
      ((CallerWorld.run g takes (ops ++ [op])).values.refs[k]? ≠
          (CallerWorld.run g takes ops).values.refs[k]? ↔
        (CallerWorld.run g takes ops).Alters keep t op)) ∧
    ∀ (v : Nat) (t : Slice), (CallerWorld.run g takes ops).vars[v]? = some t → (∀ xs, op ≠ .grow v xs) →
      ((CallerWorld.run g takes (ops ++ [op])).values.vars[v]? ≠
          (CallerWorld.run g takes ops).values.vars[v]? ↔
        (CallerWorld.run g takes ops).Alters keep t op) := by
  have hval := allValid_run g hm ops
  have hrun : CallerWorld.run g takes (ops ++ [op]) =
      (CallerWorld.run g takes ops).step g takes op := by
    simp only [CallerWorld.run, List.foldl_append, List.foldl_cons, List.foldl_nil]
  rw [hrun]
  constructor
  · intro k t hk
    have h1 := step_refs g takes (CallerWorld.run g takes ops) op hk
    rw [← (alters_step g hm hval op).2 t (hval.2 t (List.mem_of_getElem? hk))]
    simp only [CallerWorld.values, List.getElem?_map, hk, h1, Option.map_some, Ne,
      Option.some.injEq]
  · intro v t hv hop
    have h1 := step_vars g takes (CallerWorld.run g takes ops) op hv hop
    rw [← (alters_step g hm hval op).2 t (hval.1 t (List.mem_of_getElem? hv))]
    simp only [CallerWorld.values, List.getElem?_map, hv, h1, Option.map_some, Ne,
      Option.some.injEq]

/-- C69, WITH, exactly: after any program, a further step changes a builder if and only if it writes
something else over one of its elements (`Alters`): by assigning to an element of a variable that has
its array, or by `append` in place, to a variable or in a call of `With` on a builder that has common
table expressions. The same for variables. -/
theorem C69_with_exact (g : Growth) (ops : List (CallerAct WithQuery)) (op : CallerAct WithQuery) :
    (∀ (k : Nat) (t : Slice), (CallerWorld.run g (withTakes g) ops).refs[k]? = some t →
      ((CallerWorld.run g (withTakes g) (ops ++ [op])).values.refs[k]? ≠
          (CallerWorld.run g (withTakes g) ops).values.refs[k]? ↔
        (CallerWorld.run g (withTakes g) ops).Alters true t op)) ∧
    ∀ (v : Nat) (t : Slice), (CallerWorld.run g (withTakes g) ops).vars[v]? = some t → (∀ xs, op ≠ .grow v xs) →
      ((CallerWorld.run g (withTakes g) (ops ++ [op])).values.vars[v]? ≠
          (CallerWorld.run g (withTakes g) ops).values.vars[v]? ↔
        (CallerWorld.run g (withTakes g) ops).Alters true t op) := by
  refine alters_exact g (fun st b args => ?_) ops op
  unfold withTakes
  by_cases h : st.read b = []
  · simp [h]
  · simp [h]

/-- C69, ORDER BY, exactly, as for WITH. (Builders that are used once: `C69_orderBy`.) -/
theorem C69_orderBy_exact (g : Growth) (ops : List (CallerAct Order)) (op : CallerAct Order) :
    (∀ (k : Nat) (t : Slice), (CallerWorld.run g (orderByTakes g) ops).refs[k]? = some t →
      ((CallerWorld.run g (orderByTakes g) (ops ++ [op])).values.refs[k]? ≠
          (CallerWorld.run g (orderByTakes g) ops).values.refs[k]? ↔
        (CallerWorld.run g (orderByTakes g) ops).Alters false t op)) ∧
    ∀ (v : Nat) (t : Slice), (CallerWorld.run g (orderByTakes g) ops).vars[v]? = some t → (∀ xs, op ≠ .grow v xs) →
      ((CallerWorld.run g (orderByTakes g) (ops ++ [op])).values.vars[v]? ≠
          (CallerWorld.run g (orderByTakes g) ops).values.vars[v]? ↔
        (CallerWorld.run g (orderByTakes g) ops).Alters false t op) := by
  refine alters_exact g (fun st b args => ?_) ops op
  unfold orderByTakes
  simp

/-! ## Programs -/

/-- One slice, two builders; the slice is assigned to, appended to within its capacity and beyond, and
assigned to again. -/
private def attached (a b c d e f : SelExpr) : List (CallerAct SelExpr) :=
  [.make [a] 1, .new, .give 0 0, .assign 0 0 b, .grow 0 [c], .give 0 0, .assign 0 0 d,
    .grow 0 [e], .assign 0 1 f]

/-- The builders are attached at first (with `d`), and not any more at the end (without `f`). -/
private theorem attached_values (g : Growth) (a b c d e f : SelExpr) :
    (SharedValues.run g selectColumnsValue (attached a b c d e f)).values =
      ⟨[[d, f, e]], [[], [d], [d, c]]⟩ := by
  have hm : ∀ l xs, selectColumnsValue l xs = .ok xs := fun _ _ => rfl
  simp [SharedValues.run, SharedValues.step, attached, hm, SharedRef.assign, SharedRef.detach,
    SharedValues.values]

example (g : Growth) (a b c d e f : SelExpr) :
    (CallerWorld.run g selectColumnsTakes (attached a b c d e f)).values =
      ⟨[[d, f, e]], [[], [d], [d, c]]⟩ := by
  rw [C69_selectColumns_exact, attached_values]

/-- A step that changes a builder, as in `C69_append_false`. -/
example (g : Growth) (a b c : WithQuery) (h : b ≠ c) :
    (CallerWorld.run g (withTakes g) [.make [a] 1, .new, .give 0 0, .pass 1 [b]]).Alters true
      ⟨some 0, 2⟩ (.grow 0 [c]) :=
  ⟨⟨some 0, 1⟩, rfl, rfl, by decide, Nat.le_refl 2, fun e => h (List.cons.inj e).1⟩

/-- A step that does not: the slice of the caller is longer by now, and appending to it moves it. -/
example (g : Growth) (a b c : WithQuery) :
    ¬ (CallerWorld.run g (withTakes g) [.make [a] 0, .new, .give 0 0, .pass 1 [b]]).Alters true
      ⟨some 0, 1⟩ (.grow 0 [c]) := by
  rintro ⟨s, hs, h1, h2, -⟩
  cases hs
  exact absurd h2 (Nat.lt_irrefl 1)

end Verif.Props
