import Verif.Lemmas.Caller
import Verif.Model.Runtime

/-!
# C69: slices that the caller keeps

A caller has slices of its own, passes them to builders, and goes on using them: assigning to their
elements, appending to them, passing them again. `CallerWorld.run` runs such a program on memory,
with any policy for the capacities that `append` chooses; `CallerValues.run` is what it means if
slices and builders are values, so that a builder has the elements that the slice had when it was
passed.
-/

namespace Verif.Props
open Spec

/-! ## The methods on values -/

/-- `OrderBy` of a SELECT builder, on the list of orders. -/
def orderByValue (l xs : List Order) : Go (List Order) :=
  ({ SelectStmt.zero with orderBy := l }.OrderBy xs).map SelectStmt.orderBy

/-- `With` of a SELECT builder, on the list of common table expressions. -/
def withValue (l xs : List WithQuery) : Go (List WithQuery) :=
  ({ SelectStmt.zero with withs := l }.With xs).map SelectStmt.withs

/-- `GroupBy` of a SELECT builder with a `[]stmt.Column`. -/
def groupByValue (l xs : List Column) : Go (List Column) :=
  ({ SelectStmt.zero with groupBy := l }.GroupBy [.columns xs]).map SelectStmt.groupBy

/-- `DistinctOn` of a SELECT builder with a `[]stmt.Column`. -/
def distinctOnValue (l xs : List Column) : Go (List Column) :=
  ({ SelectStmt.zero with distinctOn := l }.DistinctOn [.columns xs]).map SelectStmt.distinctOn

/-- `Columns` of an INSERT builder with a `[]stmt.Column`. -/
def insertColumnsValue (l xs : List Column) : Go (List Column) :=
  ({ InsertStmt.zero with columns := l }.Columns [.columns xs]).map InsertStmt.columns

/-- `Columns` of a SELECT builder with a `[]stmt.SelectExpression`. -/
def selectColumnsValue (l xs : List SelExpr) : Go (List SelExpr) :=
  ({ SelectStmt.zero with exprs := l }.Columns [.selExprs xs]).map SelectStmt.exprs

/-- `Returning` of a DELETE builder with a `[]stmt.SelectExpression`. -/
def returningValue (l xs : List SelExpr) : Go (List SelExpr) :=
  ({ DeleteStmt.zero with returning := l }.Returning [.selExprs xs]).map DeleteStmt.returning

/-! ## OrderBy copies -/

/-- C69, ORDER BY. Whatever the caller does with the slices it spreads in calls of `OrderBy`, before
or after, all builders and all slices of the caller are those of the program on values: builders do
not notice what happens to the slices, and do not change them. (Builders that are extended twice
disturb each other, see C45.) -/
theorem C69_orderBy (g : Growth) (ops : List (CallerAct Order)) (hu : UsedOnce ops) :
    (CallerWorld.run g (orderByTakes g) ops).values = CallerValues.run orderByValue ops := by
  have hm : orderByValue = fun l xs => .ok (l ++ xs) := rfl
  obtain ⟨sp, de, es, h1, h2⟩ := ownInv_run g (keep := false) (takes := orderByTakes g)
    (fun _ _ _ => .inl rfl) ops ownInv_start (by simp) hu (fun _ h => h.elim) (fun h => by cases h)
  have h3 := h1.vars.reads (h2 rfl fun _ h => h)
  have h4 := h1.reads
  unfold CallerWorld.values CallerValues.run CallerWorld.run
  rw [hm, h3, h4]

/-! ## With keeps the first slice -/

/-- C69, WITH, partial. If the caller does not use a slice any more once it has been spread in a call
of `With`, then all builders are those of the program on values.
Missing: slices that are used later, also those that are only appended to; there the property is
false, see `C69_false` and `C69_append_false`. -/
theorem C69_with_partial (g : Growth) (ops : List (CallerAct WithQuery)) (hu : UsedOnce ops)
    (hh : HandsOver ops) :
    (CallerWorld.run g (withTakes g) ops).values.refs = (CallerValues.run withValue ops).refs := by
  have hm : withValue = fun l xs => .ok (l ++ xs) := by
    funext l xs
    simp only [withValue, SelectStmt.With]
    by_cases hl : l.isEmpty = true
    · rw [if_pos hl, List.isEmpty_iff.1 hl]; rfl
    · rw [if_neg hl]; rfl
  obtain ⟨sp, de, es, h1, _⟩ := ownInv_run g (keep := true) (takes := withTakes g) (by
      intro st b args
      unfold withTakes
      by_cases hl : (st.read b).isEmpty = true
      · rw [if_pos hl]; exact .inr ⟨rfl, List.isEmpty_iff.1 hl, rfl⟩
      · rw [if_neg hl]; exact .inl rfl) ops ownInv_start (by simp) hu (fun _ h => h.elim)
      (fun _ => hh)
  rw [hm]
  exact h1.reads

/-! ## GroupBy, Columns and Returning keep the slice -/

theorem groupBy_keeps : Keeps groupByTakes groupByValue := by
  intro st b args
  simp only [groupByTakes, groupByValue, SelectStmt.GroupBy, keptColumns, toColumns]
  cases (st.read b).isEmpty with
  | false => exact .inl ⟨_, _, rfl, rfl⟩
  | true =>
    cases (st.read args).any Column.isEmpty with
    | true => exact .inl ⟨_, _, rfl, rfl⟩
    | false =>
      cases h : (st.read args).isEmpty with
      | true => exact .inl ⟨_, _, by simp [List.isEmpty_iff.1 h]; rfl, by simp [List.isEmpty_iff.1 h]; rfl⟩
      | false => exact .inr ⟨by simp [h], by simp [h]; rfl⟩

theorem insertColumns_keeps : Keeps insertColumnsTakes insertColumnsValue := by
  intro st b args
  simp only [insertColumnsTakes, insertColumnsValue, InsertStmt.Columns, keptColumns, toColumns]
  cases (st.read b).isEmpty with
  | false => exact .inl ⟨_, _, rfl, rfl⟩
  | true =>
    cases (st.read args).any Column.isEmpty with
    | true => exact .inl ⟨_, _, rfl, rfl⟩
    | false => exact .inr ⟨rfl, rfl⟩

theorem selectColumns_keeps : Keeps selectColumnsTakes selectColumnsValue :=
  fun _ _ _ => .inr ⟨rfl, rfl⟩

theorem returning_keeps : Keeps returningTakes returningValue := by
  intro st b args
  simp only [returningTakes, returningValue, DeleteStmt.Returning, toSelectExpressions]
  cases (st.read b).isEmpty with
  | false => exact .inl ⟨_, _, rfl, rfl⟩
  | true => exact .inr ⟨rfl, rfl⟩

theorem distinctOn_keeps : Keeps distinctOnTakes distinctOnValue := by
  intro st b args
  simp only [distinctOnTakes, distinctOnValue, SelectStmt.DistinctOn, keptColumns, toColumns]
  cases (st.read args).any Column.isEmpty with
  | true => exact .inl ⟨_, _, rfl, rfl⟩
  | false =>
    cases h : (st.read args).isEmpty with
    | true => exact .inl ⟨_, _, by simp [List.isEmpty_iff.1 h]; rfl, by simp [List.isEmpty_iff.1 h]; rfl⟩
    | false => exact .inr ⟨by simp [h], by simp [h]; rfl⟩

/-- C69, GROUP BY, partial. If the caller does not assign to the elements of a slice once it has been
passed to `GroupBy`, all builders and all slices of the caller are those of the program on values;
the slice may be appended to and passed to several builders.
Missing: slices whose elements are assigned to; there the property is false, see
`C69_groupBy_false`. -/
theorem C69_groupBy_partial (g : Growth) (ops : List (CallerAct Column))
    (hr : ReadOnlyOnceGiven ops) :
    (CallerWorld.run g groupByTakes ops).values = CallerValues.run groupByValue ops := by
  obtain ⟨gi, h⟩ := keepInv_run g groupBy_keeps ops keepInv_start (fun _ h => h.elim) hr
  exact congr (congrArg CallerValues.mk (h.vars.reads fun _ h => h)) h.ideals.symm

/-- C69, DISTINCT ON, partial. As for GROUP BY. -/
theorem C69_distinctOn_partial (g : Growth) (ops : List (CallerAct Column))
    (hr : ReadOnlyOnceGiven ops) :
    (CallerWorld.run g distinctOnTakes ops).values = CallerValues.run distinctOnValue ops := by
  obtain ⟨gi, h⟩ := keepInv_run g distinctOn_keeps ops keepInv_start (fun _ h => h.elim) hr
  exact congr (congrArg CallerValues.mk (h.vars.reads fun _ h => h)) h.ideals.symm

/-- C69, the columns of INSERT, partial. As for GROUP BY. -/
theorem C69_insertColumns_partial (g : Growth) (ops : List (CallerAct Column))
    (hr : ReadOnlyOnceGiven ops) :
    (CallerWorld.run g insertColumnsTakes ops).values =
      CallerValues.run insertColumnsValue ops := by
  obtain ⟨gi, h⟩ := keepInv_run g insertColumns_keeps ops keepInv_start (fun _ h => h.elim) hr
  exact congr (congrArg CallerValues.mk (h.vars.reads fun _ h => h)) h.ideals.symm

/-- C69, the columns of SELECT, partial. As for GROUP BY. -/
theorem C69_selectColumns_partial (g : Growth) (ops : List (CallerAct SelExpr))
    (hr : ReadOnlyOnceGiven ops) :
    (CallerWorld.run g selectColumnsTakes ops).values =
      CallerValues.run selectColumnsValue ops := by
  obtain ⟨gi, h⟩ := keepInv_run g selectColumns_keeps ops keepInv_start (fun _ h => h.elim) hr
  exact congr (congrArg CallerValues.mk (h.vars.reads fun _ h => h)) h.ideals.symm

/-- C69, RETURNING, partial. As for GROUP BY. -/
theorem C69_returning_partial (g : Growth) (ops : List (CallerAct SelExpr))
    (hr : ReadOnlyOnceGiven ops) :
    (CallerWorld.run g returningTakes ops).values = CallerValues.run returningValue ops := by
  obtain ⟨gi, h⟩ := keepInv_run g returning_keeps ops keepInv_start (fun _ h => h.elim) hr
  exact congr (congrArg CallerValues.mk (h.vars.reads fun _ h => h)) h.ideals.symm

/-! ## What goes wrong -/

/-- C69 is false for WITH: assigning to an element of a slice that has been spread in `With` replaces
the common table expression of the builder. -/
theorem C69_false (g : Growth) (a b : WithQuery) :
    (CallerWorld.run g (withTakes g) [.make [a] 0, .new, .give 0 0]).values.refs[1]? =
      some [a] ∧
    (CallerWorld.run g (withTakes g) [.make [a] 0, .new, .give 0 0,
      .assign 0 0 b]).values.refs[1]? = some [b] := ⟨rfl, rfl⟩

/-- C69 is false for WITH even if the caller only appends: the caller and the builder both append to
the same array, and what the caller adds replaces what `With` has added. -/
theorem C69_append_false (g : Growth) (a b c : WithQuery) :
    (CallerWorld.run g (withTakes g) [.make [a] 1, .new, .give 0 0,
      .pass 1 [b]]).values.refs[2]? = some [a, b] ∧
    (CallerWorld.run g (withTakes g) [.make [a] 1, .new, .give 0 0, .pass 1 [b],
      .grow 0 [c]]).values.refs[2]? = some [a, c] := ⟨rfl, rfl⟩

/-- In the other direction: a call of `With` changes a slice of the caller. -/
theorem C69_caller_false (g : Growth) (a b c : WithQuery) :
    (CallerWorld.run g (withTakes g) [.make [a] 1, .new, .give 0 0,
      .grow 0 [c]]).values.vars[0]? = some [a, c] ∧
    (CallerWorld.run g (withTakes g) [.make [a] 1, .new, .give 0 0, .grow 0 [c],
      .pass 1 [b]]).values.vars[0]? = some [a, b] := ⟨rfl, rfl⟩

section
attribute [local instance] Runtime.sample

/-- `SELECT "n" FROM "t"` with these columns in GROUP BY. -/
private def grouped (l : List Column) : SelectStmt :=
  { SelectStmt.zero with
    exprs := [.column { name := s%"n" }], tables := [.table { name := s%"t" }], groupBy := l }

/-- C69 is false for GROUP BY: `GroupBy` refuses a column without a name, but the caller can put one
in afterwards, and the query is no longer well-formed. -/
theorem C69_groupBy_false (g : Growth) :
    ((CallerWorld.run g groupByTakes [.make [{ name := s%"a" }] 0, .new, .give 0 0]).values.refs[1]?).map
      (fun l => (grouped l).write.string) =
      some (.ok s%"SELECT \"n\" FROM \"t\" GROUP BY \"a\"") ∧
    groupByValue [] [{ name := [] }] = Go.panic "loukoum: given column is undefined" ∧
    ((CallerWorld.run g groupByTakes [.make [{ name := s%"a" }] 0, .new, .give 0 0,
      .assign 0 0 { name := [] }]).values.refs[1]?).map (fun l => (grouped l).write.string) =
      some (.ok s%"SELECT \"n\" FROM \"t\" GROUP BY \"\"") := ⟨rfl, rfl, rfl⟩

end

/-! ## Programs that meet the hypotheses -/

/-- Two slices are used before and after they are spread; the builders are extended with one, the
other, and written arguments. -/
private def orderProgram : List (CallerAct Order) :=
  [.make [⟨s%"a", s%"ASC"⟩] 3, .new, .give 0 0, .assign 0 0 ⟨s%"b", s%"ASC"⟩,
    .grow 0 [⟨s%"c", s%"DESC"⟩], .give 1 0, .pass 2 [⟨s%"d", s%"ASC"⟩], .assign 0 1 ⟨s%"e", s%"ASC"⟩]

example : UsedOnce orderProgram := by unfold UsedOnce; decide

example : (CallerValues.run orderByValue orderProgram).refs = [[], [⟨s%"a", s%"ASC"⟩],
    [⟨s%"a", s%"ASC"⟩, ⟨s%"b", s%"ASC"⟩, ⟨s%"c", s%"DESC"⟩],
    [⟨s%"a", s%"ASC"⟩, ⟨s%"b", s%"ASC"⟩, ⟨s%"c", s%"DESC"⟩, ⟨s%"d", s%"ASC"⟩]] := by rfl

/-- Slices are built up, spread once and not used any more. -/
private def withProgram (a b c d : WithQuery) : List (CallerAct WithQuery) :=
  [.make [a] 3, .assign 0 0 b, .grow 0 [c], .new, .give 0 0, .pass 1 [d], .make [a, b] 0,
    .give 2 1]

example (a b c d : WithQuery) : UsedOnce (withProgram a b c d) ∧ HandsOver (withProgram a b c d) :=
  ⟨show [0, 1, 2].Nodup by decide,
    by simp [HandsOver, withProgram, CallerAct.given, CallerAct.uses]⟩

example (a b c d : WithQuery) : (CallerValues.run withValue (withProgram a b c d)).refs =
    [[], [b, c], [b, c, d], [b, c, d, a, b]] := rfl

/-- A slice is passed to two builders, and appended to. -/
private def groupProgram : List (CallerAct Column) :=
  [.make [{ name := s%"a" }] 1, .assign 0 0 { name := s%"b" }, .new, .new, .give 0 0,
    .grow 0 [{ name := s%"c" }], .give 1 0, .give 2 0]

example : ReadOnlyOnceGiven groupProgram := by
  simp [ReadOnlyOnceGiven, groupProgram, CallerAct.given, CallerAct.assigns]

example : (CallerValues.run groupByValue groupProgram).refs =
    [[], [], [{ name := s%"b" }], [{ name := s%"b" }, { name := s%"c" }]] := by rfl

end Verif.Props
