import Verif.Lemmas.Returning
import Verif.Props.Rows

/-!
# C77: what a program with `Returning` gets back
-/

set_option linter.unusedSectionVars false

namespace Verif.Props
open Spec

section
variable [GoRuntime]

/-- C77, DELETE. The answer has the entries given to `Returning`, for exactly the rows that are
removed (together with the rows of the tables of `Using` that they were found with), as many as the
table has lost. -/
theorem C77_delete (b : Bool) (t : SqlTable) (ht : fitsFrom t = true) (steps : List DelStep)
    (hs : steps.all DelStep.fits = true) (s : DeleteStmt)
    (h : (delete (buildFrom t) >>= runAll DelStep.apply steps) = .ok s) :
    ∃ m, SentAs b (.delete s) m ∧
      ∀ (D : Database) (all : SqlRow → List Val) (rows : List SqlRow), ∃ l,
        D.returned all m rows = some (D.report all [] (steps.flatMap DelStep.returned) l) ∧
        l = (rows.filterMap fun r => (D.combine (steps.flatMap DelStep.further) r).find?
          (D.wanted [] (steps.flatMap DelStep.condition))) ∧
        ∀ after, D.exec m rows = some after → l.length + after.length = rows.length := by
  obtain ⟨d, h1, text, args, h2, h3⟩ := outcome_ok (C62_delete b t ht steps hs) h
  obtain ⟨i1, i2, i3⟩ := del_calls steps (by simp [deleteStart]) h1
  have i4 : d.usings = steps.flatMap DelStep.further := i2
  have i5 : d.tables = [t] := i1
  have i6 : d.returning = steps.flatMap DelStep.returned := Returning.del_returned steps h1
  refine ⟨_, ⟨text, args, h2, h3⟩, fun D all rows => ⟨_, ?_, rfl, ?_⟩⟩
  · unfold SqlDelete.stmt
    rw [i4, i5, i6, Database.returned, selects_wanted fun r => i3 D [] r]
  · intro after ha
    unfold SqlDelete.stmt at ha
    rw [i4, i5, Database.exec, selects_wanted fun r => i3 D [] r] at ha
    cases ha
    exact Returning.filter_find _ _ rows

/-- C77, UPDATE with `Set` by name. The answer has the entries given to `Returning`, for exactly the
rows that are changed, with the values that they have then. -/
theorem C77_update (b : Bool) (t : SqlTable) (ht : fitsTable t = true) (ho : t.only = false)
    (steps : List UpdStep) (hs : steps.all UpdStep.fits = true) (s : UpdateStmt)
    (h : (update (.table (buildTable t)) >>= runAll UpdStep.apply steps) = .ok s)
    (hset : steps.flatMap UpdStep.assigned ≠ []) :
    ∃ m, SentAs b (.update s) m ∧
      ∀ (D : Database) (all : SqlRow → List Val) (rows : List SqlRow),
        D.Distinct ((steps.flatMap UpdStep.assigned).map (·.1)) →
        D.returned all m rows = some (D.report all (steps.flatMap UpdStep.withs)
          (steps.flatMap UpdStep.returned) (rows.filterMap fun r =>
            ((D.combine (steps.flatMap UpdStep.further) r).find?
              (D.wanted (steps.flatMap UpdStep.withs) (steps.flatMap UpdStep.condition))).map
              fun «at» c =>
                match D.given (steps.flatMap UpdStep.assigned) c with
                | some e => D.eval (steps.flatMap UpdStep.withs) «at» e
                | none => «at» c)) := by
  obtain ⟨u, h1, h2, _⟩ := outcome_ok (C62_update b t ht ho steps hs) h
  obtain ⟨i1, i2, i3, _, i4⟩ := upd_calls steps (a := []) (cs := []) (es := []) (u := updateStart t)
    ⟨rfl, rfl, rfl⟩ h1
  have i8 : u.returning = steps.flatMap UpdStep.returned := Returning.upd_returned steps h1
  rw [List.nil_append] at i1
  cases hu : u.set with
  | none => rw [hu] at i1; exact absurd i1.1 hset
  | columns cs es => rw [hu] at i1; exact absurd i1.2.2 hset
  | pairs l =>
    rw [hu] at i1
    have hl : l = assignMany [] (steps.flatMap UpdStep.assigned) := i1.1
    obtain ⟨text, args, h3, h4⟩ := h2 _ (by unfold SqlUpdate.stmt; rw [hu])
    refine ⟨_, ⟨text, args, h3, h4⟩, fun D all rows hd => ?_⟩
    have i5 : u.withs = steps.flatMap UpdStep.withs := i2
    have i6 : u.tables = steps.flatMap UpdStep.further := i3
    rw [Database.returned, hl, if_pos (once_assignMany _ hd), i5, i6, i8, Database.changed,
      selects_wanted fun r => i4 D _ r]
    simp only [assign_given _ _ hd]
    rfl

/-- C77, UPDATE with columns and values. -/
theorem C77_update_columns (b : Bool) (t : SqlTable) (ht : fitsTable t = true) (ho : t.only = false)
    (steps : List UpdStep) (hs : steps.all UpdStep.fits = true) (s : UpdateStmt)
    (h : (update (.table (buildTable t)) >>= runAll UpdStep.apply steps) = .ok s)
    (hset : steps.flatMap UpdStep.values ≠ []) :
    ∃ m, SentAs b (.update s) m ∧
      ∀ (D : Database) (all : SqlRow → List Val) (rows : List SqlRow), D.returned all m rows =
        if D.once (steps.flatMap UpdStep.columns) ∧
          (steps.flatMap UpdStep.columns).length = (steps.flatMap UpdStep.values).length then
          some (D.report all (steps.flatMap UpdStep.withs)
            (steps.flatMap UpdStep.returned) (rows.filterMap fun r =>
              ((D.combine (steps.flatMap UpdStep.further) r).find?
                (D.wanted (steps.flatMap UpdStep.withs) (steps.flatMap UpdStep.condition))).map
                fun «at» c =>
                  match D.listed (steps.flatMap UpdStep.columns) (steps.flatMap UpdStep.values) c with
                  | some e => D.eval (steps.flatMap UpdStep.withs) «at» e
                  | none => «at» c))
        else none := by
  obtain ⟨u, h1, h2, _⟩ := outcome_ok (C62_update b t ht ho steps hs) h
  obtain ⟨i1, i2, i3, _, i4⟩ := upd_calls steps (a := []) (cs := []) (es := []) (u := updateStart t)
    ⟨rfl, rfl, rfl⟩ h1
  have i8 : u.returning = steps.flatMap UpdStep.returned := Returning.upd_returned steps h1
  rw [List.nil_append, List.nil_append] at i1
  cases hu : u.set with
  | none => rw [hu] at i1; exact absurd i1.2.2 hset
  | pairs l => rw [hu] at i1; exact absurd i1.2.2 hset
  | columns cs es =>
    rw [hu] at i1
    obtain ⟨rfl, rfl, _⟩ := i1
    obtain ⟨text, args, h3, h4⟩ := h2 _ (by
      unfold SqlUpdate.stmt; rw [hu]; exact if_neg (by simpa using hset))
    refine ⟨_, ⟨text, args, h3, h4⟩, fun D all rows => ?_⟩
    have i5 : u.withs = steps.flatMap UpdStep.withs := i2
    have i6 : u.tables = steps.flatMap UpdStep.further := i3
    rw [Database.returned, i5, i6, i8, Database.changed, selects_wanted fun r => i4 D _ r]
    simp only [assign_listed, List.nil_append]
    rfl

/-- C77, INSERT with `Values`. The answer has the entries given to `Returning`, for the rows that are
written: each row given, or the row in its way as `OnConflict` has changed it, or nothing if
`OnConflict` says so. -/
theorem C77_insert (b : Bool) (t : SqlTable) (ht : fitsTable t = true) (steps : List InsStep)
    (hs : steps.all InsStep.fits = true) (s : InsertStmt)
    (h : (insert (.table (buildTable t)) >>= runAll InsStep.apply steps) = .ok s)
    (hset : steps.findSome? InsStep.assigned = none) :
    ∃ m, SentAs b (.insert s) m ∧
      ∀ (D : Database) (all : SqlRow → List Val) (rows : List SqlRow),
        D.once (D.names (steps.flatMap InsStep.listed)) = true → Settled D steps →
        (∀ es ∈ steps.flatMap InsStep.added, D.enough (steps.flatMap InsStep.listed) es = true) →
        D.returned all m rows = (D.writtenAll (asked D steps)
          ((steps.flatMap InsStep.added).map fun es c =>
            match D.listed (D.names (steps.flatMap InsStep.listed)) es c with
            | some e => D.eval [] D.default e
            | none => D.default c) rows).map (D.report all [] (steps.flatMap InsStep.returned)) := by
  obtain ⟨i, h1, text, args, h2, h3⟩ := outcome_ok (C62_insert b t ht steps hs) h
  refine ⟨_, ⟨text, args, h2, h3⟩, fun D all rows ho hc hl => ?_⟩
  obtain ⟨i1, i2⟩ := ins_run_values steps hset h1
  have i4 : i.columns = steps.flatMap InsStep.listed := i1
  have i5 : i.rows = steps.flatMap InsStep.added := i2
  have i6 : i.conflict = (steps.findSome? InsStep.resolved).map conflictSaid := ins_run_conflict steps h1
  have i7 : i.returning = steps.flatMap InsStep.returned := Returning.ins_returned steps h1
  unfold SqlInsert.stmt
  rw [i4, i5, i6, i7, Database.returned, if_pos ⟨ho, by rw [List.all_eq_true]; exact hl⟩,
    conflict_asked hc]
  simp only [assign_listed]
  rfl

/-- C77, INSERT with `Set`. -/
theorem C77_insert_set (b : Bool) (t : SqlTable) (ht : fitsTable t = true) (steps : List InsStep)
    (hs : steps.all InsStep.fits = true) (s : InsertStmt)
    (h : (insert (.table (buildTable t)) >>= runAll InsStep.apply steps) = .ok s)
    (l : List (Ref × Sql)) (hset : InsStep.set l ∈ steps) :
    ∃ m, SentAs b (.insert s) m ∧
      ∀ (D : Database) (all : SqlRow → List Val) (rows : List SqlRow),
        D.Distinct (l.map (·.1)) → Settled D steps →
        D.returned all m rows = (D.writtenAll (asked D steps) [fun c =>
          match D.given l c with
          | some e => D.eval [] D.default e
          | none => D.default c] rows).map (D.report all [] (steps.flatMap InsStep.returned)) := by
  obtain ⟨i, h1, text, args, h2, h3⟩ := outcome_ok (C62_insert b t ht steps hs) h
  refine ⟨_, ⟨text, args, h2, h3⟩, fun D all rows hd hc => ?_⟩
  obtain ⟨hf, hl⟩ := ins_only_set steps hset hs h1
  obtain ⟨i1, i2⟩ := ins_run_set steps hf hl h1
  have i6 : i.conflict = (steps.findSome? InsStep.resolved).map conflictSaid := ins_run_conflict steps h1
  have i7 : i.returning = steps.flatMap InsStep.returned := Returning.ins_returned steps h1
  unfold SqlInsert.stmt
  have hne : ((assignMany [] l).map (·.1)).isEmpty = false := by
    rw [List.isEmpty_eq_false_iff]; simpa using many_ne_nil l [] (.inr hl)
  have hn : D.names ((assignMany [] l).map (·.1)) = (assignMany [] l).map (·.1) := by
    unfold Database.names; rw [hne]; rfl
  rw [i1, i2, i6, i7, Database.returned, hn, if_pos ⟨once_assignMany l hd, by
    simp [Database.enough, many_ne_nil l [] (.inr hl)]⟩, conflict_asked hc]
  simp only [List.map_cons, List.map_nil, List.zip_map', List.map_id']
  rw [assign_given _ _ hd]
  rfl

/-- How many rows a program gives to an INSERT: one with `Set`, or those of `Values`. -/
def given (steps : List InsStep) : Nat :=
  if (steps.findSome? InsStep.assigned).isSome then 1 else (steps.flatMap InsStep.added).length

/-- C77, INSERT: the rows of the answer are rows that the table has after the statement. Unless
`OnConflict` is called with `DoNothing`, there is one for each row given; unless it is called with
assignments, there is one for each row that the table has got. -/
theorem C77_insert_rows (b : Bool) (t : SqlTable) (ht : fitsTable t = true) (steps : List InsStep)
    (hs : steps.all InsStep.fits = true) (s : InsertStmt)
    (h : (insert (.table (buildTable t)) >>= runAll InsStep.apply steps) = .ok s) :
    ∃ m, SentAs b (.insert s) m ∧
      ∀ (D : Database) (all : SqlRow → List Val) (rows after : List SqlRow), Settled D steps →
        D.exec m rows = some after → ∃ l,
          D.returned all m rows = some (D.report all [] (steps.flatMap InsStep.returned) l) ∧
          (∀ r ∈ l, r ∈ after) ∧
          ((∀ c, steps.findSome? InsStep.resolved = some c → c.2.isSome = true) →
            l.length = given steps) ∧
          ((∀ c, steps.findSome? InsStep.resolved = some c → c.2 = none) →
            after.length = rows.length + l.length) := by
  obtain ⟨i, h1, text, args, h2, h3⟩ := outcome_ok (C62_insert b t ht steps hs) h
  refine ⟨_, ⟨text, args, h2, h3⟩, fun D all rows after hc he => ?_⟩
  have i6 : i.conflict = (steps.findSome? InsStep.resolved).map conflictSaid := ins_run_conflict steps h1
  have i7 : i.returning = steps.flatMap InsStep.returned := Returning.ins_returned steps h1
  have i8 : i.rows.length = given steps := by
    unfold given
    cases ha : steps.findSome? InsStep.assigned with
    | none =>
      obtain ⟨_, i2⟩ := ins_run_values steps ha h1
      have i5 : i.rows = steps.flatMap InsStep.added := i2
      rw [i5]; rfl
    | some l =>
      obtain ⟨c, hc1, hc2⟩ := List.exists_of_findSome?_eq_some ha
      cases c <;> simp only [InsStep.assigned, reduceCtorEq, Option.some.injEq] at hc2
      subst hc2
      obtain ⟨hf, hl⟩ := ins_only_set steps hc1 hs h1
      obtain ⟨_, i2⟩ := ins_run_set steps hf hl h1
      rw [i2]; rfl
  unfold SqlInsert.stmt at he ⊢
  rw [Database.exec] at he
  rw [Database.returned]
  split at he
  · next hg =>
    rw [if_pos hg]
    rw [i6, conflict_asked hc, Option.bind_some] at he ⊢
    obtain ⟨l, j1, j2, j3, j4⟩ := Returning.writtenAll_spec he
    refine ⟨l, by rw [j1, i7]; rfl, j2, fun hn => ?_, fun hn => j3 ?_⟩
    · rw [j4, List.length_map, i8]
      intro c hc
      unfold asked at hc
      rw [Option.map_eq_some_iff] at hc
      obtain ⟨c', h9, rfl⟩ := hc
      simpa using hn c' h9
    · intro c hc
      unfold asked at hc
      rw [Option.map_eq_some_iff] at hc
      obtain ⟨c', h9, rfl⟩ := hc
      simpa using hn c' h9
  · cases he

end

/-! ## The hypotheses can be met -/

section
attribute [local instance] Runtime.sample

private def col (name : Str) : Sql := .ref (.quoted [name])
private def int (n : Int) : Sql := .value (.int .int64 n)
private def table (name : Str) : SqlTable := ⟨false, .quoted [name], none⟩
private def eq (name : Str) (n : Int) : Sql := .binary s%"=" (col name) (int n)

/-- A row with the columns a, b and c. -/
private def row (a b c : Val) : SqlRow := fun n =>
  if n = s%"a" then a else if n = s%"b" then b else if n = s%"c" then c else .nil

private def n (k : Int) : Val := .int .int64 k

private def shown (rows : List SqlRow) : List (List Val) :=
  rows.map fun r => [r s%"a", r s%"b", r s%"c"]

private def rows4 : List SqlRow :=
  [row (n 1) (n 0) (n 0), row (n 0) (n 2) (n 3), row (n 1) .nil (n 3), row .nil (n 0) (n 3)]

/-- Integers are compared; everything else is unknown. -/
private def small : Database where
  compare op x y :=
    match x, y with
    | .int _ m, .int _ n => if op = s%"=" then (if m = n then .yes else .no) else .unknown
    | _, _ => .unknown
  call _ _ _ := .nil
  query _ _ _ := []
  column n := refText n
  columns := [.quoted [s%"a"], .quoted [s%"b"], .quoted [s%"c"]]
  join _ r := [r]
  source _ _ _ := rows4
  default _ := .nil
  clash target r new := target.all fun c => match r (refText c), new (refText c) with
    | .int _ m, .int _ n => m = n
    | _, _ => false
  excluded r new c := if c.take 9 = s%"excluded." then new (c.drop 9) else r c
  shape _ _ _ _ _ _ rows := rows.map fun r => [r s%"a", r s%"b"]

private def every (r : SqlRow) : List Val := [r s%"a", r s%"b", r s%"c"]

/-- `Where(a = 1)`, `Returning("b", "a")` -/
private def delSteps : List DelStep :=
  [.where (eq s%"a" 1), .returning [.mk (col s%"b") none, .mk (col s%"a") none]]

example : fitsFrom (table s%"t") = true ∧ delSteps.all DelStep.fits = true ∧
    ((delete (buildFrom (table s%"t")) >>= runAll DelStep.apply delSteps).toOption).isSome =
    true := by decide +kernel

/-- The first and the third row are removed, and come back. -/
example : small.returned every (.delete [table s%"t"] [] (some (eq s%"a" 1))
      [.mk (col s%"b") none, .mk (col s%"a") none]) rows4 =
    some [[n 0, n 1], [.nil, n 1]] := by rfl

private def updSteps : List UpdStep :=
  [.returning [.mk (col s%"a") none, .mk (col s%"c") none],
   .set [(.quoted [s%"c"], int 7), (.quoted [s%"a"], col s%"b")], .where (eq s%"a" 1),
   .set [(.quoted [s%"c"], int 8)]]

example : fitsTable (table s%"t") = true ∧ updSteps.all UpdStep.fits = true ∧
    ((update (.table (buildTable (table s%"t"))) >>=
      runAll UpdStep.apply updSteps).toOption).isSome = true := by decide +kernel

example : small.Distinct ((updSteps.flatMap UpdStep.assigned).map (·.1)) := by
  intro a ha b hb h
  simp [updSteps, UpdStep.assigned] at ha hb
  rcases ha with rfl | rfl | rfl <;> rcases hb with rfl | rfl | rfl <;>
    first | rfl | exact absurd h (by decide +kernel)

/-- The rows that had a = 1 come back, with the values that they have got. -/
example : small.returned every (.update [] (table s%"t") (.pairs [(.quoted [s%"a"], col s%"b"),
      (.quoted [s%"c"], int 8)]) [] (some (eq s%"a" 1))
      [.mk (col s%"a") none, .mk (col s%"c") none]) rows4 =
    some [[n 0, n 8], [.nil, n 8]] := by rfl

private def updColumns : List UpdStep :=
  [.setColumns [.quoted [s%"b"]], .using [int 1], .setColumns [.quoted [s%"a"]], .using [.null],
   .returning [.mk (col s%"b") (some (.quoted [s%"x"]))]]

example : updColumns.all UpdStep.fits = true ∧ updColumns.flatMap UpdStep.values ≠ [] ∧
    ((update (.table (buildTable (table s%"t"))) >>=
      runAll UpdStep.apply updColumns).toOption).isSome = true ∧
    small.once (updColumns.flatMap UpdStep.columns) = true := by
  refine ⟨by decide +kernel, by simp [updColumns, UpdStep.values], by decide +kernel, by decide +kernel⟩

private def insSet : List InsStep :=
  [.returning [.mk (col s%"a") none],
   .set [(.quoted [s%"b"], int 1), (.quoted [s%"a"], int 2), (.quoted [s%"b"], int 3)]]

example : insSet.all InsStep.fits = true ∧ ((insert (.table (buildTable (table s%"t"))) >>=
      runAll InsStep.apply insSet).toOption).isSome = true := by decide +kernel

private def insUpsert : List InsStep :=
  [.conflictUpdate [.quoted [s%"a"]]
     [(.quoted [s%"b"], int 9), (.quoted [s%"c"], .ref (.quoted [s%"excluded", s%"b"])),
      (.quoted [s%"b"], int 8)],
   .columns [.quoted [s%"b"], .quoted [s%"a"]],
   .values [[int 5, int 0], [int 6, int 7]],
   .returning [.mk (col s%"b") none, .mk (col s%"c") none]]

example : insUpsert.all InsStep.fits = true ∧
    (insUpsert.findSome? InsStep.assigned).isNone = true ∧
    ((insert (.table (buildTable (table s%"t"))) >>=
      runAll InsStep.apply insUpsert).toOption).isSome = true ∧
    small.once (small.names (insUpsert.flatMap InsStep.listed)) = true ∧
    (insUpsert.flatMap InsStep.added).all (small.enough (insUpsert.flatMap InsStep.listed)) = true := by decide +kernel

example : Settled small insUpsert := by
  intro target l h a ha b hb e
  cases h
  simp at ha hb
  rcases ha with rfl | rfl | rfl <;> rcases hb with rfl | rfl | rfl <;>
    first | rfl | exact absurd e (by decide +kernel)

/-- The row that was in the way comes back as it has been changed, the other one as it was given. -/
example : (small.writtenAll (asked small insUpsert) ((insUpsert.flatMap InsStep.added).map fun es c =>
      match small.listed (small.names (insUpsert.flatMap InsStep.listed)) es c with
      | some e => small.eval [] small.default e
      | none => small.default c) rows4).map
        (small.report every [] (insUpsert.flatMap InsStep.returned)) =
    some [[n 8, n 5], [n 6, .nil]] := by
  rfl

/-- With DO NOTHING only the row that was added comes back. -/
example : small.returned every (.insert (table s%"t") [.quoted [s%"a"]] [[int 0], [int 7]]
      (some ([.quoted [s%"a"]], .nothing)) [.mk .star none]) rows4 =
    some [[n 7, .nil, .nil]] := by rfl

end

end Verif.Props
