import Verif.Lemmas.DeriveInsert
import Verif.Lemmas.DeriveInsertOne
import Verif.Model.Runtime

/-!
# C80: goroutines that derive queries from one INSERT builder
-/

set_option linter.unusedSectionVars false

namespace Verif.Props
open Spec DeriveInsert
open Derive (View)
open Concurrent (Act Sorter Cells renderingBy writeWithColumns keyValues)

section
variable [GoRuntime] {α : Type}

/-- C80, partial. Goroutines that each derive a query of their own from the same INSERT builder, by any
calls, and render it, at the same time: as long as pairs of DO UPDATE that are in the builder already
are in order, and one goroutine at most calls `OnConflict` if the builder has no action and the array of
its conflict target has room, each goroutine that has ended has returned what it returns alone, on plain
values; the shared builder is as it was; and all goroutines can go on to their end from wherever they
are.
Missing: pairs that are not in order (false, see `C80_lost`); two goroutines that call `OnConflict` on a
builder whose target has room (false, see `C80_exact`). -/
theorem C80_partial (cap : Nat) (sorter : Nat → Sorter) (m : Cells) (s : InsertStmt) (hm : Holds m s)
    (ho : InOrder sorter s) (jobs : List (Job α)) (hs : Separate cap s jobs) (w : World (Go α))
    (h : Steps (begin cap sorter m s jobs) w) :
    Holds w.cells s ∧
    (∀ (t : Nat) (r : Go α), w.threads[t]? = some (.done r) →
      ∃ x, jobs[t]? = some x ∧ r = x.alone s) ∧
    ∃ m', Steps w ⟨m', jobs.map fun x => .done (x.alone s)⟩ := by
  let n := (columnsOf s).length
  let mine : Nat → Prop := fun t => s.action.isEmpty = true ∧ s.target.length < cap ∧
    ∃ x, jobs[t]? = some x ∧ ∃ args, .onConflict args ∈ x.calls
  let res : Nat → Go α := fun t =>
    match jobs[t]? with
    | some x => x.alone s
    | none => .error .nilDeref
  have hd : ∀ t t', mine t → mine t' → t = t' := by
    rintro t t' ⟨h1, h2, x, h3, args, h4⟩ ⟨_, _, x', h5, args', h6⟩
    exact hs h1 h2 t t' x x' args args' h3 h5 h4 h6
  have h0 : Inv n mine res m jobs.length (begin cap sorter m s jobs) := by
    refine ⟨by simp [begin], ?_, fun _ _ => rfl⟩
    intro t a ha
    simp only [begin, List.getElem?_map, Option.map_eq_some_iff] at ha
    obtain ⟨x, hx, rfl⟩ := ha
    have hr : res t = x.alone s := by simp only [res, hx]
    rw [hr]
    by_cases he : s.action.isEmpty = true
    · have hst : start s = ⟨s, .shared s.target.length, false⟩ := if_pos he
      have hcol : columnsOf s = s.target := if_pos he
      have hn : n = s.target.length := congrArg List.length hcol
      have key := safe_goroutine (n := n) (mine := mine t) (sorter := sorter) (cap := cap) x.render
        x.calls m (start s)
        (by rw [hst, hn]; exact ⟨Nat.le_refl _, fun h => absurd h (Nat.lt_irrefl _)⟩)
        (fun h => by rw [hst] at h; cases h)
        (fun args h1 h2 h3 => ⟨he, hn ▸ h3, x, hx, args, h1⟩)
      have e : (start s).stmt m = s := by
        rw [hst]
        have : value m (.shared s.target.length) = s.target := by
          apply List.ext_getElem
          · simp [value]
          · intro i h1 h2
            have := hm i (by rw [hcol]; exact h2)
            simp only [value, List.getElem_map, List.getElem_range, this, hcol]
        simp only [Copy.stmt, this]
      rwa [e] at key
    · have he' : s.action.isEmpty = false := by simpa using he
      have hst : start s = ⟨s, .own s.target, true⟩ := if_neg he
      have key := safe_goroutine (n := n) (mine := mine t) (sorter := sorter) (cap := cap) x.render
        x.calls m (start s) (by rw [hst]; trivial)
        (fun _ => by
          rw [hst]
          refine ⟨he', ?_⟩
          intro p hp hmode
          have hp' : s.action = .update p := hp
          have hcol : columnsOf s = p.columns := by
            unfold columnsOf
            rw [if_neg he, hp']
          have hpe : p.isEmpty = false := by
            rw [hp'] at he'
            exact he'
          obtain ⟨h1, h2, h3⟩ := ho p hp' hpe hmode
          have hn : n = p.columns.length := congrArg List.length hcol
          refine ⟨h1, hn, h2, h3, ?_⟩
          intro i hi
          have := hm i hi
          rw [this, Concurrent.arrayOf_lt (hn ▸ hi)]
          simp only [hcol])
        (fun args h1 h2 h3 => by rw [hst] at h2; exact absurd h2 he)
      have e : (start s).stmt m = s := by rw [hst]; rfl
      rwa [e] at key
  have h1 := h0.steps hd h
  refine ⟨?_, ?_, ?_⟩
  · intro i hi
    exact (h1.kept i hi).trans (hm i hi)
  · intro t r hr
    have hl := (List.getElem?_eq_some_iff.1 hr).1
    rw [h1.length] at hl
    have hsafe := h1.safe t _ hr
    generalize hq : res t = q at hsafe
    cases hsafe
    refine ⟨jobs[t], List.getElem?_eq_getElem hl, ?_⟩
    rw [← hq]
    simp only [res, List.getElem?_eq_getElem hl]
  · obtain ⟨m', h2⟩ := h1.finish hd
    refine ⟨m', ?_⟩
    have e : (List.range jobs.length).map (fun t => (Act.done (res t) : Act (Go α))) =
        jobs.map fun x => .done (x.alone s) := by
      apply List.ext_getElem
      · simp
      · intro t h3 h4
        simp only [List.length_map, List.length_range] at h3
        simp only [List.getElem_map, List.getElem_range, res, List.getElem?_eq_getElem h3]
    rwa [e] at h2

/-- C80: without the condition on the target it is false. If the builder has no action and the array of
its target has room, and two goroutines call `OnConflict` with a column first (after other calls), then
one of them can return what it would return with the column of the other in place of its own. -/
theorem C80_exact (cap : Nat) (sorter : Nat → Sorter) (m : Cells) (s : InsertStmt) (hm : Holds m s)
    (he : s.action.isEmpty = true) (hr : s.target.length < cap)
    (jobs : List (Job α)) (t t' : Nat) (ht : t ≠ t')
    (before before' after after' : List InsCall) (c c' : Column) (rest rest' : List Any)
    (render render' : W → Go α)
    (h : jobs[t]? = some ⟨before ++ .onConflict (.selExpr (.column c) :: rest) :: after, render⟩)
    (h' : jobs[t']? = some ⟨before' ++ .onConflict (.selExpr (.column c') :: rest') :: after', render'⟩)
    (hb : ∀ d ∈ before, ∀ args, d ≠ .onConflict args)
    (hb' : ∀ d ∈ before', ∀ args, d ≠ .onConflict args)
    (s1 s1' : InsertStmt) (hs : runAll InsCall.apply before s = .ok s1)
    (hs' : runAll InsCall.apply before' s = .ok s1') (hc : c.isEmpty = false)
    (hc' : c'.isEmpty = false) :
    ∃ w, Steps (begin cap sorter m s jobs) w ∧
      w.threads[t]? = some (.done ((Job.mk
        (before ++ .onConflict (.selExpr (.column c') :: rest) :: after) render).alone s)) := by
  have hst : start s = ⟨s, .shared s.target.length, false⟩ := if_pos he
  have hcol : columnsOf s = s.target := if_pos he
  have g : ∀ (pre cs : List InsCall) (d : Column) (l : List Any) (u1 : InsertStmt) (f : W → Go α),
      (∀ d ∈ pre, ∀ args, d ≠ .onConflict args) → runAll InsCall.apply pre s = .ok u1 →
      d.isEmpty = false →
      goroutine cap sorter f (pre ++ .onConflict (.selExpr (.column d) :: l) :: cs) (start s) =
        .write s.target.length d (Copy.onConflictLoop cap (goroutine cap sorter f cs) l
          ⟨u1, .shared (s.target.length + 1), false⟩) := by
    intro pre cs d l u1 f h1 h2 h3
    have hu := pre_kept h1 h2
    rw [hst, goroutine_pre (b := ⟨s, .shared s.target.length, false⟩) h1 h2, goroutine]
    simp only [Copy.call, Copy.OnConflict, hu.1, he, Bool.not_true, Bool.false_eq_true, if_false,
      List.isEmpty_cons, Copy.onConflictLoop, toColumn, h3, append, if_pos hr]
  have e : (begin cap sorter m s jobs).threads[t]? = some
      (goroutine cap sorter render (before ++ .onConflict (.selExpr (.column c) :: rest) :: after)
        (start s)) := by
    simp [begin, h]
  have e' : (begin cap sorter m s jobs).threads[t']? = some
      (goroutine cap sorter render'
        (before' ++ .onConflict (.selExpr (.column c') :: rest') :: after') (start s)) := by
    simp [begin, h']
  rw [g before after c rest s1 render hb hs hc] at e
  rw [g before' after' c' rest' s1' render' hb' hs' hc'] at e'
  have l1 := (List.getElem?_eq_some_iff.1 e).1
  have st1 := Step.write e
  have st2 := Step.write (w := ⟨fun j => if j = s.target.length then c else m j, _⟩) (t := t')
    ((List.getElem?_set_ne (a := Copy.onConflictLoop cap (goroutine cap sorter render after) rest
          ⟨s1, .shared (s.target.length + 1), false⟩) ht).trans e')
  have hm2 : value (fun j => if j = s.target.length then c' else
      if j = s.target.length then c else m j) (.shared (s.target.length + 1)) = s.target ++ [c'] := by
    rw [value_put]
    congr 1
    apply List.ext_getElem
    · simp [value]
    · intro i h1 h2
      have := hm i (by rw [hcol]; exact h2)
      simp only [value, List.getElem_map, List.getElem_range]
      rw [if_neg (by omega), this]
      simp only [hcol]
  have key := safe_loop (n := 0) (mine := True) (cap := cap)
    (next := goroutine cap sorter render after) (f := Job.alone ⟨after, render⟩) rest
    (fun j => if j = s.target.length then c' else if j = s.target.length then c else m j)
    ⟨s1, .shared (s.target.length + 1), false⟩ ⟨Nat.zero_le _, fun _ => trivial⟩ (fun _ => trivial)
    (fun m' b' h1 h2 => safe_goroutine render after m' b' h1 (fun h => by rw [h2] at h; cases h)
      fun _ _ _ _ => trivial)
  obtain ⟨m', fin⟩ := key.finish _ t
    ((List.getElem?_set_ne (Ne.symm ht)).trans (List.getElem?_set_self l1))
  refine ⟨_, (Steps.tail (.tail .refl st1) st2).trans fin, ?_⟩
  rw [List.getElem?_set_self (by simpa using l1)]
  congr 2
  have run : ∀ (pre cs : List InsCall) (u u1 : InsertStmt), runAll InsCall.apply pre u = .ok u1 →
      runAll InsCall.apply (pre ++ cs) u = runAll InsCall.apply cs u1 := by
    intro pre cs
    induction pre with
    | nil => intro u u1 hu; cases hu; rfl
    | cons d pre ih =>
      intro u u1 hu
      rw [runAll] at hu
      rw [List.cons_append, runAll]
      cases hd : d.apply u with
      | error p => rw [hd] at hu; cases hu
      | ok u' =>
        rw [hd] at hu
        exact ih u' u1 hu
  have hu := pre_kept hb hs
  have call : InsCall.apply (.onConflict (.selExpr (.column c') :: rest)) s1 =
      ({ s1 with target := s.target ++ [c'] } : InsertStmt).onConflictLoop rest := by
    simp only [InsCall.apply, InsertStmt.OnConflict, hu.1, he, Bool.not_true, Bool.false_eq_true,
      if_false, List.isEmpty_cons, InsertStmt.onConflictLoop, toColumn, hc', hu.2]
  simp only [Job.alone, run _ _ _ _ hs, runAll, call, Copy.stmt, hm2]
  cases InsertStmt.onConflictLoop { s1 with target := s.target ++ [c'] } rest <;> rfl

/-- C80: one goroutine alone, with any calls, however the pairs of DO UPDATE that are in the builder are
sorted, and in whatever order they are: its query is the one that the calls give. -/
theorem C80_one (cap : Nat) (sorter : Nat → Sorter) (m : Cells) (s : InsertStmt) (hm : Holds m s)
    (x : Job α)
    (hs : ∀ p, s.action = .update p → p.isEmpty = false → p.mode = .associative →
      DeriveUpdate.Sorts (sorter p.columns.length) p.columns)
    (w : World (Go α)) (h : Steps (begin cap sorter m s [x]) w) :
    (∀ (t : Nat) (r : Go α), w.threads[t]? = some (.done r) → r = x.alone s) ∧
    ∃ m', Steps w ⟨m', [.done (x.alone s)]⟩ := by
  by_cases he : s.action.isEmpty = true
  · have key := C80_partial cap sorter m s hm (fun p hp hpe => by
        rw [hp] at he
        exact absurd (hpe.symm.trans he) (by decide))
      [x] (fun _ _ t t' x1 x2 _ _ h1 h2 _ _ => by
        have := (List.getElem?_eq_some_iff.1 h1).1
        have := (List.getElem?_eq_some_iff.1 h2).1
        simp only [List.length_singleton] at *
        omega) w h
    refine ⟨fun t r hr => ?_, key.2.2⟩
    obtain ⟨x', h1, h2⟩ := key.2.1 t r hr
    obtain ⟨hl, hx⟩ := List.getElem?_eq_some_iff.1 h1
    obtain rfl : t = 0 := by simpa using hl
    obtain rfl : x = x' := hx
    exact h2
  · have he' : s.action.isEmpty = false := by simpa using he
    have hst : start s = ⟨s, .own s.target, true⟩ := if_neg he
    have hmp : ∀ p, s.action = .update p → ∀ i (h : i < p.columns.length), m i = p.columns[i] := by
      intro p hp i hi
      have hcol : columnsOf s = p.columns := by
        unfold columnsOf
        rw [if_neg he, hp]
      have := hm i (by rw [hcol]; exact hi)
      rw [this]
      simp only [hcol]
    have key := DeriveInsert.One.finish_goroutine (cap := cap) (m := m) x.render x.calls s he' hs hmp
    rw [← hst] at key
    obtain ⟨m', a, rfl, h2⟩ := DeriveInsert.One.steps_one h
    constructor
    · intro t r hr
      obtain ⟨hl, hx⟩ := List.getElem?_eq_some_iff.1 hr
      obtain rfl : t = 0 := by simpa using hl
      obtain rfl : a = .done r := hx
      exact h2.trans key
    · have h3 := Concurrent.steps_finish a (m := m') (ts := [a]) (t := 0) rfl
      rw [h2.trans key] at h3
      exact ⟨_, h3⟩

/-- C80: without the condition on the pairs it is false, for every way to sort. If the builder has a DO
UPDATE whose pairs are not in order, and two goroutines derive queries from it and render them, then one
of the columns can get lost, for both of them and for good. -/
theorem C80_lost (cap : Nat) (sorter : Nat → Sorter) (s : InsertStmt) (p : PairContainer)
    (hp : s.action = .update p) (he : p.isEmpty = false) (hm : p.mode = .associative)
    (hn : p.columns.Nodup) (hw : (sorter p.columns.length).Within p.columns.length)
    (hs : (sorter p.columns.length).run (arrayOf p.columns) ≠ arrayOf p.columns)
    (calls calls' : List InsCall) (render render' : W → Go α) (s1 s1' : InsertStmt)
    (h : runAll InsCall.apply calls s = .ok s1) (h' : runAll InsCall.apply calls' s = .ok s1')
    (_ : ∃ r, (Stmt.insert s1).write.query = .ok r) (_ : ∃ r, (Stmt.insert s1').write.query = .ok r) :
    ∃ c ∈ p.columns, ∃ (m : Cells) (cs cs' : List Column),
      Steps (begin cap sorter (arrayOf p.columns) s [⟨calls, render⟩, ⟨calls', render'⟩])
        ⟨m, [.done (render (writeWithColumns (.insert s1) p cs)),
             .done (render' (writeWithColumns (.insert s1') p cs'))]⟩ ∧
      c ∉ cs ∧ c ∉ cs' ∧ cs.length = p.columns.length ∧ cs'.length = p.columns.length ∧
      c ∉ (List.range p.columns.length).map m := by
  have hae : s.action.isEmpty = false := by rw [hp]; exact he
  have hst : start s = ⟨s, .own s.target, true⟩ := if_neg (by rw [hae]; decide)
  have g : ∀ (cs : List InsCall) (u : InsertStmt) (f : W → Go α), runAll InsCall.apply cs s = .ok u →
      goroutine cap sorter f cs (start s) = (sorter p.columns.length).act
        (Concurrent.readCells (fun l => .done (f (writeWithColumns (.insert u) p l))) []
          (List.range p.columns.length)) := by
    intro cs u f hu
    have hno := no_conflict hae hu
    have hk := pre_kept hno hu
    have := goroutine_pre (cap := cap) (sorter := sorter) (render := f) (cs := [])
      (b := ⟨s, .own s.target, true⟩) hno hu
    rw [List.append_nil] at this
    rw [hst, this]
    have hkv : keyValues (.insert { u with target := s.target }) = some p := by
      simp only [keyValues, hk.1, hp, if_pos hm]
    have e : ({ u with target := s.target } : InsertStmt) = u := by rw [← hk.2]
    rw [e] at hkv
    simp only [goroutine, Copy.render, hk.1, hp, renderingBy]
    rw [← hp, ← hk.1, e, hkv]
  have key := lost_two hw hn hs (fun l => render (writeWithColumns (.insert s1) p l))
    (fun l => render' (writeWithColumns (.insert s1') p l))
  simp only [begin, List.map_cons, List.map_nil, g calls s1 render h, g calls' s1' render' h']
  exact key

end

/-! ## Concrete cases -/

attribute [local instance] Runtime.sample

/-- `Insert("t").OnConflict("a", "b", "c", DoUpdate())` -/
private def base : InsertStmt :=
  { InsertStmt.zero with
    into := { name := s%"t" }
    target := [{ name := s%"a" }, { name := s%"b" }, { name := s%"c" }]
    action := .update { PairContainer.new with mode := .associative } }

/-- It is what the calls build. -/
example : (do
    let b ← insert (.val (.str s%"t"))
    b.OnConflict [.val (.str s%"a"), .val (.str s%"b"), .val (.str s%"c"), ← doUpdate []]) =
      .ok base := by
  rfl

/-- `.OnConflict(c, DoNothing())` -/
private def onConflict (c : Str) : InsCall :=
  .onConflict [.selExpr (.column { name := c }), .conflictNothing]

/-- Go's insertion sort. -/
private def sorter (n : Nat) : Sorter := .insertion (List.range' 1 (n - 1))

/-- Two goroutines that add a column to its target, which has three columns in an array of four cells:
one of them can get the column of the other. -/
theorem C80_witness : ∃ w,
    Steps (begin 4 sorter (arrayOf base.target) base
      [⟨[onConflict s%"d"], (·.string)⟩, ⟨[onConflict s%"e"], (·.string)⟩]) w ∧
    w.threads[0]? = some (.done
      (.ok s%"INSERT INTO \"t\" ON CONFLICT (\"a\", \"b\", \"c\", \"e\") DO NOTHING")) := by
  obtain ⟨w, h1, h2⟩ := @C80_exact Runtime.sample Str 4 sorter (arrayOf base.target) base
    (fun i h => Concurrent.arrayOf_lt h) rfl (by decide)
    [⟨[onConflict s%"d"], (·.string)⟩, ⟨[onConflict s%"e"], (·.string)⟩] 0 1 (by decide)
    [] [] [] [] { name := s%"d" } { name := s%"e" } [.conflictNothing] [.conflictNothing]
    (·.string) (·.string) rfl rfl (fun _ h => by cases h) (fun _ h => by cases h) base base rfl rfl
    rfl rfl
  refine ⟨w, h1, h2.trans ?_⟩
  congr 2

/-- What it gets alone. -/
theorem C80_alone : Job.alone ⟨[onConflict s%"d"], (·.string)⟩ base =
    .ok s%"INSERT INTO \"t\" ON CONFLICT (\"a\", \"b\", \"c\", \"d\") DO NOTHING" := by
  decide +kernel

/-- C80 is false of the code, even if pairs are in order. -/
theorem C80_false : ¬ ∀ [GoRuntime] (cap : Nat) (sorter : Nat → Sorter) (m : Cells) (s : InsertStmt)
    (_ : Holds m s) (_ : InOrder sorter s) (_ : s.target.length ≤ cap) (jobs : List (Job Str))
    (w : World (Go Str)) (_ : Steps (begin cap sorter m s jobs) w) (t : Nat) (r : Go Str),
    w.threads[t]? = some (.done r) → ∃ x, jobs[t]? = some x ∧ r = x.alone s := by
  intro h
  obtain ⟨w, h1, h2⟩ := C80_witness
  obtain ⟨x, h3, h4⟩ := @h Runtime.sample 4 sorter (arrayOf base.target) base
    (fun i h => Concurrent.arrayOf_lt h)
    (fun p hp he => (by cases hp; cases he)) (by decide) _ w h1 0 _ h2
  cases h3
  have h5 := h4.trans C80_alone
  revert h5
  decide +kernel

/-- `Insert("t").Set(Pair("a", 1)).OnConflict("a", DoUpdate(Pair("y", 1), Pair("x", 2)))` -/
private def upsert (cs : List Column) : InsertStmt :=
  { InsertStmt.zero with
    into := { name := s%"t" }
    target := [{ name := s%"a" }]
    action := .update
      { mode := .associative
        map := [({ name := s%"y" }, .value (.int .int 1)), ({ name := s%"x" }, .value (.int .int 2))]
        columns := cs
        expressions := [] } }

/-- Its pairs are not in order, and sorting them is not nothing: the hypotheses of `C80_lost`. -/
example : sorter 2 = .insertion [1] ∧
    (sorter 2).run (arrayOf [{ name := s%"y" }, { name := s%"x" }]) ≠
      arrayOf [{ name := s%"y" }, { name := s%"x" }] ∧
    (∃ r, (Stmt.insert (upsert [{ name := s%"y" }, { name := s%"x" }])).write.query = .ok r) ∧
    runAll InsCall.apply [.comment s%"c", .returning [.val (.str s%"id")]]
      (upsert [{ name := s%"y" }, { name := s%"x" }]) =
      .ok { upsert [{ name := s%"y" }, { name := s%"x" }] with
        comment := s%"c", returning := [.column { name := s%"id" }] } := by
  refine ⟨rfl, fun h => ?_, ⟨_, rfl⟩, rfl⟩
  have := congrFun h 0
  revert this
  decide +kernel

/-- In order, they meet the hypotheses of `C80_partial`, whatever the goroutines call. -/
example : InOrder sorter (upsert [{ name := s%"x" }, { name := s%"y" }]) ∧
    ∀ jobs : List (Job Str), Separate 4 (upsert [{ name := s%"x" }, { name := s%"y" }]) jobs := by
  refine ⟨?_, fun _ h => by cases h⟩
  intro p hp _ _
  cases hp
  refine ⟨⟨?_, ?_⟩, ⟨by decide, by decide, fun b => ?_⟩, ?_⟩
  · intro c hc
    simp only [List.mem_cons, List.not_mem_nil, or_false] at hc
    rcases hc with rfl | rfl <;> rfl
  · simp only [List.pairwise_cons, List.mem_singleton]
    refine ⟨?_, fun _ h => absurd h List.not_mem_nil, List.Pairwise.nil⟩
    rintro c rfl
    decide
  · cases b
    · trivial
    · exact ⟨by decide, by decide, trivial⟩
  · trivial

/-- Out of order, they meet the hypotheses of `C80_one`. -/
example : ∀ p, (upsert [{ name := s%"y" }, { name := s%"x" }]).action = .update p →
    p.isEmpty = false → p.mode = .associative →
    DeriveUpdate.Sorts (sorter p.columns.length) p.columns := by
  intro p hp _ _
  cases hp
  refine ⟨⟨by decide, by decide, fun b => ?_⟩, by decide +kernel⟩
  cases b
  · trivial
  · exact ⟨by decide, by decide, trivial⟩

/-- Three goroutines on the builder without action, one of which calls `OnConflict`, meet the hypotheses
of `C80_partial`. -/
example : InOrder sorter base ∧
    Separate 4 base [(⟨[onConflict s%"d"], (·.string)⟩ : Job Str), ⟨[.comment s%"x"], (·.string)⟩,
      ⟨[.returning [.val (.str s%"id")]], (·.string)⟩] := by
  refine ⟨fun p hp he => (by cases hp; cases he), ?_⟩
  have only : ∀ (t : Nat) (x : Job Str) (args : List Any),
      ([(⟨[onConflict s%"d"], (·.string)⟩ : Job Str), ⟨[.comment s%"x"], (·.string)⟩,
        ⟨[.returning [.val (.str s%"id")]], (·.string)⟩] : List (Job Str))[t]? = some x →
      .onConflict args ∈ x.calls → t = 0 := by
    intro t x args h hc
    match t, h with
    | 0, _ => rfl
    | 1, h => cases h; simp at hc
    | 2, h => cases h; simp at hc
    | t + 3, h => cases h
  intro _ _ t t' x x' args args' h h' hc hc'
  rw [only t x args h hc, only t' x' args' h' hc']

end Verif.Props
