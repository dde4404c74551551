import Verif.Lemmas.Derive
import Verif.Model.Runtime

/-!
# C78: goroutines that derive queries from one SELECT builder
-/

set_option linter.unusedSectionVars false

namespace Verif.Props
open Spec Derive

section
variable [GoRuntime] {α : Type}

/-- C78, partial. Goroutines that each derive a query of their own from the same builder, by any calls,
and render it, at the same time: as long as of the clauses joins, common table expressions (if there are
some) and orderings, those whose array has room are extended by one goroutine at most, each goroutine that has
ended has returned what it returns alone, on plain values; the shared builder is as it was; and all
goroutines can go on to their end from wherever they are.
Missing: two goroutines that extend a clause whose array has room; there the property is false, see
`C78_exact` and `C78_false`. -/
theorem C78_partial (cap : Clause → Nat) (m : Memory) (s : SelectStmt) (hm : Holds m s)
    (jobs : List (Job α)) (hs : Separate cap s jobs) (w : World (Go α))
    (h : Steps (begin cap m s jobs) w) :
    Holds w.memory s ∧
    (∀ (t : Nat) (r : Go α), w.threads[t]? = some (.done r) →
      ∃ x, jobs[t]? = some x ∧ r = x.alone s) ∧
    ∃ m', Steps w ⟨m', jobs.map fun x => .done (x.alone s)⟩ := by
  let n : Clause → Nat := fun k => (k.of s).length
  let mine : Nat → Clause → Prop := fun t k => n k < cap k ∧ (k = .withs → s.withs ≠ []) ∧
    ∃ x, jobs[t]? = some x ∧ ∃ c ∈ x.calls, Adds c k
  let res : Nat → Go α := fun t =>
    match jobs[t]? with
    | some x => x.alone s
    | none => .error .nilDeref
  have hd : ∀ k t t', mine t k → mine t' k → t = t' := by
    rintro k t t' ⟨h1, h0, x, h2, c, h3, h4⟩ ⟨_, _, x', h5, c', h6, h7⟩
    exact hs k h1 h0 t t' x x' h2 h5 c h3 h4 c' h6 h7
  have h0 : Inv n mine res m jobs.length (begin cap m s jobs) := by
    refine ⟨by simp [begin], ?_, fun _ _ _ => rfl⟩
    intro t a ha
    simp only [begin, List.getElem?_map, Option.map_eq_some_iff] at ha
    obtain ⟨x, hx, rfl⟩ := ha
    have hr : res t = x.alone s := by simp only [res, hx]
    rw [hr]
    have := safe_goroutine (n := n) (mine := mine t) (cap := cap) x.render x.calls m (start s)
      ⟨⟨Nat.le_refl _, fun h => absurd h (Nat.lt_irrefl _)⟩,
        ⟨Nat.le_refl _, fun h => absurd h (Nat.lt_irrefl _)⟩,
        ⟨Nat.le_refl _, fun h => absurd h (Nat.lt_irrefl _)⟩⟩
      (fun c hc k ha hk hz => ⟨hk, fun e he => hz e (by
        subst e
        exact List.length_eq_zero_iff.2 he), x, hx, c, hc, ha⟩)
    rwa [stmt_start hm] at this
  have h1 := h0.steps hd h
  refine ⟨?_, ?_, ?_⟩
  · intro k i hi
    exact (h1.kept k i hi).trans (hm k i hi)
  · intro t r hr
    have hl := (List.getElem?_eq_some_iff.1 hr).1
    rw [h1.length] at hl
    have hsafe := h1.safe t _ hr
    generalize hq : res t = q at hsafe
    cases hsafe
    refine ⟨jobs[t], List.getElem?_eq_getElem hl, ?_⟩
    rw [← hq]
    simp only [res, List.getElem?_eq_getElem hl]
  · obtain ⟨m', h2⟩ := h1.finish hd
    refine ⟨m', ?_⟩
    have e : (List.range jobs.length).map (fun t => (Act.done (res t) : Act (Go α))) =
        jobs.map fun x => .done (x.alone s) := by
      apply List.ext_getElem
      · simp
      · intro t h3 h4
        simp only [List.length_map, List.length_range] at h3
        simp only [List.getElem_map, List.getElem_range, res, List.getElem?_eq_getElem h3]
    rwa [e] at h2

/-- C78: without the condition it is false. If the array of a clause has room, and two goroutines make a
call that adds one element to that clause (after calls that concern other clauses), then the query of
one of them can have the element of the other in the place of its own. (A first WITH is in an array of
its own and does no harm.) -/
theorem C78_exact (cap : Clause → Nat) (m : Memory) (s : SelectStmt) (hm : Holds m s) (k : Clause)
    (hr : (k.of s).length < cap k) (hw : k = .withs → s.withs ≠ [])
    (jobs : List (Job α)) (t t' : Nat) (ht : t ≠ t')
    (before before' after after' : List SelCall) (c c' : SelCall) (render render' : W → Go α)
    (h : jobs[t]? = some ⟨before ++ c :: after, render⟩)
    (h' : jobs[t']? = some ⟨before' ++ c' :: after', render'⟩)
    (hb : ∀ d ∈ before, ∀ k, ¬ Adds d k) (hb' : ∀ d ∈ before', ∀ k, ¬ Adds d k)
    (s1 s1' : SelectStmt) (hs : runAll SelCall.apply before s = .ok s1)
    (hs' : runAll SelCall.apply before' s = .ok s1')
    (x x' : k.Elem) (hx : AddsOne k c x) (hx' : AddsOne k c' x') :
    (Job.mk (before ++ c :: after) render).alone s =
      (Job.mk after render).alone (k.set s1 (k.of s ++ [x])) ∧
    ∃ w, Steps (begin cap m s jobs) w ∧
      w.threads[t]? = some (.done ((Job.mk after render).alone (k.set s1 (k.of s ++ [x'])))) := by
  have hk := of_pre hb hs
  constructor
  · have run : ∀ (pre cs : List SelCall) (u u1 : SelectStmt), runAll SelCall.apply pre u = .ok u1 →
        runAll SelCall.apply (pre ++ cs) u = runAll SelCall.apply cs u1 := by
      intro pre cs
      induction pre with
      | nil => intro u u1 hu; cases hu; rfl
      | cons d pre ih =>
        intro u u1 hu
        rw [runAll] at hu
        rw [List.cons_append, runAll]
        cases hd : d.apply u with
        | error p => rw [hd] at hu; cases hu
        | ok u' =>
          rw [hd] at hu
          exact ih u' u1 hu
    simp only [Job.alone]
    rw [run _ _ _ _ hs, runAll, hx.2 s1, hk k]
  · have g : ∀ (pre cs : List SelCall) (d : SelCall) (y : k.Elem) (u1 : SelectStmt) (f : W → Go α),
        (∀ d ∈ pre, ∀ k, ¬ Adds d k) → runAll SelCall.apply pre s = .ok u1 → AddsOne k d y →
        goroutine cap f (pre ++ d :: cs) (start s) = .write k (k.of s).length y
          (goroutine cap f cs (Copy.put { start s with base := u1 } k
            (.shared ((k.of s).length + 1)))) := by
      intro pre cs d y u1 f h1 h2 h3
      rw [goroutine_pre (b := start s) h1 h2, goroutine]
      exact call_one h3 hr hw u1 _
    have e : (begin cap m s jobs).threads[t]? =
        some (goroutine cap render (before ++ c :: after) (start s)) := by
      simp [begin, h]
    have e' : (begin cap m s jobs).threads[t']? =
        some (goroutine cap render' (before' ++ c' :: after') (start s)) := by
      simp [begin, h']
    rw [g before after c x s1 render hb hs hx] at e
    rw [g before' after' c' x' s1' render' hb' hs' hx'] at e'
    have st1 := Step.write e
    have l1 := (List.getElem?_eq_some_iff.1 e).1
    have st2 := Step.write (w := ⟨Memory.put m k (k.of s).length x, _⟩) (t := t')
      ((List.getElem?_set_ne (a := goroutine cap render after (Copy.put { start s with base := s1 } k
        (.shared ((k.of s).length + 1)))) ht).trans e')
    have hm1 : Holds (Memory.put m k (k.of s).length x) s := by
      intro k' i hi
      rw [← hm k' i hi]
      by_cases hkk : k' = k
      · subst hkk
        rw [put_same, if_neg (by omega)]
      · exact put_other _ _ _ _ hkk
    have hst := stmt_put hm1 hk k x'
    have safe := safe_goroutine (n := fun _ => 0) (mine := fun _ => True) (cap := cap) render after
      ((Memory.put m k (k.of s).length x).put k (k.of s).length x')
      (Copy.put { start s with base := s1 } k (.shared ((k.of s).length + 1)))
      (by cases k <;> exact ⟨⟨Nat.zero_le _, fun _ => trivial⟩, ⟨Nat.zero_le _, fun _ => trivial⟩,
        ⟨Nat.zero_le _, fun _ => trivial⟩⟩)
      (fun _ _ _ _ _ _ => trivial)
    rw [hst, hk k] at safe
    obtain ⟨m', fin⟩ := safe.finish _ t
      ((List.getElem?_set_ne (Ne.symm ht)).trans (List.getElem?_set_self l1))
    refine ⟨_, Steps.trans (.tail (.tail .refl st1) st2) fin, ?_⟩
    simp only [List.getElem?_set_self', List.getElem?_set_ne (Ne.symm ht)]
    rw [List.getElem?_eq_getElem l1]
    rfl

end

/-! ## A concrete case -/

private def joined (table : Str) : Join :=
  { type := Types.InnerJoin, table := { name := table },
    cond := .onClause { name := s%"t.id" } { name := s%"u.id" } }

/-- `.Join(table, On("t.id", "u.id"))` -/
private def joinTo (table : Str) : SelCall :=
  .join [.val (.str table), .expr (.onClause { name := s%"t.id" } { name := s%"u.id" })]

/-- `Select("id").From("t").Join("a", …).Join("b", …).Join("c", …)` -/
private def base : SelectStmt :=
  { SelectStmt.zero with
    exprs := [.column { name := s%"id" }]
    tables := [.table { name := s%"t" }]
    joins := [joined s%"a", joined s%"b", joined s%"c"] }

/-- After three joins the array has four cells (Go doubles small arrays). -/
private def caps : Clause → Nat
  | .joins => 4
  | _ => 0

private def memory : Memory
  | .joins, i => base.joins.getD i (joined s%"")
  | .withs, _ => { name := [], subquery := .nil }
  | .orders, _ => { expression := [], type := [] }

private theorem memory_holds : Holds memory base := by
  intro k i h
  cases k with
  | joins =>
    have hi : i < base.joins.length := h
    show base.joins.getD i _ = base.joins[i]
    simp [hi]
  | withs => exact absurd h (Nat.not_lt_zero _)
  | orders => exact absurd h (Nat.not_lt_zero _)

private theorem joinTo_adds (table : Str) (h : (joined table).isEmpty = .ok false) :
    AddsOne .joins (joinTo table) (joined table) := by
  refine ⟨rfl, fun s => ?_⟩
  simp only [joinTo, SelCall.apply]
  rw [SelectStmt.Join_eq]
  have hj : SelectStmt.joinOf [.val (.str table),
      .expr (.onClause { name := s%"t.id" } { name := s%"u.id" })] = .ok (joined table) := rfl
  rw [hj]
  simp only [SelectStmt.addJoin, h]
  rfl

private theorem joined_d : (joined s%"d").isEmpty = .ok false := rfl
private theorem joined_e : (joined s%"e").isEmpty = .ok false := rfl

attribute [local instance] Runtime.sample

/-- Two goroutines that add a join to the same builder and ask for its text: the first can get the query
of the second. -/
theorem C78_witness : ∃ w,
    Steps (begin caps memory base
      [⟨[joinTo s%"d"], (·.string)⟩, ⟨[joinTo s%"e"], (·.string)⟩]) w ∧
    w.threads[0]? = some (.done (.ok (
      s%"SELECT \"id\" FROM \"t\" INNER JOIN \"a\" ON \"t\".\"id\" = \"u\".\"id\" " ++
      s%"INNER JOIN \"b\" ON \"t\".\"id\" = \"u\".\"id\" " ++
      s%"INNER JOIN \"c\" ON \"t\".\"id\" = \"u\".\"id\" " ++
      s%"INNER JOIN \"e\" ON \"t\".\"id\" = \"u\".\"id\""))) := by
  obtain ⟨_, w, h1, h2⟩ := @C78_exact Runtime.sample Str caps memory base memory_holds .joins
    (by decide) (by intro h; cases h)
    [⟨[joinTo s%"d"], (·.string)⟩, ⟨[joinTo s%"e"], (·.string)⟩] 0 1 (by decide) [] [] [] []
    (joinTo s%"d") (joinTo s%"e") (·.string) (·.string) rfl rfl (by simp) (by simp) base base rfl rfl
    (joined s%"d") (joined s%"e") (joinTo_adds _ joined_d) (joinTo_adds _ joined_e)
  refine ⟨w, h1, h2.trans ?_⟩
  congr 2

/-- What it gets alone. -/
theorem C78_alone : Job.alone ⟨[joinTo s%"d"], (·.string)⟩ base = .ok (
      s%"SELECT \"id\" FROM \"t\" INNER JOIN \"a\" ON \"t\".\"id\" = \"u\".\"id\" " ++
      s%"INNER JOIN \"b\" ON \"t\".\"id\" = \"u\".\"id\" " ++
      s%"INNER JOIN \"c\" ON \"t\".\"id\" = \"u\".\"id\" " ++
      s%"INNER JOIN \"d\" ON \"t\".\"id\" = \"u\".\"id\"") := by
  decide +kernel

/-- C78 is false of the code. -/
theorem C78_false : ¬ ∀ [GoRuntime] (cap : Clause → Nat) (m : Memory) (s : SelectStmt)
    (_ : Holds m s) (_ : ∀ k : Clause, (k.of s).length ≤ cap k) (jobs : List (Job Str))
    (w : World (Go Str)) (_ : Steps (begin cap m s jobs) w) (t : Nat) (r : Go Str),
    w.threads[t]? = some (.done r) → ∃ x, jobs[t]? = some x ∧ r = x.alone s := by
  intro h
  obtain ⟨w, h1, h2⟩ := C78_witness
  obtain ⟨x, h3, h4⟩ := @h Runtime.sample caps memory base memory_holds
    (by intro k; cases k <;> decide) _ w h1 0 _ h2
  cases h3
  have h5 := h4.trans C78_alone
  revert h5
  decide +kernel

/-- The hypotheses of `C78_partial` are met by three goroutines of which one adds a join, two (where the
array of orderings has no room) an ordering, and all a condition. -/
example : Separate caps base
    [(⟨[.where (.raw s%"x"), joinTo s%"d"], fun _ => .ok ()⟩ : Job Unit),
     ⟨[.orderBy [⟨s%"id", s%"ASC"⟩], .where (.raw s%"y")], fun _ => .ok ()⟩,
     ⟨[.where (.raw s%"z"), .orderBy [⟨s%"id", s%"DESC"⟩]], fun _ => .ok ()⟩] := by
  intro k hk _ t t' x x' h h' c hc ha c' hc' ha'
  cases k with
  | withs => exact absurd hk (by decide)
  | orders => exact absurd hk (by decide)
  | joins =>
    have only : ∀ (t : Nat) (x : Job Unit) (c : SelCall),
        ([(⟨[.where (.raw s%"x"), joinTo s%"d"], fun _ => .ok ()⟩ : Job Unit),
          ⟨[.orderBy [⟨s%"id", s%"ASC"⟩], .where (.raw s%"y")], fun _ => .ok ()⟩,
          ⟨[.where (.raw s%"z"), .orderBy [⟨s%"id", s%"DESC"⟩]], fun _ => .ok ()⟩] :
          List (Job Unit))[t]? = some x → c ∈ x.calls → Adds c .joins → t = 0 := by
      intro t x c h hc ha
      match t, h with
      | 0, _ => rfl
      | 1, h =>
        cases h
        simp at hc
        rcases hc with rfl | rfl <;> cases ha
      | 2, h =>
        cases h
        simp at hc
        rcases hc with rfl | rfl <;> cases ha
      | t + 3, h => cases h
    rw [only t x c h hc ha, only t' x' c' h' hc' ha']

end Verif.Props
