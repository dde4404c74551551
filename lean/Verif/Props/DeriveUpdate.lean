import Verif.Lemmas.DeriveUpdate
import Verif.Lemmas.DeriveUpdateOne
import Verif.Model.Runtime

/-!
# C79: goroutines that derive queries from one UPDATE builder
-/

set_option linter.unusedSectionVars false

namespace Verif.Props
open Spec hiding World Step Steps
open DeriveUpdate
open Concurrent (Sorter)

section
variable [GoRuntime] {α : Type}

/-- C79, partial. Goroutines that each derive a query of their own from the same UPDATE builder, by any
calls except SET with pairs, and render it, at the same time: as long as pairs that are in the builder
already are in order, and of the clauses common table expressions (if there are some), columns and
expressions of SET, those whose array has room are extended by one goroutine at most, each goroutine that
has ended has returned what it returns alone, on plain values; the shared builder is as it was; and all
goroutines can go on to their end from wherever they are.
Missing: two goroutines that extend a clause whose array has room (false, as `C78_exact` for SELECT);
pairs that are not in order (false, see `C76_exact`); SET with pairs (false, see `C79_mixed` and
`C79_lost`). -/
theorem C79_partial (cap : Clause → Nat) (sorter : Nat → Sorter) (m : Memory) (s : UpdateStmt)
    (hm : Holds m s) (ho : InOrder sorter s) (jobs : List (Job α)) (hs : Separate cap s jobs)
    (hp : ∀ x ∈ jobs, NoPairs x.calls) (w : World (Go α))
    (h : Steps (begin cap sorter m s jobs) w) :
    Holds w.memory s ∧
    (∀ (t : Nat) (r : Go α), w.threads[t]? = some (.done r) →
      ∃ x, jobs[t]? = some x ∧ r = x.alone s) ∧
    ∃ m', Steps w ⟨m', jobs.map fun x => .done (x.alone s)⟩ := by
  let n : Clause → Nat := fun k => (k.of s).length
  let mine : Nat → Clause → Prop := fun t k => n k < cap k ∧ (k = .withs → s.withs ≠ []) ∧
    ∃ x, jobs[t]? = some x ∧ ∃ c ∈ x.calls, Adds c k
  let res : Nat → Go α := fun t =>
    match jobs[t]? with
    | some x => x.alone s
    | none => .error .nilDeref
  have hd : ∀ k t t', mine t k → mine t' k → t = t' := by
    rintro k t t' ⟨h1, h0, x, h2, c, h3, h4⟩ ⟨_, _, x', h5, c', h6, h7⟩
    exact hs k h1 h0 t t' x x' h2 h5 c h3 h4 c' h6 h7
  have h0 : Inv n mine res m jobs.length (begin cap sorter m s jobs) := by
    refine ⟨by simp [begin], ?_, fun _ _ _ => rfl, rfl⟩
    intro t a ha
    simp only [begin, List.getElem?_map, Option.map_eq_some_iff] at ha
    obtain ⟨x, hx, rfl⟩ := ha
    have hr : res t = x.alone s := by simp only [res, hx]
    rw [hr]
    have := safe_goroutine (n := n) (mine := mine t) (sorter := sorter) (cols := s.set.columns)
      (cap := cap) x.render x.calls
      (fun c hc k ha hk hz => ⟨hk, fun e he => hz e (by
        subst e
        exact List.length_eq_zero_iff.2 he), x, hx, c, hc, ha⟩)
      (hp x (List.mem_of_getElem? hx)) m (start s)
      ⟨⟨Nat.le_refl _, fun h => absurd h (Nat.lt_irrefl _)⟩,
        ⟨Nat.le_refl _, fun h => absurd h (Nat.lt_irrefl _)⟩,
        ⟨Nat.le_refl _, fun h => absurd h (Nat.lt_irrefl _)⟩,
        value_start hm .columns, fun h => ⟨rfl, ho h⟩⟩
    rwa [stmt_start hm] at this
  have h1 := h0.steps hd h
  refine ⟨⟨h1.map.trans hm.1, ?_⟩, ?_, ?_⟩
  · intro k i hi
    exact (h1.kept k i hi).trans (hm.2 k i hi)
  · intro t r hr
    have hl := (List.getElem?_eq_some_iff.1 hr).1
    rw [h1.length] at hl
    have hsafe := h1.safe t _ hr
    generalize hq : res t = q at hsafe
    cases hsafe
    refine ⟨jobs[t], List.getElem?_eq_getElem hl, ?_⟩
    rw [← hq]
    simp only [res, List.getElem?_eq_getElem hl]
  · obtain ⟨m', h2⟩ := h1.finish hd
    refine ⟨m', ?_⟩
    have e : (List.range jobs.length).map (fun t => (Act.done (res t) : Act (Go α))) =
        jobs.map fun x => .done (x.alone s) := by
      apply List.ext_getElem
      · simp
      · intro t h3 h4
        simp only [List.length_map, List.length_range] at h3
        simp only [List.getElem_map, List.getElem_range, res, List.getElem?_eq_getElem h3]
    rwa [e] at h2

/-- The end of a goroutine that has set the column and renders, after both have set it. -/
private theorem render_both (sorter : Nat → Sorter) (m m1 : Memory) (s : UpdateStmt) (hm : Holds m s)
    (ho : InOrder sorter { s with set := { s.set with mode := .associative } })
    (hk : ∀ (k : Clause) (i : Nat), i < (k.of s).length → m1.cells k i = m.cells k i)
    (render : W → Go α) (ts : List (Act (Go α))) (t : Nat)
    (ht : ts[t]? = some (((start s).withMode .associative).render sorter render)) :
    ∃ m', Steps ⟨m1, ts⟩ ⟨m', ts.set t (.done (render (Stmt.update
      { s with set := { s.set with mode := .associative, map := m1.map } }).write))⟩ := by
  have hv : ∀ k : Clause, value m1 (k := k) (.shared (k.of s).length) = k.of s := by
    intro k
    refine Eq.trans ?_ (value_start hm k)
    simp only [value]
    exact List.map_congr_left fun i hi => hk k i (List.mem_range.1 hi)
  have hsafe := safe_render (n := fun k => (k.of s).length) (mine := fun _ => False)
    (sorter := sorter) (cols := s.set.columns) (m := m1) (b := (start s).withMode .associative)
    ⟨⟨Nat.le_refl _, fun h => absurd h (Nat.lt_irrefl _)⟩,
      ⟨Nat.le_refl _, fun h => absurd h (Nat.lt_irrefl _)⟩,
      ⟨Nat.le_refl _, fun h => absurd h (Nat.lt_irrefl _)⟩,
      hv .columns, fun h => ⟨rfl, ho h⟩⟩ render
  have e : ((start s).withMode .associative).stmt m1 =
      { s with set := { s.set with mode := .associative, map := m1.map } } := by
    have e1 : value m1 (k := .withs) (start s).withs = s.withs := hv .withs
    have e2 : value m1 (k := .columns) (start s).columns = s.set.columns := hv .columns
    have e3 : value m1 (k := .exprs) (start s).exprs = s.set.expressions := hv .exprs
    simp only [Copy.stmt, Copy.withMode, e1, e2, e3, fill]
    rfl
  rw [e] at hsafe
  exact hsafe.finish ts t ht

/-- C79: one goroutine alone, with any calls (pairs too), however its columns are sorted: its query is
the one that the calls give. -/
theorem C79_one (cap : Clause → Nat) (sorter : Nat → Sorter) (m : Memory) (s : UpdateStmt)
    (hm : Holds m s) (x : Job α)
    (hs : ∀ s', runAll UpdCall.apply x.calls s = .ok s' → s'.set.mode = .associative →
      Sorts (sorter s'.set.columns.length) s'.set.columns)
    (w : World (Go α)) (h : Steps (begin cap sorter m s [x]) w) :
    (∀ (t : Nat) (r : Go α), w.threads[t]? = some (.done r) → r = x.alone s) ∧
    ∃ m', Steps w ⟨m', [.done (x.alone s)]⟩ := by
  have key : One.finish (goroutine cap sorter x.render x.calls (start s)) m = x.alone s := by
    have := One.finish_goroutine (cap := cap) (sorter := sorter) x.render x.calls m (start s)
      (by rw [stmt_start hm]; exact hs)
    rwa [stmt_start hm] at this
  obtain ⟨m', a, rfl, h2⟩ := One.steps_one h
  constructor
  · intro t r hr
    obtain ⟨hl, he⟩ := List.getElem?_eq_some_iff.1 hr
    obtain rfl : t = 0 := by simpa using hl
    obtain rfl : a = .done r := he
    exact h2.trans key
  · obtain ⟨m'', h3⟩ := One.steps_finish a m' [a] 0 rfl
    refine ⟨m'', ?_⟩
    rw [h2.trans key] at h3
    exact h3

/-- C79: Go's insertion sort sorts the columns that pairs have, which are distinct. -/
theorem C79_sorts (cols : List Column) (hn : cols.Nodup) (ha : ∀ c ∈ cols, c.alias = []) :
    Sorts (.insertion (List.range' 1 (cols.length - 1))) cols := by
  constructor
  · refine One.within_insertion _ fun i hi => ?_
    rw [List.mem_range'_1] at hi
    omega
  · obtain ⟨m', h1, h2⟩ := Concurrent.values_alone hn ha (fun cs => Concurrent.Act.done cs)
    unfold Concurrent.values at h2
    rw [← Concurrent.act_insertion, One.finish_act, Concurrent.finish_readCells] at h2
    exact congrArg Prod.snd h2

/-- C79: SET with columns, USING and WITH. If the array of a clause has room, and two goroutines begin
with a call that adds one element to that clause, then the query of one of them can have the element of
the other in the place of its own. (A first WITH is in an array of its own and does no harm.) -/
theorem C79_append (cap : Clause → Nat) (sorter : Nat → Sorter) (m : Memory) (s : UpdateStmt)
    (hm : Holds m s) (k : Clause) (hr : (k.of s).length < cap k) (hw : k = .withs → s.withs ≠ [])
    (jobs : List (Job α)) (t t' : Nat) (ht : t ≠ t') (c c' : UpdCall) (after after' : List UpdCall)
    (render render' : W → Go α) (h : jobs[t]? = some ⟨c :: after, render⟩)
    (h' : jobs[t']? = some ⟨c' :: after', render'⟩) (x x' : k.Elem) (hx : AddsOne s k c x)
    (hx' : AddsOne s k c' x')
    (hs : ∀ s', runAll UpdCall.apply after (k.plus s x') = .ok s' → s'.set.mode = .associative →
      Sorts (sorter s'.set.columns.length) s'.set.columns) :
    (Job.mk (c :: after) render).alone s = (Job.mk after render).alone (k.plus s x) ∧
    ∃ w, Steps (begin cap sorter m s jobs) w ∧
      w.threads[t]? = some (.done ((Job.mk after render).alone (k.plus s x'))) := by
  constructor
  · simp only [Job.alone, runAll, One.apply_one hx hw]
  · obtain ⟨b, e1, e2⟩ := One.call_one (α := α) hx hr hw
    obtain ⟨b', e1', _⟩ := One.call_one (α := α) hx' hr hw
    have a : (begin cap sorter m s jobs).threads[t]? = some (.write k (k.of s).length x
        (goroutine cap sorter render after b)) := by
      simp only [begin, List.getElem?_map, h, Option.map_some, goroutine, e1]
    have a' : (begin cap sorter m s jobs).threads[t']? = some (.write k (k.of s).length x'
        (goroutine cap sorter render' after' b')) := by
      simp only [begin, List.getElem?_map, h', Option.map_some, goroutine, e1']
    have l := (List.getElem?_eq_some_iff.1 a).1
    have s1 : Steps (begin cap sorter m s jobs) _ := .tail .refl (.write a)
    have s2 := Steps.tail s1 (.write (t := t') ((List.getElem?_set_ne ht).trans a'))
    obtain ⟨m', s3⟩ := One.steps_finish (goroutine cap sorter render after b)
      ((m.put k (k.of s).length x).put k (k.of s).length x')
      ((((begin cap sorter m s jobs).threads.set t (goroutine cap sorter render after b))).set t'
        (goroutine cap sorter render' after' b')) t
      ((List.getElem?_set_ne (Ne.symm ht)).trans (List.getElem?_set_self l))
    refine ⟨_, Steps.trans s2 s3, ?_⟩
    have hb : b.stmt ((m.put k (k.of s).length x).put k (k.of s).length x') = k.plus s x' := by
      refine (e2 _ ?_ ?_).trans ?_
      · intro k' i hi
        rw [← hm.2 k' i hi]
        by_cases hk : k' = k
        · subst hk
          rw [put_same, put_same, if_neg (by omega), if_neg (by omega)]
        · rw [put_other _ _ _ _ hk, put_other _ _ _ _ hk]
      · exact hm.1
      · rw [put_same, if_pos rfl]
    rw [One.finish_goroutine render after _ b (by rw [hb]; exact hs), hb]
    exact List.getElem?_set_self (by simpa using l)

/-- C79: SET with pairs. If two goroutines set a column that the builder has already, then one of them
can get the query of the other. -/
theorem C79_mixed (cap : Clause → Nat) (sorter : Nat → Sorter) (m : Memory) (s : UpdateStmt)
    (hm : Holds m s) (ho : InOrder sorter s) (hmode : s.set.mode = .associative)
    (jobs : List (Job α)) (t t' : Nat) (ht : t ≠ t') (key v key' v' : Any) (c : Column) (e e' : Expr)
    (hc : toColumn key = .ok c) (hc' : toColumn key' = .ok c)
    (he : newWrapped v = .ok e) (he' : newWrapped v' = .ok e')
    (hl : (mapLookup c s.set.map).isSome = true)
    (render render' : W → Go α) (h : jobs[t]? = some ⟨[.set [.pair key v]], render⟩)
    (h' : jobs[t']? = some ⟨[.set [.pair key' v']], render'⟩) :
    ∃ w, Steps (begin cap sorter m s jobs) w ∧
      w.threads[t]? = some (.done ((Job.mk [.set [.pair key' v']] render).alone s)) := by
  have a : (begin cap sorter m s jobs).threads[t]? = some ((start s).add cap c e
      (goroutine cap sorter render [])) := by
    simp only [begin, List.getElem?_map, h, Option.map_some, goroutine, Copy.call, Set_pair hc he]
  have a' : (begin cap sorter m s jobs).threads[t']? = some ((start s).add cap c e'
      (goroutine cap sorter render' [])) := by
    simp only [begin, List.getElem?_map, h', Option.map_some, goroutine, Copy.call, Set_pair hc' he']
  have hnot : (start s).base.set.mode ≠ .array := by
    show s.set.mode ≠ .array
    rw [hmode]
    decide
  have l1 := (List.getElem?_eq_some_iff.1 a).1
  have s1 := add_old hnot (m := m) (by rw [hm.1]; exact hl) a
  have s2 := add_old hnot (m := m.assign c e) (by simp [Memory.assign, lookup_mapAssign])
    ((List.getElem?_set_ne (a := goroutine cap sorter render [] ((start s).withMode .associative))
      ht).trans a')
  obtain ⟨m', s3⟩ := render_both sorter m ((m.assign c e).assign c e') s hm
    (fun _ => ho hmode) (fun _ _ _ => rfl) render _ t
    ((List.getElem?_set_ne (Ne.symm ht)).trans (List.getElem?_set_self l1))
  refine ⟨_, Steps.trans (Steps.trans s1 s2) s3, ?_⟩
  have e1 : (Job.mk [.set [.pair key' v']] render).alone s = render (Stmt.update
      { s with set := { s.set with mode := .associative,
                                   map := ((m.assign c e).assign c e').map } }).write := by
    have hap : (UpdCall.set [.pair key' v']).apply s = .ok { s with set := { s.set with
        mode := .associative, map := mapAssign c e' s.set.map } } := by
      simp only [UpdCall.apply, UpdateStmt.Set, mergeSet, mergeSetArg, addPair, hc', he',
        PairContainer.add, hmode, hl]
      rfl
    simp only [Job.alone, runAll, hap, Memory.assign, mapAssign_twice, hm.1]
  rw [e1]
  simp only [List.getElem?_set_self', List.getElem?_set_ne (Ne.symm ht)]
  rw [List.getElem?_eq_getElem l1]
  rfl

/-- C79: SET with pairs. If two goroutines set a column that the builder does not have yet, then one of
them finds it in the map that they share, does not add it, and gets a query without the column. -/
theorem C79_lost (cap : Clause → Nat) (sorter : Nat → Sorter) (m : Memory) (s : UpdateStmt)
    (hm : Holds m s) (ho : InOrder sorter { s with set := { s.set with mode := .associative } })
    (hmode : s.set.mode ≠ .array)
    (jobs : List (Job α)) (t t' : Nat) (ht : t ≠ t') (key v key' v' : Any) (c : Column) (e e' : Expr)
    (hc : toColumn key = .ok c) (hc' : toColumn key' = .ok c)
    (he : newWrapped v = .ok e) (he' : newWrapped v' = .ok e')
    (hl : mapLookup c s.set.map = none)
    (render render' : W → Go α) (h : jobs[t]? = some ⟨[.set [.pair key v]], render⟩)
    (h' : jobs[t']? = some ⟨[.set [.pair key' v']], render'⟩) :
    (Job.mk [.set [.pair key' v']] render').alone s = render' (Stmt.update { s with set := { s.set with
      mode := .associative, map := mapAssign c e' s.set.map,
      columns := s.set.columns ++ [c] } }).write ∧
    ∃ w, Steps (begin cap sorter m s jobs) w ∧
      w.threads[t']? = some (.done (render' (Stmt.update { s with set := { s.set with
        mode := .associative, map := mapAssign c e' s.set.map } }).write)) := by
  constructor
  · have hmd : (if s.set.mode = .unknown then .associative else s.set.mode) =
        PairMode.associative := by
      cases hx : s.set.mode <;> simp_all
    have hap : (UpdCall.set [.pair key' v']).apply s = .ok { s with set := { s.set with
        mode := .associative, map := mapAssign c e' s.set.map,
        columns := s.set.columns ++ [c] } } := by
      simp only [UpdCall.apply, UpdateStmt.Set, mergeSet, mergeSetArg, addPair, hc', he',
        PairContainer.add, hmd, hl]
      rfl
    simp only [Job.alone, runAll, hap]
  · have a : (begin cap sorter m s jobs).threads[t]? = some ((start s).add cap c e
        (goroutine cap sorter render [])) := by
      simp only [begin, List.getElem?_map, h, Option.map_some, goroutine, Copy.call, Set_pair hc he]
    have a' : (begin cap sorter m s jobs).threads[t']? = some ((start s).add cap c e'
        (goroutine cap sorter render' [])) := by
      simp only [begin, List.getElem?_map, h', Option.map_some, goroutine, Copy.call,
        Set_pair hc' he']
    have hnot : (start s).base.set.mode ≠ .array := hmode
    have l1 := (List.getElem?_eq_some_iff.1 a').1
    obtain ⟨m1, b1, hf, s1⟩ := add_new (n := fun k => (k.of s).length) hnot (m := m)
      (by rw [hm.1, hl]; decide) rfl (Nat.le_refl _) a
    have s2 := add_old hnot (m := m1.assign c e) (by simp [Memory.assign, lookup_mapAssign])
      ((List.getElem?_set_ne (a := goroutine cap sorter render [] b1) ht).trans a')
    have hk : ∀ (k : Clause) (i : Nat), i < (k.of s).length → m1.cells k i = m.cells k i := by
      intro k i hi
      by_cases hk : k = .columns
      · subst hk
        exact hf.below i hi
      · rw [hf.other k hk]
    obtain ⟨m', s3⟩ := render_both sorter m ((m1.assign c e).assign c e') s hm ho hk render'
      (((begin cap sorter m s jobs).threads.set t (goroutine cap sorter render [] b1)).set t'
        (goroutine cap sorter render' [] ((start s).withMode .associative))) t'
      (List.getElem?_set_self (by simpa using l1))
    refine ⟨_, Steps.trans (Steps.trans s1 s2) s3, ?_⟩
    have e1 : ((m1.assign c e).assign c e').map = mapAssign c e' s.set.map := by
      simp only [Memory.assign, mapAssign_twice, hf.map, hm.1]
    rw [e1]
    exact List.getElem?_set_self (by simpa using l1)

/-- C79: Go's insertion sort (what `sort.Slice` does with few elements) is one of the ways to sort that
are meant: where pairs have no alias and their names go up, it swaps nothing. -/
theorem C79_insertion (s : UpdateStmt) (h : Ascending s.set.columns) :
    InOrder (fun n => .insertion (List.range' 1 (n - 1))) s := by
  have within : ∀ (N : Nat) (next : Sorter), next.Within N → ∀ i, i < N →
      (Sorter.sink next i).Within N := by
    intro N next hn i
    induction i with
    | zero => exact fun _ => hn
    | succ j ih =>
      intro hi
      refine ⟨hi, by omega, ?_⟩
      intro b
      cases b with
      | true => exact ⟨hi, by omega, ih (by omega)⟩
      | false => exact hn
  have all : ∀ l : List Nat, (∀ i ∈ l, i < s.set.columns.length) →
      (Sorter.insertion l).Within s.set.columns.length ∧
      (Sorter.insertion l).Still (arrayOf s.set.columns) := by
    intro l
    induction l with
    | nil => exact fun _ => ⟨trivial, trivial⟩
    | cons i l ih =>
      intro hl
      obtain ⟨h1, h2⟩ := ih fun j hj => hl j (List.mem_cons_of_mem _ hj)
      have hi := hl i (List.mem_cons_self ..)
      refine ⟨within _ _ h1 i hi, ?_⟩
      cases i with
      | zero => exact h2
      | succ j =>
        have hf : columnLess (arrayOf s.set.columns (j + 1)) (arrayOf s.set.columns j) = false := by
          rw [Concurrent.arrayOf_lt hi, Concurrent.arrayOf_lt (Nat.lt_of_succ_lt hi)]
          have h3 := List.pairwise_iff_getElem.1 h.2 j (j + 1) (by omega) hi (by omega)
          rw [Bool.eq_false_iff]
          intro h4
          simp only [columnLess, Bool.or_eq_true, strLt_iff] at h4
          rcases h4 with h4 | h4
          · exact str_lt_irrefl _ (str_lt_trans h3 h4)
          · rw [h.1 _ (List.getElem_mem hi), h.1 _ (List.getElem_mem (Nat.lt_of_succ_lt hi))] at h4
            exact str_lt_irrefl _ h4
        show Sorter.Still (if columnLess _ _ = true then _ else _) _
        rw [hf]
        exact h2
  intro _
  refine ⟨h, all _ ?_⟩
  intro i hi
  rw [List.mem_range'_1] at hi
  omega

end

/-! ## A concrete case -/

/-- `Update("t")` -/
private def base : UpdateStmt := UpdateStmt.init { name := s%"t" }

/-- `.Set(Pair("a", v))` -/
private def setA (v : Int) : UpdCall := .set [.pair (.val (.str s%"a")) (.val (.int .int v))]

private def memory : Memory :=
  ⟨fun | .withs, _ => { name := [], subquery := .nil } | .columns, _ => { name := [] }
       | .exprs, _ => .nil, []⟩

private theorem memory_holds : Holds memory base := by
  refine ⟨rfl, ?_⟩
  intro k i h
  cases k <;> exact absurd h (Nat.not_lt_zero _)

/-- Go's insertion sort. -/
private def sorter (n : Nat) : Sorter := .insertion (List.range' 1 (n - 1))

attribute [local instance] Runtime.sample

/-- Two goroutines that set the same column of `Update("t")` and ask for its text: one of them can get
a text without any column. -/
theorem C79_witness : ∃ w,
    Steps (begin (fun _ => 0) sorter memory base [⟨[setA 1], (·.string)⟩, ⟨[setA 2], (·.string)⟩]) w ∧
    w.threads[1]? = some (.done (.ok s%"UPDATE \"t\" SET ")) := by
  obtain ⟨_, w, h1, h2⟩ := @C79_lost Runtime.sample Str (fun _ => 0) sorter memory base memory_holds
    (fun _ => ⟨⟨by simp [base, UpdateStmt.init, PairContainer.new],
      by simp [base, UpdateStmt.init, PairContainer.new]⟩, trivial, trivial⟩) (by decide)
    [⟨[setA 1], (·.string)⟩, ⟨[setA 2], (·.string)⟩] 0 1 (by decide)
    _ _ _ _ { name := s%"a" } _ _ rfl rfl rfl rfl rfl (·.string) (·.string) rfl rfl
  refine ⟨w, h1, h2.trans ?_⟩
  congr 2

/-- What it gets alone. -/
theorem C79_alone : Job.alone ⟨[setA 2], (·.string)⟩ base = .ok s%"UPDATE \"t\" SET \"a\" = 2" := by
  decide +kernel

/-- C79 is false of the code. -/
theorem C79_false : ¬ ∀ [GoRuntime] (cap : Clause → Nat) (sorter : Nat → Sorter) (m : Memory)
    (s : UpdateStmt) (_ : Holds m s) (_ : InOrder sorter s)
    (_ : ∀ k : Clause, (k.of s).length ≤ cap k) (jobs : List (Job Str))
    (w : World (Go Str)) (_ : Steps (begin cap sorter m s jobs) w) (t : Nat) (r : Go Str),
    w.threads[t]? = some (.done r) → ∃ x, jobs[t]? = some x ∧ r = x.alone s := by
  intro h
  obtain ⟨w, h1, h2⟩ := C79_witness
  obtain ⟨x, h3, h4⟩ := @h Runtime.sample (fun _ => 0) sorter memory base memory_holds
    (fun h => by cases h) (by intro k; cases k <;> decide) _ w h1 1 _ h2
  cases h3
  have h5 := h4.trans C79_alone
  revert h5
  decide +kernel

/-- `Update("t").Set(Pair("a", 1), Pair("b", 2))` -/
private def pairs : UpdateStmt :=
  { base with set := { mode := .associative, columns := [{ name := s%"a" }, { name := s%"b" }],
                       map := [({ name := s%"a" }, .value (.int .int 1)),
                               ({ name := s%"b" }, .value (.int .int 2))],
                       expressions := [] } }

private theorem pairs_ascending : Ascending pairs.set.columns := by
  refine ⟨?_, ?_⟩
  · intro c hc
    simp only [pairs, List.mem_cons, List.not_mem_nil, or_false] at hc
    rcases hc with rfl | rfl <;> rfl
  · simp only [pairs, List.pairwise_cons, List.mem_singleton]
    refine ⟨?_, fun _ h => absurd h List.not_mem_nil, List.Pairwise.nil⟩
    rintro c rfl
    decide

/-- The hypotheses of `C79_partial` are met by goroutines that derive different queries from a builder
with two pairs, two of them with a first WITH. -/
example : InOrder sorter pairs ∧
    Separate (fun _ => 4) pairs
      [(⟨[.where (.raw s%"x"), .with [⟨s%"w", .raw s%"1"⟩]], fun _ => .ok ()⟩ : Job Unit),
       ⟨[.with [⟨s%"v", .raw s%"2"⟩], .only], fun _ => .ok ()⟩,
       ⟨[.returning [.val (.str s%"id")], .using [], .comment s%"c"], fun _ => .ok ()⟩] ∧
    NoPairs [.where (.raw s%"x"), .with [⟨s%"w", .raw s%"1"⟩], .set [.val (.str s%"c")]] := by
  refine ⟨C79_insertion pairs pairs_ascending, ?_, ?_⟩
  · intro k hk hw t t' x x' h h' c hc ha c' hc' ha'
    cases k with
    | withs => exact absurd rfl (hw rfl)
    | columns =>
      obtain ⟨args, rfl⟩ := ha
      exfalso
      match t, h with
      | 0, h => cases h; simp at hc
      | 1, h => cases h; simp at hc
      | 2, h => cases h; simp at hc
      | t + 3, h => cases h
    | exprs =>
      have only : ∀ (t : Nat) (x : Job Unit) (c : UpdCall),
          ([(⟨[.where (.raw s%"x"), .with [⟨s%"w", .raw s%"1"⟩]], fun _ => .ok ()⟩ : Job Unit),
            ⟨[.with [⟨s%"v", .raw s%"2"⟩], .only], fun _ => .ok ()⟩,
            ⟨[.returning [.val (.str s%"id")], .using [], .comment s%"c"], fun _ => .ok ()⟩] :
            List (Job Unit))[t]? = some x → c ∈ x.calls → Adds c .exprs → t = 2 := by
        intro t x c h hc ha
        obtain ⟨args, rfl⟩ := ha
        match t, h with
        | 0, h => cases h; simp at hc
        | 1, h => cases h; simp at hc
        | 2, _ => rfl
        | t + 3, h => cases h
      rw [only t x c h hc ha, only t' x' c' h' hc' ha']
  · intro args h a ha
    simp only [List.mem_cons, List.not_mem_nil, or_false, reduceCtorEq, false_or, UpdCall.set.injEq] at h
    subst h
    cases List.mem_singleton.1 ha
    exact id

/-- Two goroutines that set `a` in the builder with two pairs: the first can get the value of the
second. -/
example (m : Memory) (hm : Holds m pairs) : ∃ w,
    Steps (begin (fun _ => 2) sorter m pairs [⟨[setA 7], (·.string)⟩, ⟨[setA 8], (·.string)⟩]) w ∧
    w.threads[0]? = some (.done (.ok s%"UPDATE \"t\" SET \"a\" = 8, \"b\" = 2")) := by
  obtain ⟨w, h1, h2⟩ := @C79_mixed Runtime.sample Str (fun _ => 2) sorter m pairs hm
    (C79_insertion pairs pairs_ascending) rfl
    [⟨[setA 7], (·.string)⟩, ⟨[setA 8], (·.string)⟩] 0 1 (by decide)
    _ _ _ _ { name := s%"a" } _ _ rfl rfl rfl rfl rfl (·.string) (·.string) rfl rfl
  refine ⟨w, h1, h2.trans ?_⟩
  congr 2

/-- `Update("t").Set(Pair("b", 2))` -/
private def onlyB : UpdateStmt :=
  { base with set := { mode := .associative, columns := [{ name := s%"b" }],
                       map := [({ name := s%"b" }, .value (.int .int 2))], expressions := [] } }

/-- One goroutine that adds the column `a` after `b`: `C79_one` applies, with the room of the array as
it may be, and the columns are sorted. -/
example (cap : Clause → Nat) (m : Memory) (hm : Holds m onlyB) (w : World (Go Str))
    (h : Steps (begin cap sorter m onlyB [⟨[setA 7], (·.string)⟩]) w) :
    ∃ m', Steps w ⟨m', [.done (.ok s%"UPDATE \"t\" SET \"a\" = 7, \"b\" = 2")]⟩ := by
  have h1 := (@C79_one Runtime.sample Str cap sorter m onlyB hm ⟨[setA 7], (·.string)⟩ (by
    intro s' hs' _
    cases hs'
    exact C79_sorts _ (by decide) (by
      intro c hc
      rcases List.mem_append.1 hc with hc | hc
      · cases List.mem_singleton.1 hc
        rfl
      · cases List.mem_singleton.1 hc
        rfl)) w h).2
  have e : Job.alone ⟨[setA 7], (·.string)⟩ onlyB =
      .ok s%"UPDATE \"t\" SET \"a\" = 7, \"b\" = 2" := by decide +kernel
  rwa [e] at h1

/-- `Update("t").Set("x")` -/
private def onlyX : UpdateStmt :=
  { base with set := { mode := .array, columns := [{ name := s%"x" }], map := [],
                       expressions := [] } }

/-- `.Using(1, 2)` -/
private def use : UpdCall := .using [.val (.int .int 1), .val (.int .int 2)]

/-- Two goroutines that add a column each, where the array has room for two: the first can get the
column of the second. -/
example (m : Memory) (hm : Holds m onlyX) : ∃ w,
    Steps (begin (fun _ => 2) sorter m onlyX
      [⟨[.set [.val (.str s%"y")], use], (·.string)⟩, ⟨[.set [.val (.str s%"z")]], (·.string)⟩]) w ∧
    w.threads[0]? = some (.done (.ok s%"UPDATE \"t\" SET (\"x\", \"z\") = (1, 2)")) := by
  obtain ⟨_, w, h1, h2⟩ := @C79_append Runtime.sample Str (fun _ => 2) sorter m onlyX hm .columns
    (by decide) (fun h => by cases h)
    [⟨[.set [.val (.str s%"y")], use], (·.string)⟩, ⟨[.set [.val (.str s%"z")]], (·.string)⟩] 0 1
    (by decide) _ _ [use] [] (·.string) (·.string) rfl rfl { name := s%"y" } { name := s%"z" }
    ⟨by decide, _, rfl, rfl⟩ ⟨by decide, _, rfl, rfl⟩ (by
      intro s' hs' hmode
      cases hs'
      cases hmode)
  refine ⟨w, h1, h2.trans ?_⟩
  have e : Job.alone ⟨[use], (·.string)⟩ (Clause.plus onlyX .columns { name := s%"z" }) =
      .ok s%"UPDATE \"t\" SET (\"x\", \"z\") = (1, 2)" := by decide +kernel
  rw [e]

end Verif.Props
