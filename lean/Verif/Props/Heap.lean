import Verif.Lemmas.HeapRender
import Verif.Props.Sample

/-!
# C45, C46, C47: builders that share memory

Builders are Go values whose fields refer to shared arrays and maps. A program makes builders, calls
methods on any of them in any order and renders any of them. `SelWorld.run`, `UpdWorld.run` and
`InsWorld.run` run a program on explicit memory, with any policy for the capacities that `append`
chooses; `ideal` is what the program means if builders are plain values.

DELETE builders have no memory in common: none of their methods appends to a slice or writes to a
map, and rendering them sorts nothing.
-/

set_option linter.unusedSectionVars false

namespace Verif.Props
open Spec

/-! ## C45: derived builders are independent -/

/-- C45, SELECT, partial. If of all builders that have the very same joins, orderings or common
table expressions (the same list from the same call) only one is extended, by one call, then no
builder ever changes: whatever is done with it and others later, it remains the statement it was.
Builders may be forked freely in all other clauses.
Missing: forks that both extend the same joins, orderings or common table expressions; there the
property is false, see `C45_select_false`. -/
theorem C45_select_partial (g : Growth) (ops later : List (Act Unit SelCall))
    (he : ExtendsOnce (fun _ => SelectStmt.zero) SelCall.apply SelCall.clause SelClause.accumulates
      ⟨[], []⟩ (ops ++ later)) (i : Nat) (s : SelectStmt)
    (hs : (SelWorld.run g ops).stmts[i]? = some s) :
    (SelWorld.run g (ops ++ later)).stmts[i]? = some s := by
  rw [sel_run g _ he]
  rw [sel_run g _ (extendsOnce_append _ _ _ _ _ _ _ he)] at hs
  obtain ⟨l, hl⟩ := ideal_prefix (fun _ => SelectStmt.zero) SelCall.apply ops later
  rw [hl, List.getElem?_append_left (List.getElem?_eq_some_iff.1 hs).1, hs]

/-- C45, SELECT. Under the same condition the builders are those of the program on values. -/
theorem C45_select_values (g : Growth) (ops : List (Act Unit SelCall))
    (he : ExtendsOnce (fun _ => SelectStmt.zero) SelCall.apply SelCall.clause SelClause.accumulates
      ⟨[], []⟩ ops) :
    (SelWorld.run g ops).stmts = ideal (fun _ => SelectStmt.zero) SelCall.apply ops :=
  sel_run g ops he

section
variable [GoRuntime]

private theorem upd_rows (g : Growth) {ops : List (Act Table UpdCall)}
    (he : ExtendsOnce UpdateStmt.init UpdCall.apply UpdCall.clause UpdClause.accumulates
      ⟨[], []⟩ ops) {r : Bool} (hr : ∀ i b, Act.render i b ∈ ops → r = true) :
    ∃ rows, UpdInv r (UpdWorld.run g ops) (history UpdateStmt.init UpdCall.apply UpdCall.clause ops)
      rows :=
  updInv_run g ops updInv_start he hr

private theorem upd_get (g : Growth) {ops : List (Act Table UpdCall)}
    (he : ExtendsOnce UpdateStmt.init UpdCall.apply UpdCall.clause UpdClause.accumulates
      ⟨[], []⟩ ops) {r : Bool} (hr : ∀ i b, Act.render i b ∈ ops → r = true) {i : Nat}
    (hl : (history UpdateStmt.init UpdCall.apply UpdCall.clause ops).Live .set i) {t : UpdateStmt}
    (ht : (ideal UpdateStmt.init UpdCall.apply ops)[i]? = some t) :
    ∃ s, (UpdWorld.run g ops).stmts[i]? = some s ∧ UpdOrder s t ∧ (r = false → s = t) := by
  obtain ⟨rows, hi⟩ := upd_rows g he hr
  rw [← history_ideal _ _ UpdCall.clause, hi.entries, List.map_map, List.getElem?_map,
    Option.map_eq_some_iff] at ht
  obtain ⟨x, hx, rfl⟩ := ht
  have hm : x ∈ rows := List.mem_of_getElem? hx
  have hs : (UpdClause.set, x.entry.since .set) ∉
      (history UpdateStmt.init UpdCall.apply UpdCall.clause ops).spent :=
    hl x.entry (by rw [hi.entries, List.getElem?_map, hx]; rfl)
  refine ⟨x.ref.stmt _, ?_, (hi.order hm hs).1, (hi.order hm hs).2⟩
  unfold UpdWorld.stmts
  rw [hi.refs, List.map_map, List.getElem?_map, hx]
  rfl

private theorem upd_some (g : Growth) {ops : List (Act Table UpdCall)}
    (he : ExtendsOnce UpdateStmt.init UpdCall.apply UpdCall.clause UpdClause.accumulates
      ⟨[], []⟩ ops) {i : Nat} {s : UpdateStmt} (hs : (UpdWorld.run g ops).stmts[i]? = some s) :
    ∃ t, (ideal UpdateStmt.init UpdCall.apply ops)[i]? = some t := by
  obtain ⟨rows, hi⟩ := upd_rows g (r := true) he fun _ _ _ => rfl
  unfold UpdWorld.stmts at hs
  rw [hi.refs, List.map_map, List.getElem?_map, Option.map_eq_some_iff] at hs
  obtain ⟨x, hx, _⟩ := hs
  exact ⟨x.entry.stmt, by
    rw [← history_ideal _ _ UpdCall.clause, hi.entries, List.map_map, List.getElem?_map, hx]; rfl⟩

private theorem live_before {ops later : List (Act Table UpdCall)} {i : Nat} {k : UpdClause}
    (h : (history UpdateStmt.init UpdCall.apply UpdCall.clause (ops ++ later)).Live k i) :
    (history UpdateStmt.init UpdCall.apply UpdCall.clause ops).Live k i := by
  intro e he hm
  unfold history at h
  rw [List.foldl_append] at h
  obtain ⟨⟨l, h1⟩, h2⟩ := hist_grows UpdateStmt.init UpdCall.apply UpdCall.clause later
    (history UpdateStmt.init UpdCall.apply UpdCall.clause ops)
  refine h e ?_ (h2 _ hm)
  show (later.foldl _ (history UpdateStmt.init UpdCall.apply UpdCall.clause ops)).entries[i]? = _
  rw [h1, List.getElem?_append_left (List.getElem?_eq_some_iff.1 he).1, he]

/-- C45, UPDATE, partial. If of all builders that have the very same SET clause or common table
expressions only one is extended, by one call, then every builder whose SET clause has not been
extended renders what it rendered before, whatever is done and rendered later. It remains the same
statement but for the order of the columns in memory, which rendering changes; for the text this is
of no importance unless aliases contradict the names.
Missing: a builder after one of its derived builders has extended the SET clause; there the
property is false, see `C45_update_false` and `C45_render_false`. -/
theorem C45_update_partial (g : Growth) (ops later : List (Act Table UpdCall))
    (he : ExtendsOnce UpdateStmt.init UpdCall.apply UpdCall.clause UpdClause.accumulates
      ⟨[], []⟩ (ops ++ later)) (i : Nat)
    (hl : (history UpdateStmt.init UpdCall.apply UpdCall.clause (ops ++ later)).Live .set i)
    (s : UpdateStmt) (hs : (UpdWorld.run g ops).stmts[i]? = some s) :
    ∃ s', (UpdWorld.run g (ops ++ later)).stmts[i]? = some s' ∧ UpdOrder s' s ∧
      (Agree s.set.columns → SameRenderings (.update s') (.update s)) := by
  have he' := extendsOnce_append _ _ _ _ _ _ _ he
  obtain ⟨t, ht⟩ := upd_some g he' hs
  obtain ⟨l, hl'⟩ := ideal_prefix UpdateStmt.init UpdCall.apply ops later
  have ht' : (ideal UpdateStmt.init UpdCall.apply (ops ++ later))[i]? = some t := by
    rw [hl', List.getElem?_append_left (List.getElem?_eq_some_iff.1 ht).1, ht]
  obtain ⟨s', h1, h2, _⟩ := upd_get g he (r := true) (fun _ _ _ => rfl) hl ht'
  obtain ⟨s0, h3, h4, _⟩ := upd_get g he' (r := true) (fun _ _ _ => rfl) (live_before hl) ht
  rw [hs] at h3
  cases h3
  have ho := h2.trans h4.symm
  exact ⟨s', h1, ho, fun ha => ho.renderings ha⟩

/-- C45, UPDATE: the other clauses. Under the same condition, every clause but SET of every builder
is the one of the program on values, even after the SET clause has been extended. -/
theorem C45_update_others (g : Growth) (ops : List (Act Table UpdCall))
    (he : ExtendsOnce UpdateStmt.init UpdCall.apply UpdCall.clause UpdClause.accumulates
      ⟨[], []⟩ ops) (i : Nat) (s t : UpdateStmt) (hs : (UpdWorld.run g ops).stmts[i]? = some s)
    (ht : (ideal UpdateStmt.init UpdCall.apply ops)[i]? = some t) :
    t = { s with set := t.set } := by
  obtain ⟨rows, hi⟩ := upd_rows g (r := true) he fun _ _ _ => rfl
  rw [← history_ideal _ _ UpdCall.clause, hi.entries, List.map_map, List.getElem?_map,
    Option.map_eq_some_iff] at ht
  obtain ⟨x, hx, rfl⟩ := ht
  unfold UpdWorld.stmts at hs
  rw [hi.refs, List.map_map, List.getElem?_map, hx] at hs
  cases hs
  have hm : x ∈ rows := List.mem_of_getElem? hx
  have hw : (UpdWorld.run g ops).heap.withs.read x.ref.withs = x.entry.stmt.withs :=
    hi.withs.read _ (List.mem_map_of_mem hm)
  have hf : { x.ref.base with withs := x.entry.stmt.withs, set := x.entry.stmt.set } =
    x.entry.stmt := hi.fits x hm
  simp only [Function.comp_apply, UpdRef.stmt, hw]
  exact hf.symm

/-- No DO UPDATE without assignments, which is what `DoUpdate()` gives. -/
def FilledUpdates (ops : List (Act Unit InsCall)) : Prop :=
  ∀ i args p, Act.call i (.onConflict args) ∈ ops → Any.conflictUpdate p ∈ args → p.isEmpty = false

private theorem ins_get (g : Growth) {ops : List (Act Unit InsCall)} {n : Bool}
    (he : ExtendsOnce (fun _ => InsertStmt.zero) InsCall.apply InsCall.clause
      InsClause.accumulates ⟨[], []⟩ ops ∨ n = true) (hn : n = true → FilledUpdates ops)
    {r : Bool} (hr : ∀ i b, Act.render i b ∈ ops → r = true) :
    (InsWorld.run g ops).stmts.length =
      (ideal (fun _ => InsertStmt.zero) InsCall.apply ops).length ∧
    ∀ (i : Nat) (s t : InsertStmt), (InsWorld.run g ops).stmts[i]? = some s →
      (ideal (fun _ => InsertStmt.zero) InsCall.apply ops)[i]? = some t →
      InsOrder s t ∧ (r = false → s = t) := by
  obtain ⟨spent, rows, hi⟩ := insInv_run (r := r) (n := n) g ops insInv_start he hn hr
  have hi1 : (InsWorld.run g ops).refs = rows.map (·.ref) := hi.refs
  have hi2 : (history (fun _ => InsertStmt.zero) InsCall.apply InsCall.clause ops).entries =
    rows.map (·.entry) := hi.entries
  rw [← history_ideal _ _ InsCall.clause, hi2]
  unfold InsWorld.stmts
  rw [hi1]
  refine ⟨by simp, ?_⟩
  intro i s t hs ht
  rw [List.map_map, List.getElem?_map, Option.map_eq_some_iff] at hs ht
  obtain ⟨x, hx, rfl⟩ := hs
  obtain ⟨y, hy, rfl⟩ := ht
  rw [hx] at hy
  cases hy
  exact hi.order (List.mem_of_getElem? hx)

/-- C45, INSERT, partial. In every program, with every derivation and interleaving, INSERT builders
are those of the program on values but for the order of the columns of DO UPDATE in memory.
Missing: programs that pass a DO UPDATE without any assignment, after which `OnConflict` can be
called again and adds to the same target columns; there the property is false, see
`C45_insert_false`, and `C45_insert_exact` for what is changed exactly. -/
theorem C45_insert_partial (g : Growth) (ops : List (Act Unit InsCall)) (hf : FilledUpdates ops) :
    (InsWorld.run g ops).stmts.length =
      (ideal (fun _ => InsertStmt.zero) InsCall.apply ops).length ∧
    ∀ (i : Nat) (s t : InsertStmt), (InsWorld.run g ops).stmts[i]? = some s →
      (ideal (fun _ => InsertStmt.zero) InsCall.apply ops)[i]? = some t →
      InsOrder s t ∧
      (Agree (actionColumns t.action) → SameRenderings (.insert s) (.insert t)) := by
  obtain ⟨h1, h2⟩ := ins_get g (n := true) (r := true) (.inr rfl) (fun _ => hf) fun _ _ _ => rfl
  exact ⟨h1, fun i s t hs ht => ⟨(h2 i s t hs ht).1, fun ha => (h2 i s t hs ht).1.renderings ha⟩⟩

/-! ## C46: chains of calls -/

/-- C46, SELECT. If each builder is used for at most one further call, the builders are those of
the program on values, whatever capacities `append` chooses. -/
theorem C46_select (g : Growth) (ops : List (Act Unit SelCall)) (h : Linear ops) :
    (SelWorld.run g ops).stmts = ideal (fun _ => SelectStmt.zero) SelCall.apply ops :=
  sel_run g ops (extendsOnce_of_linear _ _ _ _ h)

/-- C46, UPDATE. If each builder is used for at most one further call, every builder that has not
been used is the one of the program on values, but for the order of the columns in memory. It
renders like it if aliases do not contradict names, and without rendering in between it is the same
in every respect. -/
theorem C46_update (g : Growth) (ops : List (Act Table UpdCall)) (h : Linear ops) (i : Nat)
    (hi : i ∉ receivers ops) (t : UpdateStmt)
    (ht : (ideal UpdateStmt.init UpdCall.apply ops)[i]? = some t) :
    ∃ s, (UpdWorld.run g ops).stmts[i]? = some s ∧ UpdOrder s t ∧
      (Agree t.set.columns → SameRenderings (.update s) (.update t)) ∧
      (Unrendered ops → s = t) := by
  have he := extendsOnce_of_linear UpdateStmt.init UpdCall.apply UpdCall.clause
    UpdClause.accumulates h
  have hl := live_of_linear UpdateStmt.init UpdCall.apply UpdCall.clause h hi .set
  obtain ⟨s, h1, h2, _⟩ := upd_get g he (r := true) (fun _ _ _ => rfl) hl ht
  refine ⟨s, h1, h2, fun ha => h2.renderings ha, fun hu => ?_⟩
  obtain ⟨s', h3, _, h4⟩ := upd_get g he (r := false) (fun i b hb => absurd hb (hu i b)) hl ht
  rw [h1] at h3
  cases h3
  exact h4 rfl

/-- C46, INSERT. The same, for every builder of the program. -/
theorem C46_insert (g : Growth) (ops : List (Act Unit InsCall)) (h : Linear ops) :
    (InsWorld.run g ops).stmts.length =
      (ideal (fun _ => InsertStmt.zero) InsCall.apply ops).length ∧
    ∀ (i : Nat) (s t : InsertStmt), (InsWorld.run g ops).stmts[i]? = some s →
      (ideal (fun _ => InsertStmt.zero) InsCall.apply ops)[i]? = some t →
      InsOrder s t ∧
      (Agree (actionColumns t.action) → SameRenderings (.insert s) (.insert t)) ∧
      (Unrendered ops → s = t) := by
  have he := extendsOnce_of_linear (fun _ => InsertStmt.zero) InsCall.apply InsCall.clause
    InsClause.accumulates h
  obtain ⟨h1, h2⟩ := ins_get g (n := false) (r := true) (.inl he) (fun h => by cases h)
    fun _ _ _ => rfl
  refine ⟨h1, fun i s t hs ht => ⟨(h2 i s t hs ht).1, fun ha => (h2 i s t hs ht).1.renderings ha,
    fun hu => ?_⟩⟩
  exact ((ins_get g (n := false) (r := false) (.inl he) (fun h => by cases h)
    fun i b hb => absurd hb (hu i b)).2 i s t hs ht).2 rfl

/-- C46, SELECT: calls on one builder, each on the result of the one before. If none panics, the
result is what the calls give on values (which accumulate their arguments in order, see C49). -/
theorem C46_select_chain (g : Growth) (cs : List SelCall) (s : SelectStmt)
    (h : runAll SelCall.apply cs SelectStmt.zero = .ok s) :
    (SelWorld.run g (chain () cs)).stmts[cs.length]? = some s := by
  rw [C46_select g _ (chain_linear _ _)]
  exact (chain_ideal (fun _ => SelectStmt.zero) SelCall.apply () cs h).2

/-- C46, UPDATE: `Update(table)` and calls on it, each on the result of the one before. -/
theorem C46_update_chain (g : Growth) (table : Any) (b0 : UpdateStmt) (hu : update table = .ok b0)
    (cs : List UpdCall) (s : UpdateStmt) (h : runAll UpdCall.apply cs b0 = .ok s) :
    (UpdWorld.run g (chain b0.table cs)).stmts[cs.length]? = some s := by
  have hb : b0 = UpdateStmt.init b0.table := by
    unfold update UpdateStmt.new at hu
    split at hu <;> first | (cases hu; done) | (cases hu; rfl)
  obtain ⟨s', h1, _, _, h2⟩ := C46_update g (chain b0.table cs) (chain_linear _ _) cs.length
    (by rw [receivers_chain]; simp) s
    (chain_ideal UpdateStmt.init UpdCall.apply b0.table cs (hb ▸ h)).2
  rw [h1, h2]
  intro i b hb
  unfold chain at hb
  simp [List.mem_mapIdx] at hb

/-- C46, INSERT: calls on one builder, each on the result of the one before. -/
theorem C46_insert_chain (g : Growth) (cs : List InsCall) (s : InsertStmt)
    (h : runAll InsCall.apply cs InsertStmt.zero = .ok s) :
    (InsWorld.run g (chain () cs)).stmts[cs.length]? = some s := by
  obtain ⟨h1, h2⟩ := C46_insert g (chain () cs) (chain_linear _ _)
  obtain ⟨h3, h4⟩ := chain_ideal (fun _ => InsertStmt.zero) InsCall.apply () cs h
  have hlt : cs.length < (InsWorld.run g (chain () cs)).stmts.length := by rw [h1, h3]; omega
  have hs := List.getElem?_eq_getElem hlt
  rw [hs, (h2 cs.length _ s hs h4).2.2 ?_]
  intro i b hb
  unfold chain at hb
  simp [List.mem_mapIdx] at hb

/-! ## C47: rendering has no observable effect -/

/-- C47, SELECT. Renderings, of any builders in any number, leave all builders as they are. (Writing
a SELECT does not write to any memory of builders: there is no assignment to a field or element of
a statement in the `Write` methods reached from it.) -/
theorem C47_select (g : Growth) (ops rs : List (Act Unit SelCall)) (hr : OnlyRenders rs) :
    (SelWorld.run g (ops ++ rs)).stmts = (SelWorld.run g ops).stmts := by
  unfold SelWorld.run
  rw [List.foldl_append]
  generalize ops.foldl (SelWorld.step g) ⟨⟨[], [], []⟩, []⟩ = w
  induction rs with
  | nil => rfl
  | cons op l ih =>
    obtain ⟨i, b, rfl⟩ := hr _ List.mem_cons_self
    exact ih fun op h => hr op (List.mem_cons_of_mem _ h)

private theorem renders_extendsOnce {K N S C : Type} [DecidableEq K] (init : N → S)
    (apply : C → S → Go S) (clause : C → K) (acc : K → Bool) {ops rs : List (Act N C)}
    (hr : OnlyRenders rs) : ∀ h : Hist K S, ExtendsOnce init apply clause acc h ops →
      ExtendsOnce init apply clause acc h (ops ++ rs) := by
  induction ops with
  | nil =>
    intro h he0
    clear he0
    show ExtendsOnce init apply clause acc h rs
    induction rs with
    | nil => trivial
    | cons op l ih =>
      obtain ⟨i, b, rfl⟩ := hr _ List.mem_cons_self
      exact ⟨trivial, ih fun op h => hr op (List.mem_cons_of_mem _ h)⟩
  | cons op l ih => exact fun h he => ⟨he.1, ih _ he.2⟩

private theorem renders_history {K N S C : Type} [DecidableEq K] (init : N → S)
    (apply : C → S → Go S) (clause : C → K) {ops rs : List (Act N C)} (hr : OnlyRenders rs) :
    history init apply clause (ops ++ rs) = history init apply clause ops := by
  unfold history
  rw [List.foldl_append]
  generalize ops.foldl (Hist.step init apply clause) ⟨[], []⟩ = h
  induction rs with
  | nil => rfl
  | cons op l ih =>
    obtain ⟨i, b, rfl⟩ := hr _ List.mem_cons_self
    exact ih fun op h => hr op (List.mem_cons_of_mem _ h)

/-- C47, UPDATE, partial. In programs as in `C45_update_partial`: after any sequence of renderings,
of any builders and in any number, a builder whose SET clause has not been extended renders as
before.
Missing: aliases that contradict names, for which the property is false, see `C47_false`, and
rendering a builder derived with a longer SET clause, see `C45_render_false`. -/
theorem C47_update_partial (g : Growth) (ops rs : List (Act Table UpdCall)) (hr : OnlyRenders rs)
    (he : ExtendsOnce UpdateStmt.init UpdCall.apply UpdCall.clause UpdClause.accumulates
      ⟨[], []⟩ ops) (i : Nat)
    (hl : (history UpdateStmt.init UpdCall.apply UpdCall.clause ops).Live .set i)
    (s : UpdateStmt) (hs : (UpdWorld.run g ops).stmts[i]? = some s) (ha : Agree s.set.columns) :
    ∃ s', (UpdWorld.run g (ops ++ rs)).stmts[i]? = some s' ∧
      SameRenderings (.update s') (.update s) := by
  obtain ⟨s', h1, _, h2⟩ := C45_update_partial g ops rs
    (renders_extendsOnce _ _ _ _ hr _ he) i (by rw [renders_history _ _ _ hr]; exact hl) s hs
  exact ⟨s', h1, h2 ha⟩

/-- C47, UPDATE: one builder, rendered any number of times. This needs no condition on what
happened before, nor on what else refers to the same memory. -/
theorem C47_update_repeat (h : UpdHeap) (r : UpdRef) (hv : r.set.columns.Valid h.columns)
    (ha : Agree (h.columns.read r.set.columns)) (times : List Bool) :
    SameRenderings (.update (r.stmt (times.foldl r.rendered h))) (.update (r.stmt h)) := by
  have step : ∀ (h : UpdHeap) (b : Bool), r.set.columns.Valid h.columns →
      r.set.columns.Valid (r.rendered h b).columns ∧
      UpdOrder (r.stmt (r.rendered h b)) (r.stmt h) := by
    intro h b hv
    unfold UpdRef.rendered
    split
    · rename_i hc
      obtain ⟨h1, h2⟩ := Store.read_sortInPlace hv
      refine ⟨h2, rfl, rfl, ?_, ?_⟩
      · show ((h.columns.sortInPlace r.set.columns).read r.set.columns).Perm _
        rw [h1]
        exact GoRuntime.sortSlice_perm _ _
      · intro hm
        simp only [Bool.and_eq_true, beq_iff_eq] at hc
        exact absurd hc.2 hm
    · exact ⟨hv, rfl, SetOrder.refl _⟩
  have all : ∀ (times : List Bool) (h : UpdHeap), r.set.columns.Valid h.columns →
      UpdOrder (r.stmt (times.foldl r.rendered h)) (r.stmt h) := by
    intro times
    induction times with
    | nil => exact fun h _ => ⟨rfl, SetOrder.refl _⟩
    | cons b l ih =>
      intro h hv
      obtain ⟨h1, h2⟩ := step h b hv
      exact (ih _ h1).trans h2
  exact (all times h hv).renderings ha

end

/-! ## Programs for which C45 and C47 fail, and programs that meet the conditions -/

section
attribute [local instance] Runtime.sample

/-- Double the capacity, as Go does for small slices. -/
def doubling : Growth where
  cap _ old need := if need ≤ 2 * old then 2 * old else need
  enough _ old need := by split <;> omega

/-- `.Join(table, On("t.id", "u.id"))` -/
private def joinOn (table : Str) : SelCall :=
  .join [.val (.str table), .expr (.onClause { name := s%"t.id" } { name := s%"u.id" })]

/-- `Select("id").From("t").Join("a", …).Join("b", …).Join("c", …)`, and one more join made from
that. -/
private def selBefore : List (Act Unit SelCall) :=
  [.new (), .call 0 (.columns [.val (.str s%"id")]), .call 1 (.from [.val (.str s%"t")]),
    .call 2 (joinOn s%"a"), .call 3 (joinOn s%"b"), .call 4 (joinOn s%"c"), .call 5 (joinOn s%"d")]

/-- C45 is false for SELECT: after three joins the array has a free cell, and a second builder
derived from the same one overwrites the fourth join of the first. -/
theorem C45_select_false :
    ((SelWorld.run doubling selBefore).stmts[6]?).map (·.write.string) = some (.ok (
      s%"SELECT \"id\" FROM \"t\" INNER JOIN \"a\" ON \"t\".\"id\" = \"u\".\"id\" " ++
      s%"INNER JOIN \"b\" ON \"t\".\"id\" = \"u\".\"id\" " ++
      s%"INNER JOIN \"c\" ON \"t\".\"id\" = \"u\".\"id\" " ++
      s%"INNER JOIN \"d\" ON \"t\".\"id\" = \"u\".\"id\"")) ∧
    ((SelWorld.run doubling (selBefore ++ [.call 5 (joinOn s%"e")])).stmts[6]?).map
      (·.write.string) = some (.ok (
      s%"SELECT \"id\" FROM \"t\" INNER JOIN \"a\" ON \"t\".\"id\" = \"u\".\"id\" " ++
      s%"INNER JOIN \"b\" ON \"t\".\"id\" = \"u\".\"id\" " ++
      s%"INNER JOIN \"c\" ON \"t\".\"id\" = \"u\".\"id\" " ++
      s%"INNER JOIN \"e\" ON \"t\".\"id\" = \"u\".\"id\"")) := by
  decide +kernel

/-- A program with forks that meets the condition of `C45_select_partial`: a base, from which one
fork adds a join and a condition, another an ordering, a third another condition; a fourth
continues the first with more joins. -/
private def selForks : List (Act Unit SelCall) :=
  [.new (), .call 0 (.columns [.val (.str s%"id")]), .call 1 (.from [.val (.str s%"t")]),
    .call 2 (joinOn s%"a"), .call 2 (.orderBy [⟨s%"id", s%"ASC"⟩]), .call 2 (.where (.raw s%"x")),
    .call 3 (.where (.raw s%"y")), .render 3 true, .call 6 (joinOn s%"b"),
    .call 7 (joinOn s%"c"), .call 4 (.limit (.val (.int .int 3))), .call 8 (joinOn s%"d")]

example : ExtendsOnce (fun _ => SelectStmt.zero) SelCall.apply SelCall.clause
    SelClause.accumulates ⟨[], []⟩ selForks := by decide +kernel

example : ¬ Linear selForks := by unfold Linear; decide

example : ((SelWorld.run doubling selForks).stmts.map (·.write.string)).drop 3 = [
    .ok s%"SELECT \"id\" FROM \"t\" INNER JOIN \"a\" ON \"t\".\"id\" = \"u\".\"id\"",
    .ok s%"SELECT \"id\" FROM \"t\" ORDER BY id ASC",
    .ok s%"SELECT \"id\" FROM \"t\" WHERE x",
    .ok s%"SELECT \"id\" FROM \"t\" INNER JOIN \"a\" ON \"t\".\"id\" = \"u\".\"id\" WHERE y",
    .ok (s%"SELECT \"id\" FROM \"t\" INNER JOIN \"a\" ON \"t\".\"id\" = \"u\".\"id\" " ++
      s%"INNER JOIN \"b\" ON \"t\".\"id\" = \"u\".\"id\" WHERE y"),
    .ok (s%"SELECT \"id\" FROM \"t\" INNER JOIN \"a\" ON \"t\".\"id\" = \"u\".\"id\" " ++
      s%"INNER JOIN \"b\" ON \"t\".\"id\" = \"u\".\"id\" " ++
      s%"INNER JOIN \"c\" ON \"t\".\"id\" = \"u\".\"id\" WHERE y"),
    .ok s%"SELECT \"id\" FROM \"t\" ORDER BY id ASC LIMIT 3",
    .ok (s%"SELECT \"id\" FROM \"t\" INNER JOIN \"a\" ON \"t\".\"id\" = \"u\".\"id\" " ++
      s%"INNER JOIN \"b\" ON \"t\".\"id\" = \"u\".\"id\" " ++
      s%"INNER JOIN \"c\" ON \"t\".\"id\" = \"u\".\"id\" " ++
      s%"INNER JOIN \"d\" ON \"t\".\"id\" = \"u\".\"id\" WHERE y")] := by
  decide +kernel

/-- `.Set(Pair(name, value))` -/
private def setTo (name : Str) (value : Int) : UpdCall :=
  .set [.pair (.val (.str name)) (.val (.int .int value))]

/-- The hypotheses of `C46_update_chain`. -/
example : ∃ b0 s, update (.val (.str s%"t")) = .ok b0 ∧
    runAll UpdCall.apply [setTo s%"b" 1, setTo s%"a" 2] b0 = .ok s ∧
    (Stmt.update s).write.string = .ok s%"UPDATE \"t\" SET \"a\" = 2, \"b\" = 1" :=
  ⟨_, _, rfl, rfl, by rfl⟩

/-- C45 is false for UPDATE: a builder derived by `Set` writes to the map of the builder it was
derived from, whatever capacities `append` chooses. -/
theorem C45_update_false (g : Growth) :
    ((UpdWorld.run g [.new { name := s%"t" }, .call 0 (setTo s%"a" 1)]).stmts[1]?).map
      (fun s => (Stmt.update s).write.string) = some (.ok s%"UPDATE \"t\" SET \"a\" = 1") ∧
    ((UpdWorld.run g [.new { name := s%"t" }, .call 0 (setTo s%"a" 1),
        .call 1 (setTo s%"a" 2)]).stmts[1]?).map
      (fun s => (Stmt.update s).write.string) = some (.ok s%"UPDATE \"t\" SET \"a\" = 2") := by
  constructor <;> rfl

/-- An UPDATE with three assignments, and one more made from that. -/
private def updBefore : List (Act Table UpdCall) :=
  [.new { name := s%"t" }, .call 0 (setTo s%"c" 1), .call 1 (setTo s%"d" 2),
    .call 2 (setTo s%"e" 3), .call 3 (setTo s%"a" 4)]

/-- C45 is false also for rendering: rendering a builder with one more assignment sorts the array
that the builder it was derived from reads, which then has other columns. -/
theorem C45_render_false :
    ((UpdWorld.run doubling updBefore).stmts[3]?).map (fun s => (Stmt.update s).write.string) =
      some (.ok s%"UPDATE \"t\" SET \"c\" = 1, \"d\" = 2, \"e\" = 3") ∧
    ((UpdWorld.run doubling (updBefore ++ [.render 4 true])).stmts[3]?).map
      (fun s => (Stmt.update s).write.string) =
      some (.ok s%"UPDATE \"t\" SET \"a\" = 4, \"c\" = 1, \"d\" = 2") := by
  decide +kernel

/-- A program with forks and renderings that meets the conditions of `C45_update_partial` and
`C47_update_partial` for builders 4, 5 and 6. -/
private def updForks : List (Act Table UpdCall) :=
  [.new { name := s%"t" }, .call 0 (setTo s%"d" 1), .call 1 (setTo s%"c" 2), .render 1 true,
    .call 2 (setTo s%"b" 3), .call 3 (.where (.raw s%"x")), .render 3 true,
    .call 3 (.where (.raw s%"y")), .call 3 (.with [⟨s%"w", .select Sample.groups⟩]), .render 4 true]

example : ExtendsOnce UpdateStmt.init UpdCall.apply UpdCall.clause UpdClause.accumulates
    ⟨[], []⟩ updForks := by decide +kernel

example : ∀ i ∈ [4, 5, 6], (history UpdateStmt.init UpdCall.apply UpdCall.clause updForks).Live
    .set i := by
  intro i hi e he
  simp only [List.mem_cons, List.not_mem_nil, or_false] at hi
  rcases hi with rfl | rfl | rfl <;> (cases he; decide +kernel)

example : ((UpdWorld.run doubling updForks).stmts.map
    (fun s => (Stmt.update s).write.string)).drop 4 = [
    .ok s%"UPDATE \"t\" SET \"b\" = 3, \"c\" = 2, \"d\" = 1 WHERE x",
    .ok s%"UPDATE \"t\" SET \"b\" = 3, \"c\" = 2, \"d\" = 1 WHERE y",
    .ok (s%"WITH w AS (SELECT \"id\" FROM \"groups\" WHERE (\"active\" = true)) " ++
      s%"UPDATE \"t\" SET \"b\" = 3, \"c\" = 2, \"d\" = 1")] := by
  decide +kernel

/-- An INSERT of which two forks get a conflict clause. -/
private def insForks : List (Act Unit InsCall) :=
  [.new (), .call 0 (.into (.val (.str s%"t"))), .call 1 (.columns [.val (.str s%"a")]),
    .call 2 (.values [.val (.int .int 1)]),
    .call 3 (.onConflict [.val (.str s%"a"), .conflictUpdate
      { mode := .associative,
        map := [({ name := s%"c" }, .value (.int .int 2)), ({ name := s%"b" }, .value (.int .int 3))],
        columns := [{ name := s%"c" }, { name := s%"b" }], expressions := [] }]),
    .call 3 (.onConflict [.val (.str s%"b"), .conflictNothing]), .render 4 true,
    .call 4 (.returning [.val (.str s%"id")])]

example : FilledUpdates insForks := by
  intro i args p h1 h2
  simp only [insForks, List.mem_cons, List.not_mem_nil, or_false, Act.call.injEq, reduceCtorEq,
    InsCall.onConflict.injEq, false_or, and_false, or_self] at h1
  rcases h1 with ⟨-, rfl⟩ | ⟨-, rfl⟩ <;> simp at h2
  subst h2
  rfl

example : ((InsWorld.run doubling insForks).stmts.map
    (fun s => (Stmt.insert s).write.string)).drop 4 = [
    .ok (s%"INSERT INTO \"t\" (\"a\") VALUES (1) ON CONFLICT (\"a\") " ++
      s%"DO UPDATE SET \"b\" = 3, \"c\" = 2"),
    .ok s%"INSERT INTO \"t\" (\"a\") VALUES (1) ON CONFLICT (\"b\") DO NOTHING",
    .ok (s%"INSERT INTO \"t\" (\"a\") VALUES (1) ON CONFLICT (\"a\") " ++
      s%"DO UPDATE SET \"b\" = 3, \"c\" = 2 RETURNING \"id\"")] := by
  decide +kernel

/-- Two columns whose aliases contradict their names. -/
private def aliased : List (Act Table UpdCall) :=
  [.new { name := s%"t" },
    .call 0 (.set [.pair (.selExpr (.column { name := s%"a", alias := s%"z" })) (.val (.int .int 1)),
      .pair (.selExpr (.column { name := s%"b", alias := s%"y" })) (.val (.int .int 2))])]

/-- C47 is false if aliases contradict names: the comparison then says of both columns that they
come before the other, and every rendering exchanges them. -/
theorem C47_false :
    ((UpdWorld.run doubling aliased).stmts[1]?).map (fun s => (Stmt.update s).write.string) ≠
      ((UpdWorld.run doubling (aliased ++ [.render 1 true])).stmts[1]?).map
        (fun s => (Stmt.update s).write.string) := by
  decide +kernel

example : ((UpdWorld.run doubling aliased).stmts[1]?).map
    (fun s => (Stmt.update s).write.string) =
    some (.ok s%"UPDATE \"t\" SET \"b\" AS \"y\" = 2, \"a\" AS \"z\" = 1") := by decide +kernel

/-- Columns without aliases satisfy the condition of `C47_update_repeat`. -/
theorem agree_of_no_alias (cols : List Column) (h : ∀ c ∈ cols, c.alias = []) : Agree cols := by
  intro c hc d hd _ hlt
  rw [h c hc, h d hd] at hlt
  simp at hlt

/-- So do columns whose aliases are in the order of their names. -/
example : Agree [{ name := s%"a", alias := s%"x" }, { name := s%"b", alias := s%"y" }] := by
  intro c hc d hd
  simp only [List.mem_cons, List.not_mem_nil, or_false] at hc hd
  rcases hc with rfl | rfl <;> rcases hd with rfl | rfl <;> decide

end

end Verif.Props
