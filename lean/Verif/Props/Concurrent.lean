import Verif.Lemmas.Concurrent
import Verif.Model.Builder
import Verif.Props.Portable
import Verif.Model.Runtime
import Lean.Elab.Tactic.Basic
import Lean.Meta.Tactic.Refl

/-!
# C76: rendering by several goroutines
-/

set_option linter.unusedSectionVars false

namespace Verif.Props
open Spec Concurrent

/-- `rfl`, checked by the kernel only. -/
local elab "kernel_rfl" : tactic =>
  Lean.Elab.Tactic.liftMetaTactic fun g => do
    g.refl (check := false)
    return []

section
variable [GoRuntime] {α : Type}

private theorem less_iff (a b : Column) :
    columnLess a b = true ↔ a.name < b.name ∨ a.alias < b.alias := by
  unfold columnLess
  simp [strLt_iff]

private theorem rest_quiet {l : List Column} (h : AtRest l) (j : Nat)
    (hj : j + 1 < l.length) : columnLess (arrayOf l (j + 1)) (arrayOf l j) = false := by
  rw [arrayOf_lt hj, arrayOf_lt (Nat.lt_of_succ_lt hj), Bool.eq_false_iff, ne_eq, less_iff]
  rintro (h1 | h1)
  · exact (h j hj).1 h1
  · exact (h j hj).2 h1

/-- Columns without alias whose names go up. -/
theorem ascending_atRest {l : List Column} (h : Ascending l) : AtRest l := by
  intro j hj
  have h1 := List.pairwise_iff_getElem.1 h.2 j (j + 1) (by omega) hj (by omega)
  refine ⟨fun h3 => str_lt_irrefl _ (str_lt_trans h1 h3), ?_⟩
  rw [h.1 _ (List.getElem_mem hj), h.1 _ (List.getElem_mem (Nat.lt_of_succ_lt hj))]
  exact str_lt_irrefl _

/-- Columns without alias are in order only if their names go up. -/
theorem atRest_ascending {l : List Column} (h : AtRest l) (hn : l.Nodup)
    (ha : ∀ c ∈ l, c.alias = []) : Ascending l := by
  refine ⟨ha, ?_⟩
  have adj : ∀ j (hj : j + 1 < l.length), l[j].name < l[j + 1].name := by
    intro j hj
    rcases str_trichotomy l[j].name l[j + 1].name with h1 | h1 | h1
    · exact h1
    · exfalso
      have e1 := ha _ (List.getElem_mem hj)
      have e2 := ha _ (List.getElem_mem (Nat.lt_of_succ_lt hj))
      have : l[j] = l[j + 1] := by
        generalize l[j] = x at *
        generalize l[j + 1] = y at *
        cases x; cases y; simp_all
      exact List.pairwise_iff_getElem.1 hn j (j + 1) (by omega) hj (by omega) this
    · exact absurd h1 (h j hj).1
  rw [List.pairwise_iff_getElem]
  intro i j hi hj hij
  induction j with
  | zero => omega
  | succ j ih =>
    rcases Nat.lt_or_ge i j with h | h
    · exact str_lt_trans (ih (by omega) h) (adj j hj)
    · have : i = j := by omega
      subst this
      exact adj i hj

private theorem rendering_quiet (render : W → Go α) (q : Stmt)
    (hq : ∀ p, keyValues q = some p → AtRest p.columns) (cols : List Column)
    (hc : ∀ p, keyValues q = some p → cols = p.columns) :
    ∃ r, Quiet (arrayOf cols) (rendering render q) r ∧
      ((∀ p, keyValues q = some p → Ascending p.columns) → r = render q.write) := by
  unfold rendering
  cases hk : keyValues q with
  | none => exact ⟨_, .done, fun _ => rfl⟩
  | some p =>
    have ha := hq p hk
    cases hc p hk
    refine ⟨render (writeWithColumns q p p.columns), quiet_sort (quiet_readCells ?_) ?_, ?_⟩
    · rw [List.nil_append, range_arrayOf]
      exact .done
    · intro j hj
      rw [List.mem_range'_1] at hj
      exact rest_quiet ha j (by omega)
    · intro h
      rw [write_eq hk, ascending_sorted (h p rfl)]

private theorem all_quiet (q : Stmt) (hq : ∀ p, keyValues q = some p → AtRest p.columns)
    (cols : List Column) (hc : ∀ p, keyValues q = some p → cols = p.columns)
    (renders : List (W → Go α)) :
    ∃ rs, Each (Quiet (arrayOf cols)) (renders.map (rendering · q)) rs := by
  induction renders with
  | nil => exact ⟨[], .nil⟩
  | cons x l ih =>
    obtain ⟨r, h, _⟩ := rendering_quiet x q hq cols hc
    obtain ⟨rs, h'⟩ := ih
    exact ⟨r :: rs, .cons h h'⟩

private theorem each_get {ρ : Type} {m : Cells} {ts : List (Act ρ)} {rs : List ρ} {t : Nat} {a : Act ρ}
    (h : Each (Quiet m) ts rs) (ht : ts[t]? = some a) : ∃ r, rs[t]? = some r ∧ Quiet m a r := by
  induction h generalizing t with
  | nil => simp at ht
  | @cons x r l rs hx _ ih =>
    cases t with
    | zero => simp at ht; subst ht; exact ⟨r, rfl, hx⟩
    | succ t => simp at ht; simpa using ih ht

/-- C76. If the statement has no pairs in the key-value syntax, or no column of them comes before the
one in front of it, then whatever goroutines render the statement at the same time, and however their
accesses are interleaved: the memory of the builder stays as it is, each goroutine that has ended has
returned what it returns alone, and all of them can end. -/
theorem C76_partial (q : Stmt) (hq : ∀ p, keyValues q = some p → AtRest p.columns)
    (cols : List Column) (hc : ∀ p, keyValues q = some p → cols = p.columns)
    (renders : List (W → Go α)) (w : World (Go α))
    (h : Steps ⟨arrayOf cols, renders.map (rendering · q)⟩ w) :
    w.cells = arrayOf cols ∧
    (∀ (t : Nat) (r : Go α), w.threads[t]? = some (.done r) → ∃ render, renders[t]? = some render ∧
      Steps ⟨arrayOf cols, [rendering render q]⟩ ⟨arrayOf cols, [.done r]⟩) ∧
    ∃ rs : List (Go α), Steps w ⟨arrayOf cols, rs.map .done⟩ := by
  obtain ⟨rs, h0⟩ := all_quiet q hq cols hc renders
  obtain ⟨h1, h2⟩ := quiet_steps h rfl h0
  refine ⟨h1, ?_, rs, ?_⟩
  · intro t r ht
    obtain ⟨r', h3, h4⟩ := each_get h2 ht
    cases h4
    have hlen : t < (renders.map (rendering · q)).length := by
      rw [each_length h0]
      exact (List.getElem?_eq_some_iff.1 h3).1
    obtain ⟨r'', h5, h6⟩ := each_get h0 (List.getElem?_eq_getElem hlen)
    rw [h3] at h5
    cases h5
    rw [List.length_map] at hlen
    refine ⟨renders[t], List.getElem?_eq_getElem hlen, ?_⟩
    rw [List.getElem_map] at h6
    exact quiet_end (.cons h6 .nil)
  · obtain ⟨cells, threads⟩ := w
    cases h1
    exact quiet_end h2

/-- C76. If the columns have no alias and their names go up, then what they return is what the model
of one goroutine says. -/
theorem C76_text_partial (q : Stmt) (hq : ∀ p, keyValues q = some p → Ascending p.columns)
    (cols : List Column) (hc : ∀ p, keyValues q = some p → cols = p.columns)
    (renders : List (W → Go α)) (w : World (Go α))
    (h : Steps ⟨arrayOf cols, renders.map (rendering · q)⟩ w) (t : Nat) (r : Go α)
    (ht : w.threads[t]? = some (.done r)) :
    ∃ render, renders[t]? = some render ∧ r = render q.write := by
  have hq' : ∀ p, keyValues q = some p → AtRest p.columns := fun p hp => ascending_atRest (hq p hp)
  obtain ⟨_, h2, _⟩ := C76_partial q hq' cols hc renders w h
  obtain ⟨render, h3, h4⟩ := h2 t r ht
  refine ⟨render, h3, ?_⟩
  obtain ⟨r', h5, h6⟩ := rendering_quiet render q hq' cols hc
  obtain ⟨_, h7⟩ := quiet_steps h4 rfl (.cons h5 .nil)
  cases h7 with
  | cons h8 _ =>
    cases h8
    exact h6 hq

/-- C76 for every way to sort: if sorting the columns swaps nothing, goroutines that render the
statement at the same time leave the builder as it is, and each that has ended has read the columns
as they are there; if the columns have no alias and their names go up, it has returned what the model
of one goroutine says. -/
theorem C76_any_sort_partial (s : Sorter) (q : Stmt) (p : PairContainer) (hk : keyValues q = some p)
    (hs : s.Still (arrayOf p.columns)) (renders : List (W → Go α)) (w : World (Go α))
    (h : Steps ⟨arrayOf p.columns, renders.map (renderingBy s · q)⟩ w) :
    w.cells = arrayOf p.columns ∧
    (∀ (t : Nat) (r : Go α), w.threads[t]? = some (.done r) → ∃ render,
      renders[t]? = some render ∧ r = render (writeWithColumns q p p.columns) ∧
      (Ascending p.columns → r = render q.write)) ∧
    Steps w ⟨arrayOf p.columns,
      renders.map fun render => .done (render (writeWithColumns q p p.columns))⟩ := by
  have one : ∀ render : W → Go α, Quiet (arrayOf p.columns) (renderingBy s render q)
      (render (writeWithColumns q p p.columns)) := by
    intro render
    unfold renderingBy
    rw [hk]
    refine quiet_act (quiet_readCells ?_) hs
    rw [List.nil_append, range_arrayOf]
    exact .done
  have h0 : Each (Quiet (arrayOf p.columns)) (renders.map (renderingBy s · q))
      (renders.map fun render => render (writeWithColumns q p p.columns)) := by
    clear h
    induction renders with
    | nil => exact .nil
    | cons x l ih => exact .cons (one x) ih
  obtain ⟨h1, h2⟩ := quiet_steps h rfl h0
  refine ⟨h1, ?_, ?_⟩
  · intro t r ht
    obtain ⟨r', h3, h4⟩ := each_get h2 ht
    cases h4
    rw [List.getElem?_map, Option.map_eq_some_iff] at h3
    obtain ⟨render, h5, h6⟩ := h3
    refine ⟨render, h5, h6.symm, fun ha => ?_⟩
    rw [← h6, write_eq hk, ascending_sorted ha]
  · obtain ⟨cells, threads⟩ := w
    cases h1
    have h7 := quiet_end h2
    rwa [List.map_map] at h7

/-- C76 for every way to sort: if sorting the columns changes their order, then two goroutines that
render the statement at the same time can lose one of the columns, both of them and for good. -/
theorem C76_any_sort_exact (s : Sorter) (q : Stmt) (p : PairContainer) (hk : keyValues q = some p)
    (hw : s.Within p.columns.length) (hn : p.columns.Nodup)
    (hs : s.run (arrayOf p.columns) ≠ arrayOf p.columns)
    (_ : ∃ r, q.write.query = .ok r) (render render' : W → Go α) :
    ∃ c ∈ p.columns, ∃ (m : Cells) (cs cs' : List Column),
      Steps ⟨arrayOf p.columns, [renderingBy s render q, renderingBy s render' q]⟩
        ⟨m, [.done (render (writeWithColumns q p cs)), .done (render' (writeWithColumns q p cs'))]⟩ ∧
      c ∉ cs ∧ c ∉ cs' ∧ cs.length = p.columns.length ∧ cs'.length = p.columns.length ∧
      c ∉ (List.range p.columns.length).map m := by
  let n := p.columns.length
  let next := fun f : W → Go α => readCells (fun cs => Act.done (f (writeWithColumns q p cs))) []
    (List.range n)
  have hr : ∀ f : W → Go α, renderingBy s f q = s.act (next f) := by
    intro f
    simp only [renderingBy, hk]
    rfl
  obtain ⟨i, j, s', hij, hi, hj, hw', h5⟩ := first_exchange (ρ := Go α) hw hs
  have s1 := h5 (next render) [renderingBy s render q, renderingBy s render' q] 0 (by simp [hr])
  have s2 := h5 (next render')
    [Concurrent.swap i j (s'.act (next render)), renderingBy s render' q] 1 (by simp [hr])
  have s3 := (s1.trans s2).trans (steps_lost_any hij)
  let c := p.columns[i]
  let m0 : Cells := fun k => if k = i ∨ k = j then arrayOf p.columns j else arrayOf p.columns k
  have hm0 : ∀ k, k < n → m0 k ≠ c := by
    have ne : ∀ k (hk : k < p.columns.length), k ≠ i → p.columns[k] ≠ c := by
      intro k hk hne he
      rcases Nat.lt_or_gt_of_ne hne with h | h
      · exact List.pairwise_iff_getElem.1 hn k i hk hi h he
      · exact List.pairwise_iff_getElem.1 hn i k hi hk h he.symm
    intro k hk
    simp only [m0]
    split
    · rw [arrayOf_lt hj]
      exact ne j _ hij.symm
    · next hne =>
      rw [arrayOf_lt hk]
      exact ne k hk (fun h => hne (.inl h))
  have fin : ∀ (f : W → Go α) (m : Cells), (∀ k, k < n → m k ≠ c) → ∃ m', (∀ k, k < n → m' k ≠ c) ∧
      finish (s'.act (next f)) m = (m', f (writeWithColumns q p ((List.range n).map m'))) := by
    intro f m hm
    obtain ⟨m', h1, h2⟩ := finish_lost_any (next f) hw' hm
    exact ⟨m', h1, by rw [h2, finish_readCells]; rfl⟩
  obtain ⟨m1, h6, h7⟩ := fin render m0 hm0
  obtain ⟨m2, h8, h9⟩ := fin render' m1 h6
  have s4 := steps_finish (s'.act (next render)) (m := m0)
    (ts := [s'.act (next render), s'.act (next render')]) (t := 0) rfl
  rw [h7] at s4
  have s5 := steps_finish (s'.act (next render')) (m := m1)
    (ts := [.done (render (writeWithColumns q p ((List.range n).map m1))), s'.act (next render')])
    (t := 1) rfl
  rw [h9] at s5
  have lost : ∀ m : Cells, (∀ k, k < n → m k ≠ c) → c ∉ (List.range n).map m := by
    intro m hm hc
    obtain ⟨k, hk, he⟩ := List.mem_map.1 hc
    exact hm k (List.mem_range.1 hk) he
  exact ⟨c, List.getElem_mem hi, m2, (List.range n).map m1, (List.range n).map m2,
    (s3.trans s4).trans s5, lost m1 h6, lost m2 h8, by simp [n], by simp [n], lost m2 h8⟩

/-- The insertion sort is one of the ways to sort. -/
theorem C76_insertion (render : W → Go α) (q : Stmt) (p : PairContainer)
    (hk : keyValues q = some p) : rendering render q =
      renderingBy (.insertion (List.range' 1 (p.columns.length - 1))) render q := by
  unfold rendering renderingBy values
  rw [hk]
  exact (act_insertion _ _).symm

/-- C76. A goroutine that renders alone returns what the model of one goroutine says, and leaves the
columns of the builder in order. -/
theorem C76_alone (q : Stmt) (p : PairContainer) (hk : keyValues q = some p)
    (hn : p.columns.Nodup) (ha : ∀ c ∈ p.columns, c.alias = []) (render : W → Go α) :
    ∃ m, Steps ⟨arrayOf p.columns, [rendering render q]⟩ ⟨m, [.done (render q.write)]⟩ ∧
      Ascending ((List.range p.columns.length).map m) ∧
      ((List.range p.columns.length).map m).Perm p.columns := by
  obtain ⟨m, h1, h2⟩ := values_alone hn ha
    (fun cs => Act.done (render (writeWithColumns q p cs)))
  have h3 := steps_finish (rendering render q) (m := arrayOf p.columns) (ts := [rendering render q])
    (t := 0) rfl
  have h4 : finish (rendering render q) (arrayOf p.columns) = (m, render q.write) := by
    simp only [rendering, hk]
    rw [h2, write_eq hk]
    rfl
  rw [h4] at h3
  refine ⟨m, h3, ?_, ?_⟩
  · rw [h1]
    refine ⟨?_, sort_columns hn ha⟩
    intro c hc
    exact ha c ((GoRuntime.sortSlice_perm _ _).mem_iff.1 hc)
  · rw [h1]
    exact GoRuntime.sortSlice_perm _ _

/-- C76. The condition is needed: if two goroutines render a statement at the same time in which some
column comes before the one in front of it, then one of the columns can get lost, for both of them and
for good. (That the statement can be rendered at all is asked for because otherwise a panic may come
before the sort.) -/
theorem C76_exact (q : Stmt) (p : PairContainer) (hk : keyValues q = some p)
    (hn : p.columns.Nodup) (hu : ¬ AtRest p.columns)
    (_ : ∃ r, q.write.query = .ok r) (render render' : W → Go α) :
    ∃ c ∈ p.columns, ∃ (m : Cells) (cs cs' : List Column),
      Steps ⟨arrayOf p.columns, [rendering render q, rendering render' q]⟩
        ⟨m, [.done (render (writeWithColumns q p cs)), .done (render' (writeWithColumns q p cs'))]⟩ ∧
      c ∉ cs ∧ c ∉ cs' ∧ cs.length = p.columns.length ∧ cs'.length = p.columns.length ∧
      c ∉ (List.range p.columns.length).map m := by
  have hex : ∃ j, j + 1 ∈ List.range' 1 (p.columns.length - 1) ∧
      columnLess (arrayOf p.columns (j + 1)) (arrayOf p.columns j) = true := by
    refine Classical.byContradiction fun hno => hu fun j hj => ?_
    have h1 : ¬ columnLess (arrayOf p.columns (j + 1)) (arrayOf p.columns j) = true := fun h =>
      hno ⟨j, by rw [List.mem_range'_1]; omega, h⟩
    rw [arrayOf_lt hj, arrayOf_lt (Nat.lt_of_succ_lt hj), less_iff] at h1
    exact ⟨fun h => h1 (.inl h), fun h => h1 (.inr h)⟩
  obtain ⟨j, l', h1, h2, h3, h4⟩ := reads_sort (ρ := Go α) hex
  rw [List.mem_range'_1] at h1
  have hj : j + 1 < p.columns.length := by omega
  let n := p.columns.length
  let next := fun f : W → Go α => readCells (fun cs => Act.done (f (writeWithColumns q p cs))) []
    (List.range n)
  have hr : ∀ f : W → Go α, rendering f q = sort (next f) (List.range' 1 (n - 1)) := by
    intro f
    simp only [rendering, hk]
    rfl
  have s1 := steps_reads (h4 (next render)) (ts := [rendering render q, rendering render' q])
    (t := 0) (by simp [hr, n])
  have s2 := steps_reads (h4 (next render'))
    (ts := [swap (j + 1) j (sink (sort (next render) l') j), rendering render' q])
    (t := 1) (by simp [hr, n])
  have s3 := (s1.trans s2).trans steps_lost
  let c := p.columns[j + 1]
  let m0 : Cells := fun i => if i = j ∨ i = j + 1 then arrayOf p.columns j else arrayOf p.columns i
  have hm0 : ∀ i, i < n → m0 i ≠ c := by
    have ne : ∀ i (hi : i < p.columns.length), i ≠ j + 1 → p.columns[i] ≠ c := by
      intro i hi hne he
      rcases Nat.lt_or_gt_of_ne hne with h | h
      · exact List.pairwise_iff_getElem.1 hn i (j + 1) hi hj h he
      · exact List.pairwise_iff_getElem.1 hn (j + 1) i hj hi h he.symm
    intro i hi
    simp only [m0]
    split
    · rw [arrayOf_lt (Nat.lt_of_succ_lt hj)]
      exact ne j _ (by omega)
    · next hne =>
      rw [arrayOf_lt hi]
      exact ne i hi (by omega)
  have hl' : ∀ x ∈ l', x < n := by
    intro x hx
    have := h2 x hx
    rw [List.mem_range'_1] at this
    omega
  obtain ⟨m1, h5, h6⟩ := finish_lost (f := fun cs => render (writeWithColumns q p cs))
    hl' (show j < n by omega) hm0
  obtain ⟨m2, h7, h8⟩ := finish_lost (f := fun cs => render' (writeWithColumns q p cs))
    hl' (show j < n by omega) h5
  have s4 := steps_finish (sink (sort (next render) l') j) (m := m0)
    (ts := [sink (sort (next render) l') j, sink (sort (next render') l') j]) (t := 0) rfl
  rw [h6] at s4
  have s5 := steps_finish (sink (sort (next render') l') j) (m := m1)
    (ts := [.done (render (writeWithColumns q p ((List.range n).map m1))),
      sink (sort (next render') l') j]) (t := 1) rfl
  rw [h8] at s5
  have lost : ∀ m : Cells, (∀ i, i < n → m i ≠ c) → c ∉ (List.range n).map m := by
    intro m hm hc
    obtain ⟨i, hi, he⟩ := List.mem_map.1 hc
    exact hm i (List.mem_range.1 hi) he
  exact ⟨c, List.getElem_mem hj, m2, (List.range n).map m1, (List.range n).map m2,
    (s3.trans s4).trans s5, lost m1 h5, lost m2 h7, by simp [n], by simp [n], lost m2 h7⟩

end

/-- C76. The statements that are taken to have no pairs in the key-value syntax are indeed rendered
without sorting: how the library sorts makes no difference to them. -/
theorem C76_unsorted (r r' : GoRuntime) (hp : ∀ c, r.isPrint c = r'.isPrint c) (q : Stmt)
    (hk : keyValues q = none) (x : Str × List Val) :
    (@Stmt.write r q).query = .ok x ↔ (@Stmt.write r' q).query = .ok x := by
  have h : assignedColumns q = [] := by
    unfold keyValues at hk
    unfold assignedColumns
    split at hk
    · split at hk
      · cases hk
      · next h => exact if_neg h
    · split at hk
      · next h =>
        split at hk
        · cases hk
        · next h' => simp only [h, if_neg h']
      · next h => split <;> simp_all
    · split <;> simp_all
  refine (C73_partial r r' q ?_ fun n _ c _ => hp c).1 x
  rw [h]
  intro a ha
  cases ha

/-! ## The claim without the condition is false -/

section
attribute [local instance] Runtime.sample

/-- `Update("t").Set(Pair("b", 1), Pair("a", 2))` -/
def unsortedUpdate : UpdateStmt :=
  { withs := []
    table := { name := s%"t" }
    only := false
    tables := []
    set :=
      { mode := .associative
        map := [({ name := s%"b" }, .value (.int .int 1)), ({ name := s%"a" }, .value (.int .int 2))]
        columns := [{ name := s%"b" }, { name := s%"a" }]
        expressions := [] }
    whr := .nil
    returning := []
    comment := [] }

/-- It is what the calls build. -/
example : (do
    let b ← update (.val (.str s%"t"))
    b.Set [.pair (.val (.str s%"b")) (.val (.int .int 1)),
      .pair (.val (.str s%"a")) (.val (.int .int 2))]) = .ok unsortedUpdate := by
  rfl

/-- The goroutines take turns in this order. -/
private def turns {ρ : Type} : List Nat → World ρ → World ρ
  | [], w => w
  | t :: l, w =>
    match w.threads[t]? with
    | some (.read i next) => turns l ⟨w.cells, w.threads.set t (next (w.cells i))⟩
    | some (.write i c next) =>
      turns l ⟨fun j => if j = i then c else w.cells j, w.threads.set t next⟩
    | _ => w

private theorem steps_turns {ρ : Type} : ∀ (l : List Nat) (w : World ρ), Steps w (turns l w)
  | [], _ => .refl
  | t :: l, w => by
    rw [turns]
    split
    · next h => exact (steps_one (.read h)).trans (steps_turns l _)
    · next h => exact (steps_one (.write h)).trans (steps_turns l _)
    · exact .refl

private def bad : World (Go (Str × List Val)) :=
  turns [0, 0, 1, 1, 0, 0, 0, 1, 1, 1, 0, 1, 0, 0, 1, 1]
    ⟨arrayOf [{ name := s%"b" }, { name := s%"a" }],
      [rendering (·.query) (.update unsortedUpdate), rendering (·.query) (.update unsortedUpdate)]⟩

/-- Alone, the statement is rendered as it should be. -/
theorem unsortedUpdate_text : (Stmt.update unsortedUpdate).write.query =
    .ok (s%"UPDATE \"t\" SET \"a\" = $1, \"b\" = $2", [.int .int 2, .int .int 1]) := by
  rfl

/-- Two goroutines can both come to render a statement that does not assign the column a, and assigns
the column b twice. -/
theorem C76_witness : ∃ w : World (Go (Str × List Val)),
    Steps ⟨arrayOf [{ name := s%"b" }, { name := s%"a" }],
      [rendering (·.query) (.update unsortedUpdate),
       rendering (·.query) (.update unsortedUpdate)]⟩ w ∧
    w.threads[0]? = some (.done
      (.ok (s%"UPDATE \"t\" SET \"b\" = $1, \"b\" = $2", [.int .int 1, .int .int 1]))) ∧
    w.threads[1]? = some (.done
      (.ok (s%"UPDATE \"t\" SET \"b\" = $1, \"b\" = $2", [.int .int 1, .int .int 1]))) ∧
    w.cells 0 = { name := s%"b" } ∧ w.cells 1 = { name := s%"b" } :=
  ⟨bad, steps_turns _ _, by kernel_rfl, by kernel_rfl, by kernel_rfl, by kernel_rfl⟩

end

/-- C76 as stated is false: that goroutines rendering one builder at the same time return what they
return alone does not hold for every statement. -/
theorem C76_false : ¬ ∀ [GoRuntime] (q : Stmt) (cols : List Column)
    (_ : ∀ p, keyValues q = some p → cols = p.columns)
    (renders : List (W → Go (Str × List Val))) (w : World (Go (Str × List Val)))
    (_ : Steps ⟨arrayOf cols, renders.map (rendering · q)⟩ w) (t : Nat) (r : Go (Str × List Val)),
    w.threads[t]? = some (.done r) → ∃ render, renders[t]? = some render ∧ r = render q.write := by
  intro h
  obtain ⟨w, h1, h2, _⟩ := C76_witness
  obtain ⟨render, h3, h4⟩ := @h Runtime.sample (.update unsortedUpdate)
    [{ name := s%"b" }, { name := s%"a" }]
    (by intro p hp; cases hp; rfl) [(·.query), (·.query)] w h1 0 _ h2
  cases h3
  have h5 := h4.trans unsortedUpdate_text
  cases h5

/-! ## Concrete cases -/

/-- These columns are in order. -/
example : Ascending [{ name := s%"a" }, { name := s%"b" }] :=
  ⟨by simp, by simp only [List.pairwise_cons]; decide⟩

/-- An UPDATE in the column-list syntax has no pairs in the key-value syntax. -/
example : keyValues (.update { unsortedUpdate with
    set := { mode := .array, map := [], columns := [{ name := s%"b" }, { name := s%"a" }],
             expressions := [.value (.int .int 1), .value (.int .int 2)] } }) = none := rfl

/-- These columns are in order, and one of them has an alias. -/
example : AtRest [{ name := s%"a" }, { name := s%"b", alias := s%"x" }] := by
  intro j hj
  have : j = 0 := by simp at hj; omega
  subst this
  decide +revert

/-- Those of the statement above are not, and meet the other hypotheses of `C76_exact`. -/
example : keyValues (.update unsortedUpdate) = some unsortedUpdate.set ∧
    unsortedUpdate.set.columns.Nodup ∧
    ¬ AtRest unsortedUpdate.set.columns ∧
    ∃ r, @W.query (@Stmt.write Runtime.sample (.update unsortedUpdate)) = .ok r :=
  ⟨rfl, by simp [unsortedUpdate], fun h => (h 0 (by decide)).1 (by decide),
    _, unsortedUpdate_text⟩

/-- A way to sort two cells that is not the insertion sort: the later one goes to the front if the
front one is not before it. -/
def eager : Sorter := .less 0 1 fun b => if b then .stop else .swap 0 1 .stop

/-- It stays within two cells and changes the order of the columns of the statement above, but swaps
nothing where the columns are in order: the hypotheses of `C76_any_sort_exact` and of
`C76_any_sort_partial`. -/
example : eager.Within unsortedUpdate.set.columns.length ∧
    eager.run (arrayOf unsortedUpdate.set.columns) ≠ arrayOf unsortedUpdate.set.columns ∧
    eager.Still (arrayOf [{ name := s%"a" }, { name := s%"b" }]) := by
  refine ⟨⟨by decide, by decide, fun b => ?_⟩, fun h => ?_, trivial⟩
  · cases b
    · exact ⟨by decide, by decide, trivial⟩
    · trivial
  · have h0 := congrFun h 0
    revert h0
    decide

end Verif.Props
