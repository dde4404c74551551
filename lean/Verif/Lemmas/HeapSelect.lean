import Verif.Lemmas.Calls
import Verif.Lemmas.History
import Verif.Lemmas.Slices
import Verif.Spec.Heap

/-!
# SELECT builders on shared memory
-/

namespace Verif
open Spec

theorem SelectStmt.Join_eq (b : SelectStmt) (args : List Any) :
    b.Join args = match SelectStmt.joinOf args with
      | .error p => .error p
      | .ok j => b.addJoin j := by
  match args with
  | [] => rfl
  | [a] => rfl
  | [a0, a1] => rfl
  | [a0, a1, a2] =>
    simp only [SelectStmt.Join, SelectStmt.joinOf]
    cases SelectStmt.handleSelectJoin a0 a1 with
    | error p => rfl
    | ok j => cases a2 <;> rfl
  | a0 :: a1 :: a2 :: a3 :: l => rfl

/-- The other fields of the statement are in the builder itself. -/
def SelRef.Fits (r : SelRef) (s : SelectStmt) : Prop :=
  { r.base with joins := s.joins, withs := s.withs, orderBy := s.orderBy } = s

/-- A builder, the statement it should be, and where its clauses come from. -/
structure SelRow where
  ref : SelRef
  entry : Entry SelClause SelectStmt

def SelRow.joins (x : SelRow) : TEntry Join :=
  ⟨x.ref.joins, x.entry.since .joins, x.entry.stmt.joins⟩
def SelRow.withs (x : SelRow) : TEntry WithQuery :=
  ⟨x.ref.withs, x.entry.since .with, x.entry.stmt.withs⟩
def SelRow.orders (x : SelRow) : TEntry Order :=
  ⟨x.ref.orders, x.entry.since .orderBy, x.entry.stmt.orderBy⟩

/-- Memory and the account of builders agree. -/
structure SelInv (w : SelWorld) (h : Hist SelClause SelectStmt) (rows : List SelRow) : Prop where
  refs : w.refs = rows.map (·.ref)
  entries : h.entries = rows.map (·.entry)
  fits : ∀ x ∈ rows, x.ref.Fits x.entry.stmt
  joins : Tracked w.heap.joins (spentOf h.spent .joins) (rows.map SelRow.joins)
  withs : Tracked w.heap.withs (spentOf h.spent .with) (rows.map SelRow.withs)
  orders : Tracked w.heap.orders (spentOf h.spent .orderBy) (rows.map SelRow.orders)

theorem SelInv.stmt {w : SelWorld} {h : Hist SelClause SelectStmt} {rows : List SelRow}
    (hi : SelInv w h rows) {x : SelRow} (hx : x ∈ rows) : x.ref.stmt w.heap = x.entry.stmt := by
  have h1 := hi.joins.read _ (List.mem_map_of_mem hx)
  have h2 := hi.withs.read _ (List.mem_map_of_mem hx)
  have h3 := hi.orders.read _ (List.mem_map_of_mem hx)
  have h4 := hi.fits x hx
  simp only [SelRow.joins, SelRow.withs, SelRow.orders] at h1 h2 h3
  unfold SelRef.stmt
  rw [h1, h2, h3]
  exact h4

theorem SelRef.call_pure {g : Growth} {h : SelHeap} {r : SelRef} {c : SelCall}
    (hc : c.clause.accumulates = false) : r.call g h c = r.pure h c.apply := by
  cases c <;> first | rfl | (simp [SelCall.clause, SelClause.accumulates] at hc)

theorem sel_frame {c : SelCall} {s s' : SelectStmt} (h : c.apply s = .ok s') (k : SelClause)
    (hk : k ≠ c.clause) : k.get s' = k.get s :=
  (sel_local c).frame h hk

theorem selInv_step (g : Growth) {w : SelWorld} {h : Hist SelClause SelectStmt}
    {rows : List SelRow} (hi : SelInv w h rows) (op : Act Unit SelCall)
    (ha : h.Allows SelCall.clause SelClause.accumulates op) :
    ∃ rows', SelInv (w.step g op) (h.step (fun _ => SelectStmt.zero) SelCall.apply SelCall.clause op) rows' := by
  have hl : h.entries.length = rows.length := by rw [hi.entries, List.length_map]
  cases op with
  | render i b => exact ⟨rows, hi⟩
  | new n =>
    refine ⟨rows ++ [⟨⟨SelectStmt.zero, .nil, .nil, .nil⟩, ⟨SelectStmt.zero, fun _ => rows.length⟩⟩], ?_, ?_, ?_, ?_, ?_, ?_⟩
    · simp [SelWorld.step, hi.refs]
    · simp [Hist.step, hi.entries]
    · intro x hx
      rcases List.mem_append.1 hx with hx | hx
      · exact hi.fits x hx
      · simp only [List.mem_singleton] at hx; subst hx; rfl
    · have := hi.joins.new
      simpa [SelRow.joins, Hist.step, SelWorld.step, SelectStmt.zero] using this
    · have := hi.withs.new
      simpa [SelRow.withs, Hist.step, SelWorld.step, SelectStmt.zero] using this
    · have := hi.orders.new
      simpa [SelRow.orders, Hist.step, SelWorld.step, SelectStmt.zero] using this
  | call i c =>
    cases hx : rows[i]? with
    | none =>
      refine ⟨rows, ?_⟩
      simp only [SelWorld.step, Hist.step, hi.refs, hi.entries, List.getElem?_map, hx,
        Option.map_none]
      exact hi
    | some x =>
      have hm : x ∈ rows := List.mem_of_getElem? hx
      have he : h.entries[i]? = some x.entry := by
        rw [hi.entries, List.getElem?_map, hx]; rfl
      have hr : w.refs[i]? = some x.ref := by
        rw [hi.refs, List.getElem?_map, hx]; rfl
      have hst := hi.stmt hm
      have hsp : ∀ k, c.clause ≠ k →
          spentOf ((c.clause, x.entry.since c.clause) :: h.spent) k = spentOf h.spent k :=
        fun k hk => spentOf_cons_ne hk
      by_cases hc : c.clause.accumulates = false
      · have h1 : c.clause ≠ .joins := fun e => by rw [e] at hc; cases hc
        have h2 : c.clause ≠ .with := fun e => by rw [e] at hc; cases hc
        have h3 : c.clause ≠ .orderBy := fun e => by rw [e] at hc; cases hc
        simp only [SelWorld.step, Hist.step, hr, he, SelRef.call_pure hc, SelRef.pure, hst]
        cases hap : c.apply x.entry.stmt with
        | error p =>
          refine ⟨rows, hi.refs, hi.entries, hi.fits, ?_, ?_, ?_⟩
          · rw [hsp _ h1]; exact hi.joins
          · rw [hsp _ h2]; exact hi.withs
          · rw [hsp _ h3]; exact hi.orders
        | ok b =>
          have f1 : b.joins = x.entry.stmt.joins := sel_frame hap .joins (Ne.symm h1)
          have f2 : b.withs = x.entry.stmt.withs := sel_frame hap .with (Ne.symm h2)
          have f3 : b.orderBy = x.entry.stmt.orderBy := sel_frame hap .orderBy (Ne.symm h3)
          refine ⟨rows ++ [⟨{ x.ref with base := b },
            ⟨b, fun k => if k = c.clause then rows.length else x.entry.since k⟩⟩],
            ?_, ?_, ?_, ?_, ?_, ?_⟩
          · simp [hi.refs]
          · simp [hi.entries]
          · intro y hy
            rcases List.mem_append.1 hy with hy | hy
            · exact hi.fits y hy
            · simp only [List.mem_singleton] at hy; subst hy
              cases b; rfl
          · have := hi.joins.copy (List.mem_map_of_mem hm)
            simp only [hsp _ h1]
            simpa [SelRow.joins, f1, Ne.symm h1] using this
          · have := hi.withs.copy (List.mem_map_of_mem hm)
            simp only [hsp _ h2]
            simpa [SelRow.withs, f2, Ne.symm h2] using this
          · have := hi.orders.copy (List.mem_map_of_mem hm)
            simp only [hsp _ h3]
            simpa [SelRow.orders, f3, Ne.symm h3] using this
      · have hc' : c.clause.accumulates = true := by simpa using hc
        have hns := ha x.entry he hc'
        have hf := hi.fits x hm
        cases c with
        | join args =>
          have hns' : (SelRow.joins x).ver ∉ spentOf h.spent .joins :=
            fun hv => hns (mem_spentOf.1 hv)
          simp only [SelWorld.step, Hist.step, hr, he, SelRef.call, SelCall.apply, SelRef.Join,
            SelectStmt.Join_eq]
          have herr : SelInv w ⟨h.entries, (SelClause.joins, x.entry.since .joins) :: h.spent⟩ rows := by
            refine ⟨hi.refs, hi.entries, hi.fits, ?_, ?_, ?_⟩
            · rw [spentOf_cons_self]
              exact hi.joins.weaken fun v hv => List.mem_cons_of_mem _ hv
            · exact hi.withs
            · exact hi.orders
          cases SelectStmt.joinOf args with
          | error p => exact ⟨rows, herr⟩
          | ok j =>
            simp only [SelectStmt.addJoin]
            cases j.isEmpty with
            | error p => exact ⟨rows, herr⟩
            | ok e =>
              cases e with
              | true => exact ⟨rows, herr⟩
              | false =>
                simp only
                refine ⟨rows ++ [⟨{ x.ref with joins := (w.heap.joins.append g x.ref.joins [j]).2 },
                  ⟨{ x.entry.stmt with joins := x.entry.stmt.joins ++ [j] },
                  fun k => if k = .joins then rows.length else x.entry.since k⟩⟩],
                  ?_, ?_, ?_, ?_, ?_, ?_⟩
                · simp [hi.refs]
                · simp [SelCall.clause, hi.entries]
                · intro y hy
                  rcases List.mem_append.1 hy with hy | hy
                  · exact hi.fits y hy
                  · simp only [List.mem_singleton] at hy; subst hy
                    simp only [SelRef.Fits] at hf ⊢
                    rw [← hf]
                · have := hi.joins.append g (List.mem_map_of_mem hm) hns' [j]
                  simp only [SelCall.clause, spentOf_cons_self]
                  simpa [SelRow.joins] using this
                · have := hi.withs.copy (List.mem_map_of_mem hm)
                  simpa [SelRow.withs, SelCall.clause, spentOf_cons_ne] using this
                · have := hi.orders.copy (List.mem_map_of_mem hm)
                  simpa [SelRow.orders, SelCall.clause, spentOf_cons_ne] using this
        | «with» args =>
          have hns' : (SelRow.withs x).ver ∉ spentOf h.spent .with :=
            fun hv => hns (mem_spentOf.1 hv)
          have hrd : w.heap.withs.read x.ref.withs = x.entry.stmt.withs :=
            hi.withs.read _ (List.mem_map_of_mem hm)
          have hap : x.entry.stmt.With args =
              .ok { x.entry.stmt with withs := x.entry.stmt.withs ++ args } := by
            simp only [SelectStmt.With]
            by_cases hw : x.entry.stmt.withs.isEmpty = true
            · rw [if_pos hw, List.isEmpty_iff.1 hw]; rfl
            · rw [if_neg hw]
          simp only [SelWorld.step, Hist.step, hr, he, SelRef.call, SelCall.apply, SelRef.With, hap,
            hrd]
          have htr : ∃ st s, (if x.entry.stmt.withs.isEmpty then w.heap.withs.alloc args
              else w.heap.withs.append g x.ref.withs args) = (st, s) ∧
              Tracked st (spentOf ((SelClause.with, x.entry.since .with) :: h.spent) .with)
                (rows.map SelRow.withs ++ [⟨s, rows.length, x.entry.stmt.withs ++ args⟩]) := by
            rw [spentOf_cons_self]
            by_cases hw : x.entry.stmt.withs.isEmpty = true
            · rw [if_pos hw]
              refine ⟨_, _, (Prod.eta _).symm, ?_⟩
              have := (hi.withs.alloc args).weaken
                (spent' := x.entry.since .with :: spentOf h.spent .with)
                fun v hv => List.mem_cons_of_mem _ hv
              rw [List.isEmpty_iff.1 hw]
              simpa using this
            · rw [if_neg hw]
              refine ⟨_, _, (Prod.eta _).symm, ?_⟩
              have := hi.withs.append g (List.mem_map_of_mem hm) hns' args
              simpa [SelRow.withs] using this
          obtain ⟨st, s, h1, h2⟩ := htr
          rw [h1]
          simp only
          refine ⟨rows ++ [⟨{ x.ref with withs := s },
            ⟨{ x.entry.stmt with withs := x.entry.stmt.withs ++ args },
            fun k => if k = .with then rows.length else x.entry.since k⟩⟩],
            ?_, ?_, ?_, ?_, ?_, ?_⟩
          · simp [hi.refs]
          · simp [SelCall.clause, hi.entries]
          · intro y hy
            rcases List.mem_append.1 hy with hy | hy
            · exact hi.fits y hy
            · simp only [List.mem_singleton] at hy; subst hy
              simp only [SelRef.Fits] at hf ⊢
              rw [← hf]
          · have := hi.joins.copy (List.mem_map_of_mem hm)
            simpa [SelRow.joins, SelCall.clause, spentOf_cons_ne] using this
          · simpa [SelRow.withs, SelCall.clause] using h2
          · have := hi.orders.copy (List.mem_map_of_mem hm)
            simpa [SelRow.orders, SelCall.clause, spentOf_cons_ne] using this
        | orderBy os =>
          have hns' : (SelRow.orders x).ver ∉ spentOf h.spent .orderBy :=
            fun hv => hns (mem_spentOf.1 hv)
          simp only [SelWorld.step, Hist.step, hr, he, SelRef.call, SelCall.apply, SelRef.OrderBy,
            SelectStmt.OrderBy]
          refine ⟨rows ++ [⟨{ x.ref with orders := (w.heap.orders.append g x.ref.orders os).2 },
            ⟨{ x.entry.stmt with orderBy := x.entry.stmt.orderBy ++ os },
            fun k => if k = .orderBy then rows.length else x.entry.since k⟩⟩],
            ?_, ?_, ?_, ?_, ?_, ?_⟩
          · simp [hi.refs]
          · simp [SelCall.clause, hi.entries]
          · intro y hy
            rcases List.mem_append.1 hy with hy | hy
            · exact hi.fits y hy
            · simp only [List.mem_singleton] at hy; subst hy
              simp only [SelRef.Fits] at hf ⊢
              rw [← hf]
          · have := hi.joins.copy (List.mem_map_of_mem hm)
            simpa [SelRow.joins, SelCall.clause, spentOf_cons_ne] using this
          · have := hi.withs.copy (List.mem_map_of_mem hm)
            simpa [SelRow.withs, SelCall.clause, spentOf_cons_ne] using this
          · have := hi.orders.append g (List.mem_map_of_mem hm) hns' os
            simp only [SelCall.clause, spentOf_cons_self]
            simpa [SelRow.orders] using this
        | _ => exact absurd rfl hc

theorem selInv_run (g : Growth) (ops : List (Act Unit SelCall)) : ∀ {w : SelWorld}
    {h : Hist SelClause SelectStmt} {rows : List SelRow}, SelInv w h rows →
    ExtendsOnce (fun _ => SelectStmt.zero) SelCall.apply SelCall.clause SelClause.accumulates h ops →
    ∃ h' rows', SelInv (ops.foldl (SelWorld.step g) w) h' rows' ∧
      h'.entries.map (·.stmt) =
        ops.foldl (idealStep (fun _ => SelectStmt.zero) SelCall.apply) (h.entries.map (·.stmt)) := by
  induction ops with
  | nil => exact fun hi _ => ⟨_, _, hi, rfl⟩
  | cons op l ih =>
    intro w h rows hi he
    obtain ⟨rows', hi'⟩ := selInv_step g hi op he.1
    obtain ⟨h', rows'', h1, h2⟩ := ih hi' he.2
    exact ⟨h', rows'', h1, by rw [h2, step_ideal]; rfl⟩

theorem selInv_start : SelInv ⟨⟨[], [], []⟩, []⟩ ⟨[], []⟩ [] :=
  ⟨rfl, rfl, by simp, Tracked.start, Tracked.start, Tracked.start⟩

/-- Programs that extend no clause twice: the builders are those of the ideal program. -/
theorem sel_run (g : Growth) (ops : List (Act Unit SelCall))
    (he : ExtendsOnce (fun _ => SelectStmt.zero) SelCall.apply SelCall.clause SelClause.accumulates ⟨[], []⟩ ops) :
    (SelWorld.run g ops).stmts = ideal (fun _ => SelectStmt.zero) SelCall.apply ops := by
  obtain ⟨h, rows, hi, h1⟩ := selInv_run g ops selInv_start he
  unfold ideal
  refine Eq.trans ?_ h1
  unfold SelWorld.stmts
  show (SelWorld.run g ops).refs.map _ = _
  have : (SelWorld.run g ops).refs = rows.map (·.ref) := hi.refs
  rw [this, hi.entries, List.map_map, List.map_map]
  exact List.map_congr_left fun x hx => hi.stmt hx

end Verif
