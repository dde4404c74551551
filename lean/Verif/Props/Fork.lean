import Verif.Lemmas.ForkUpdate
import Verif.Props.Heap
import Verif.Lemmas.Pairs
import Verif.Model.Runtime

/-!
# C45, exactly: which builders a call changes
-/

namespace Verif.Props
open Spec

/-- The slices of a builder lie in memory. -/
private structure SelRefOk (h : SelHeap) (r : SelRef) : Prop where
  joins : r.joins.Valid h.joins
  withs : r.withs.Valid h.withs
  orders : r.orders.Valid h.orders

/-- The call adds these elements to these slices. -/
private inductive Effect (g : Growth) (h : SelHeap) (r : SelRef) (c : SelCall) : SelHeap × SelRef → Prop
  | joins (j : Join) (s' : SelectStmt) (ha : c.apply (r.stmt h) = .ok s')
      (hj : s'.joins = (r.stmt h).joins ++ [j]) (hc : c.clause = .joins) :
      Effect g h r c ({ h with joins := (h.joins.append g r.joins [j]).1 },
        { r with joins := (h.joins.append g r.joins [j]).2 })
  | withs (qs : List WithQuery) (hc : c = .with qs) (hw : (r.stmt h).withs ≠ []) :
      Effect g h r c ({ h with withs := (h.withs.append g r.withs qs).1 },
        { r with withs := (h.withs.append g r.withs qs).2 })
  | withsNew (qs : List WithQuery) (hc : c = .with qs) (hw : (r.stmt h).withs = []) :
      Effect g h r c ({ h with withs := (h.withs.alloc qs).1 },
        { r with withs := (h.withs.alloc qs).2 })
  | orders (os : List Order) (hc : c = .orderBy os) :
      Effect g h r c ({ h with orders := (h.orders.append g r.orders os).1 },
        { r with orders := (h.orders.append g r.orders os).2 })
  | other (b : SelectStmt) (hc : c.clause.accumulates = false) : Effect g h r c (h, { r with base := b })

private theorem call_effect {g : Growth} {h : SelHeap} {r : SelRef} {c : SelCall}
    {x : SelHeap × SelRef} (hx : r.call g h c = .ok x) : Effect g h r c x := by
  by_cases hc : c.clause.accumulates = false
  · rw [SelRef.call_pure hc] at hx
    unfold SelRef.pure at hx
    split at hx
    · cases hx
    · cases hx
      exact .other _ hc
  · cases c <;> first | exact absurd rfl hc | skip
    · next args =>
      simp only [SelRef.call, SelRef.Join] at hx
      split at hx
      · cases hx
      · next j hj =>
        split at hx
        · cases hx
        · cases hx
        · next he =>
          cases hx
          refine .joins j { r.stmt h with joins := (r.stmt h).joins ++ [j] } ?_ rfl rfl
          show (r.stmt h).Join args = _
          rw [SelectStmt.Join_eq, hj]
          simp only [SelectStmt.addJoin, he]
    · next args =>
      simp only [SelRef.call, SelRef.With] at hx
      by_cases hw : (r.stmt h).withs = []
      · have hw' : (h.withs.read r.withs).isEmpty = true := List.isEmpty_iff.2 hw
        rw [hw'] at hx
        cases hx
        exact .withsNew _ rfl hw
      · have hw' : (h.withs.read r.withs).isEmpty = false := List.isEmpty_eq_false_iff.2 hw
        rw [hw'] at hx
        cases hx
        exact .withs _ rfl hw
    · next os =>
      cases hx
      exact .orders _ rfl

private theorem ok_step {g : Growth} {h : SelHeap} {r : SelRef} {c : SelCall} {x : SelHeap × SelRef}
    (hx : r.call g h c = .ok x) (hr : SelRefOk h r) :
    SelRefOk x.1 x.2 ∧ ∀ q, SelRefOk h q → SelRefOk x.1 q := by
  cases call_effect hx with
  | joins j =>
    obtain ⟨-, h1, h2⟩ := Store.append_any g (xs := [j]) hr.joins
    exact ⟨⟨h1, hr.withs, hr.orders⟩, fun q hq => ⟨(h2 _ hq.joins).1, hq.withs, hq.orders⟩⟩
  | withs qs =>
    obtain ⟨-, h1, h2⟩ := Store.append_any g (xs := qs) hr.withs
    exact ⟨⟨hr.joins, h1, hr.orders⟩, fun q hq => ⟨hq.joins, (h2 _ hq.withs).1, hq.orders⟩⟩
  | withsNew qs =>
    obtain ⟨-, h1, h2⟩ := Store.alloc_any (st := h.withs) (xs := qs)
    exact ⟨⟨hr.joins, h1, hr.orders⟩, fun q hq => ⟨hq.joins, (h2 _ hq.withs).1, hq.orders⟩⟩
  | orders os =>
    obtain ⟨-, h1, h2⟩ := Store.append_any g (xs := os) hr.orders
    exact ⟨⟨hr.joins, hr.withs, h1⟩, fun q hq => ⟨hq.joins, hq.withs, (h2 _ hq.orders).1⟩⟩
  | other b => exact ⟨⟨hr.joins, hr.withs, hr.orders⟩, fun q hq => hq⟩

private theorem ok_run (g : Growth) (ops : List (Act Unit SelCall)) :
    ∀ w : SelWorld, (∀ r ∈ w.refs, SelRefOk w.heap r) →
      ∀ r ∈ (ops.foldl (SelWorld.step g) w).refs, SelRefOk (ops.foldl (SelWorld.step g) w).heap r := by
  induction ops with
  | nil => intro w h; exact h
  | cons op ops ih =>
    intro w h
    refine ih _ ?_
    cases op with
    | new _ =>
      intro r hr
      rcases List.mem_append.1 hr with hr | hr
      · exact h r hr
      · rw [List.mem_singleton] at hr
        subst hr
        exact ⟨.inl ⟨rfl, rfl⟩, .inl ⟨rfl, rfl⟩, .inl ⟨rfl, rfl⟩⟩
    | render _ _ => exact h
    | call i c =>
      simp only [SelWorld.step]
      split
      · exact h
      · next r hr =>
        split
        · exact h
        · next h' r' hx =>
          obtain ⟨h1, h2⟩ := ok_step hx (h r (List.mem_of_getElem? hr))
          intro q hq
          rcases List.mem_append.1 hq with hq | hq
          · exact h2 q (h q hq)
          · rw [List.mem_singleton] at hq
            subst hq
            exact h1

private theorem stmt_ne {h h' : SelHeap} {q : SelRef} :
    q.stmt h' ≠ q.stmt h ↔ h'.joins.read q.joins ≠ h.joins.read q.joins ∨
      h'.withs.read q.withs ≠ h.withs.read q.withs ∨
      h'.orders.read q.orders ≠ h.orders.read q.orders := by
  unfold SelRef.stmt
  obtain ⟨b, j, w, o⟩ := q
  cases b
  simp only [ne_eq, SelectStmt.mk.injEq, true_and, and_true]
  constructor
  · intro hn
    by_cases h1 : h'.joins.read j = h.joins.read j
    · by_cases h2 : h'.withs.read w = h.withs.read w
      · exact .inr (.inr fun h3 => hn ⟨h2, h1, h3⟩)
      · exact .inr (.inl h2)
    · exact .inl h1
  · rintro (hn | hn | hn) ⟨h1, h2, h3⟩
    · exact hn h2
    · exact hn h1
    · exact hn h3

/-- C45, SELECT, exactly. In every program, whatever was done before, a call changes a builder (not
the one it returns) if and only if it adds joins, orderings or common table expressions to an array
that has room, of which the builder has more than the one the call is made on, and holds something
else there. -/
theorem C45_select_exact (g : Growth) (ops : List (Act Unit SelCall)) (i k : Nat) (c : SelCall)
    (r q : SelRef) (hr : (SelWorld.run g ops).refs[i]? = some r)
    (hq : (SelWorld.run g ops).refs[k]? = some q) :
    (SelWorld.run g (ops ++ [.call i c])).stmts[k]? ≠ (SelWorld.run g ops).stmts[k]? ↔
      Changes (SelWorld.run g ops).heap r c q := by
  have hall := ok_run g ops ⟨⟨[], [], []⟩, []⟩ (by simp)
  have hok : SelRefOk (SelWorld.run g ops).heap r := hall r (List.mem_of_getElem? hr)
  have hok' : SelRefOk (SelWorld.run g ops).heap q := hall q (List.mem_of_getElem? hq)
  have hrun : SelWorld.run g (ops ++ [.call i c]) = (SelWorld.run g ops).step g (.call i c) := by
    unfold SelWorld.run
    rw [List.foldl_append]
    rfl
  rw [hrun]
  generalize SelWorld.run g ops = w at *
  simp only [SelWorld.step, hr]
  cases hx : r.call g w.heap c with
  | error e =>
    refine iff_of_false (fun h => h rfl) ?_
    rintro (⟨j, s', h1, h2, h3, -⟩ | ⟨qs, rfl, -⟩ | ⟨os, rfl, -⟩)
    · cases c <;> simp [SelCall.clause] at h1
      next args =>
      simp only [SelRef.call, SelRef.Join] at hx
      have h2 : (r.stmt w.heap).Join args = .ok s' := h2
      rw [SelectStmt.Join_eq] at h2
      split at hx
      · next he => rw [he] at h2; cases h2
      · next he =>
        rw [he] at h2
        simp only [SelectStmt.addJoin] at h2
        split at hx
        · next he => rw [he] at h2; cases h2
        · next he => rw [he] at h2; cases h2
        · cases hx
    · cases hx
    · cases hx
  | ok x =>
    obtain ⟨h', r'⟩ := x
    have hget : (⟨h', w.refs ++ [r']⟩ : SelWorld).stmts[k]? = some (q.stmt h') := by
      unfold SelWorld.stmts
      rw [List.getElem?_map, List.getElem?_append_left (List.getElem?_eq_some_iff.1 hq).1, hq]
      rfl
    have hget' : w.stmts[k]? = some (q.stmt w.heap) := by
      unfold SelWorld.stmts
      rw [List.getElem?_map, hq]
      rfl
    simp only [hget, hget']
    rw [show (some (q.stmt h') ≠ some (q.stmt w.heap)) ↔ q.stmt h' ≠ q.stmt w.heap by simp, stmt_ne]
    unfold Changes
    cases call_effect hx with
    | joins j s' ha hj hc =>
      obtain ⟨-, -, h2⟩ := Store.append_any g (xs := [j]) hok.joins
      simp only [(h2 _ hok'.joins).2, ne_eq, not_true_eq_false, or_false]
      constructor
      · intro h3; exact .inl ⟨j, s', hc, ha, hj, h3⟩
      · rintro (⟨j', s'', -, h3, h4, h5⟩ | ⟨qs, rfl, -⟩ | ⟨os, rfl, -⟩)
        · rw [ha] at h3
          cases h3
          rw [hj, List.append_cancel_left_eq] at h4
          cases h4
          exact h5
        · cases hc
        · cases hc
    | withs qs hc hw =>
      obtain ⟨-, -, h2⟩ := Store.append_any g (xs := qs) hok.withs
      simp only [(h2 _ hok'.withs).2, ne_eq, not_true_eq_false, or_false, false_or]
      subst hc
      constructor
      · intro h3; exact .inr (.inl ⟨qs, rfl, hw, h3⟩)
      · rintro (⟨j', s'', h1, -⟩ | ⟨qs, h, -, h4⟩ | ⟨os, h, -⟩)
        · cases h1
        · cases h; exact h4
        · cases h
    | withsNew qs hc hw =>
      obtain ⟨-, -, h2⟩ := Store.alloc_any (st := w.heap.withs) (xs := qs)
      simp only [(h2 _ hok'.withs).2, ne_eq, not_true_eq_false, or_false, false_iff]
      subst hc
      rintro (⟨j', s'', h1, -⟩ | ⟨qs, h, h3, h4⟩ | ⟨os, h, -⟩)
      · cases h1
      · exact h3 hw
      · cases h
    | orders os hc =>
      obtain ⟨-, -, h2⟩ := Store.append_any g (xs := os) hok.orders
      simp only [(h2 _ hok'.orders).2, ne_eq, not_true_eq_false, false_or]
      subst hc
      constructor
      · intro h3; exact .inr (.inr ⟨os, rfl, h3⟩)
      · rintro (⟨j', s'', h1, -⟩ | ⟨qs, h, -⟩ | ⟨os, h, h4⟩)
        · cases h1
        · cases h
        · cases h; exact h4
    | other b hc =>
      simp only [ne_eq, not_true_eq_false, or_false, false_iff]
      rintro (⟨j', s'', h1, -⟩ | ⟨qs, rfl, -⟩ | ⟨os, rfl, -⟩)
      · rw [h1] at hc; cases hc
      · cases hc
      · cases hc

private theorem sel_call (g : Growth) {h : SelHeap} {r : SelRef} (hr : SelRefOk h r) (c : SelCall) :
    match c.apply (r.stmt h) with
    | .error e => r.call g h c = .error e ∧ ∀ q, afterSelCall h r q c = q.stmt h
    | .ok s => ∃ h' r', r.call g h c = .ok (h', r') ∧ r'.stmt h' = s ∧
        ∀ q, SelRefOk h q → q.stmt h' = afterSelCall h r q c := by
  have nothing : ∀ (own other : Slice) (old : List Join), sharedAfter own other old [] = old := by
    intro own other old; unfold sharedAfter; split <;> first | rfl | exact overwritten_nil _ _
  by_cases hc : c.clause.accumulates = false
  · rw [SelRef.call_pure hc]
    unfold SelRef.pure
    have n1 : c.clause ≠ .joins := fun e => by rw [e] at hc; cases hc
    have n2 : c.clause ≠ .with := fun e => by rw [e] at hc; cases hc
    have n3 : c.clause ≠ .orderBy := fun e => by rw [e] at hc; cases hc
    have key : ∀ q : SelRef, afterSelCall h r q c = { q.stmt h with
        joins := match c.apply (r.stmt h) with
          | .ok s' => sharedAfter r.joins q.joins (q.stmt h).joins
            (s'.joins.drop (r.stmt h).joins.length)
          | .error _ => (q.stmt h).joins } := by
      intro q
      cases c <;> first | rfl | exact absurd rfl n1 | exact absurd rfl n2 | exact absurd rfl n3
    cases ha : c.apply (r.stmt h) with
    | error e =>
      refine ⟨rfl, fun q => ?_⟩
      rw [key, ha]
      rfl
    | ok s =>
      have f1 : s.joins = (r.stmt h).joins := sel_frame ha .joins (Ne.symm n1)
      have f2 : s.withs = (r.stmt h).withs := sel_frame ha .with (Ne.symm n2)
      have f3 : s.orderBy = (r.stmt h).orderBy := sel_frame ha .orderBy (Ne.symm n3)
      refine ⟨_, _, rfl, ?_, fun q _ => ?_⟩
      · show { s with
          joins := (r.stmt h).joins
          withs := (r.stmt h).withs
          orderBy := (r.stmt h).orderBy } = s
        rw [← f1, ← f2, ← f3]
        cases s
        rfl
      · rw [key, ha]
        simp only [f1, List.drop_length, nothing]
        rfl
  · cases c <;> first | exact absurd rfl hc | skip
    · next args =>
      have e1 : (SelCall.join args).apply (r.stmt h) = (r.stmt h).Join args := rfl
      have e2 : r.call g h (.join args) = r.Join g h args := rfl
      rw [SelectStmt.Join_eq] at e1
      rw [e2]
      simp only [SelRef.Join]
      cases hj : SelectStmt.joinOf args with
      | error p =>
        rw [hj] at e1
        simp only at e1
        rw [e1]
        refine ⟨rfl, fun q => ?_⟩
        simp only [afterSelCall, e1]
        rfl
      | ok j =>
        rw [hj] at e1
        simp only [SelectStmt.addJoin] at e1
        cases hi : j.isEmpty with
        | error p =>
          rw [hi] at e1
          simp only at e1
          rw [e1]
          simp only [hi]
          refine ⟨trivial, fun q => ?_⟩
          simp only [afterSelCall, e1]
          rfl
        | ok b =>
          rw [hi] at e1
          cases b with
          | true =>
            simp only [Go.panic] at e1
            rw [e1]
            simp only [hi]
            refine ⟨rfl, fun q => ?_⟩
            simp only [afterSelCall, e1]
            rfl
          | false =>
            simp only at e1
            rw [e1]
            simp only [hi]
            obtain ⟨-, h1, h2⟩ := Store.appendEach_spec g [j] h.joins r.joins hr.joins
            refine ⟨_, _, rfl, ?_, fun q hq => ?_⟩
            · exact congrArg (fun x => { r.stmt h with joins := x }) h1
            · unfold afterSelCall
              simp only [e1, List.drop_left]
              exact congrArg (fun x => { q.stmt h with joins := x }) (h2 _ hq.joins).2
    · next qs =>
      have e1 : (SelCall.with qs).apply (r.stmt h) =
          .ok { r.stmt h with withs := (r.stmt h).withs ++ qs } := by
        show (r.stmt h).With qs = _
        unfold SelectStmt.With
        split
        · next hw => rw [List.isEmpty_iff.1 hw]; rfl
        · rfl
      rw [e1]
      simp only [SelRef.call, SelRef.With]
      by_cases hw : (r.stmt h).withs = []
      · have hw' : (h.withs.read r.withs).isEmpty = true := List.isEmpty_iff.2 hw
        simp only [hw', if_true]
        obtain ⟨h1, -, h2⟩ := Store.alloc_any (st := h.withs) (xs := qs)
        refine ⟨_, _, rfl, ?_, fun q hq => ?_⟩
        · exact congrArg (fun x => { r.stmt h with withs := x }) 
            (h1.trans (show qs = (r.stmt h).withs ++ qs by rw [hw]; rfl))
        · unfold afterSelCall
          simp only [e1, List.drop_length, nothing, hw, ne_eq, not_true_eq_false, false_and, if_false]
          exact congrArg (fun x => { q.stmt h with withs := x }) (h2 _ hq.withs).2
      · have hw' : (h.withs.read r.withs).isEmpty = false := List.isEmpty_eq_false_iff.2 hw
        simp only [hw', Bool.false_eq_true, if_false]
        obtain ⟨h1, -, -⟩ := Store.append_any g (xs := qs) hr.withs
        refine ⟨_, _, rfl, ?_, fun q hq => ?_⟩
        · exact congrArg (fun x => { r.stmt h with withs := x }) h1
        · unfold afterSelCall
          simp only [e1, List.drop_length, nothing, hw, ne_eq, not_false_eq_true, true_and]
          exact congrArg (fun x => { q.stmt h with withs := x })
            (Store.append_read g hr.withs hq.withs)
    · next os =>
      have e1 : (SelCall.orderBy os).apply (r.stmt h) =
          .ok { r.stmt h with orderBy := (r.stmt h).orderBy ++ os } := rfl
      rw [e1]
      obtain ⟨h1, -, -⟩ := Store.append_any g (xs := os) hr.orders
      refine ⟨_, _, rfl, ?_, fun q hq => ?_⟩
      · exact congrArg (fun x => { r.stmt h with orderBy := x }) h1
      · unfold afterSelCall
        simp only [e1, List.drop_length, nothing]
        exact congrArg (fun x => { q.stmt h with orderBy := x })
          (Store.append_read g hr.orders hq.orders)

/-- C45, SELECT, exactly. In every program, whatever was done before, a call does this to all builders.
A builder whose joins (orderings, common table expressions) are in the same array as those of the one
the call is made on, and are more, gets the new ones in the place of its own, as far as it reaches.
Nothing else changes. The builder that is returned, if the call does not panic, is what the call makes
of the statement that the builder was at that moment. -/
theorem C45_select_call (g : Growth) (ops : List (Act Unit SelCall)) (i : Nat) (c : SelCall)
    (r : SelRef) (hr : (SelWorld.run g ops).refs[i]? = some r) :
    (SelWorld.run g (ops ++ [.call i c])).stmts =
      (SelWorld.run g ops).refs.map (fun q => afterSelCall (SelWorld.run g ops).heap r q c) ++
      (match c.apply (r.stmt (SelWorld.run g ops).heap) with
        | .ok s => [s]
        | .error _ => []) := by
  have hall := ok_run g ops ⟨⟨[], [], []⟩, []⟩ (by simp)
  rw [show ops.foldl (SelWorld.step g) ⟨⟨[], [], []⟩, []⟩ = SelWorld.run g ops from rfl] at hall
  rw [show SelWorld.run g (ops ++ [.call i c]) = (SelWorld.run g ops).step g (.call i c) from by
    unfold SelWorld.run
    rw [List.foldl_append]
    rfl]
  generalize SelWorld.run g ops = w at *
  have h1 := sel_call g (hall r (List.mem_of_getElem? hr)) c
  simp only [SelWorld.step, hr, SelWorld.stmts]
  cases hy : c.apply (r.stmt w.heap) with
  | error e =>
    rw [hy] at h1
    rw [h1.1]
    simpa using fun q _ => (h1.2 q).symm
  | ok s =>
    rw [hy] at h1
    obtain ⟨h', r', h2, h3, h4⟩ := h1
    rw [h2]
    simp only [List.map_append, List.map_cons, List.map_nil, h3]
    congr 1
    exact List.map_congr_left fun q hq => h4 q (hall q hq)

/-! ## UPDATE -/

section
variable {g : Growth}

/-- Nothing that is in memory gets lost. -/
private structure Keeps (h h' : UpdHeap) : Prop where
  valid : ∀ t : Slice, t.Valid h.columns → t.Valid h'.columns
  maps : h.maps.length ≤ h'.maps.length

private theorem Keeps.refl (h : UpdHeap) : Keeps h h := ⟨fun _ h => h, Nat.le_refl _⟩

private theorem Keeps.trans {h h1 h2 : UpdHeap} (a : Keeps h h1) (b : Keeps h1 h2) : Keeps h h2 :=
  ⟨fun t ht => b.valid t (a.valid t ht), Nat.le_trans a.maps b.maps⟩

private def StepOk (h : UpdHeap) (p : PairRef) (x : UpdHeap × Go PairRef) : Prop :=
  Keeps h x.1 ∧ ∀ p', x.2 = .ok p' → p'.columns.Valid x.1.columns ∧ p'.map = p.map

private def BodyOk {α : Type} (body : UpdHeap → PairRef → α → UpdHeap × Go PairRef) : Prop :=
  ∀ h p a, p.columns.Valid h.columns → StepOk h p (body h p a)

private theorem stepOk_error {h : UpdHeap} {p : PairRef} {e : Panic} : StepOk h p (h, .error e) :=
  ⟨.refl h, fun _ h => by cases h⟩

private theorem loop_ok {α : Type} {body : UpdHeap → PairRef → α → UpdHeap × Go PairRef}
    (hb : BodyOk body) : BodyOk (loopH body) := by
  intro h p l hv
  induction l generalizing h p with
  | nil => exact ⟨.refl h, fun p' h => by cases h; exact ⟨hv, rfl⟩⟩
  | cons a l ih =>
    have h1 := hb h p a hv
    rw [loopH]
    split
    · next h' e he =>
      rw [he] at h1
      exact ⟨h1.1, fun _ h => by cases h⟩
    · next h' p' he =>
      rw [he] at h1
      obtain ⟨h2, h3⟩ := h1.2 p' rfl
      obtain ⟨h4, h5⟩ := ih h' p' h2
      exact ⟨h1.1.trans h4, fun q hq => ⟨(h5 q hq).1, (h5 q hq).2.trans h3⟩⟩

private theorem add_ok : BodyOk fun h p (ce : Column × Expr) => p.add g h ce.1 ce.2 := by
  intro h p ce hv
  simp only [PairRef.add]
  generalize (if p.mode = .unknown then PairMode.associative else p.mode) = m
  split
  · exact stepOk_error
  · by_cases hs : (mapLookup ce.1 (h.mapOf p.map)).isSome = true
    all_goals simp only [hs, ↓reduceIte, Bool.false_eq_true]
    · exact ⟨⟨fun t ht => ht, by simp⟩, fun p' h => by cases h; exact ⟨hv, rfl⟩⟩
    · obtain ⟨-, h1, h2⟩ := Store.append_any g (xs := [ce.1]) hv
      exact ⟨⟨fun t ht => (h2 t ht).1, by simp⟩, fun p' h => by cases h; exact ⟨h1, rfl⟩⟩

private theorem set_ok : BodyOk (PairRef.set g) := by
  intro h p c hv
  simp only [PairRef.set]
  generalize (if p.mode = .unknown then PairMode.array else p.mode) = m
  split
  · exact stepOk_error
  · obtain ⟨-, h1, h2⟩ := Store.append_any g (xs := [c]) hv
    exact ⟨⟨fun t ht => (h2 t ht).1, Nat.le_refl _⟩, fun p' h => by cases h; exact ⟨h1, rfl⟩⟩

private theorem addPair_ok : BodyOk (PairRef.addPair g) := by
  intro h p kv hv
  unfold PairRef.addPair
  split
  · exact stepOk_error
  · next c _ =>
    split
    · exact stepOk_error
    · next x _ => exact add_ok h p (c, x) hv

private theorem mergeArg_ok : BodyOk (PairRef.mergeArg g) := by
  intro h p a hv
  unfold PairRef.mergeArg
  split
  · split
    · exact stepOk_error
    · exact loop_ok set_ok h p _ hv
  · split
    · exact stepOk_error
    · exact loop_ok set_ok h p _ hv
  · exact loop_ok addPair_ok h p _ hv
  · exact loop_ok addPair_ok h p _ hv
  · exact addPair_ok h p _ hv
  · exact stepOk_error

private theorem useArg_ok : BodyOk (PairRef.useArg g) := by
  intro h p a hv
  unfold PairRef.useArg
  split
  · exact stepOk_error
  · unfold PairRef.use
    split
    · exact stepOk_error
    · exact ⟨⟨fun t ht => ht, Nat.le_refl _⟩, fun p' h => by cases h; exact ⟨hv, rfl⟩⟩

/-- The SET clause of a builder lies in memory. -/
private structure UpdRefOk (h : UpdHeap) (r : UpdRef) : Prop where
  columns : r.set.columns.Valid h.columns
  map : r.set.map < h.maps.length

private theorem UpdRefOk.keeps {h h' : UpdHeap} {r : UpdRef} (hr : UpdRefOk h r) (hk : Keeps h h') :
    UpdRefOk h' r := ⟨hk.valid _ hr.columns, Nat.lt_of_lt_of_le hr.map hk.maps⟩

private theorem upd_call_ok {h : UpdHeap} {r : UpdRef} (hr : UpdRefOk h r) (c : UpdCall) :
    Keeps h (r.call g h c).1 ∧ ∀ r', (r.call g h c).2 = .ok r' → UpdRefOk (r.call g h c).1 r' := by
  have pure : ∀ m : UpdateStmt → Go UpdateStmt, Keeps h (r.pure h m).1 ∧
      ∀ r', (r.pure h m).2 = .ok r' → UpdRefOk (r.pure h m).1 r' := by
    intro m
    unfold UpdRef.pure
    split
    · exact ⟨.refl h, fun _ h => by cases h⟩
    · exact ⟨.refl h, fun _ h => by cases h; exact ⟨hr.columns, hr.map⟩⟩
  have step : ∀ {x : UpdHeap × Go PairRef}, StepOk h r.set x → ∀ {y : UpdHeap × Go UpdRef},
      (y = match x with
        | (h', .error p) => (h', .error p)
        | (h', .ok p) => (h', .ok { r with set := p })) →
      Keeps h y.1 ∧ ∀ r', y.2 = .ok r' → UpdRefOk y.1 r' := by
    rintro ⟨h', x⟩ hx y rfl
    cases x with
    | error e => exact ⟨hx.1, fun _ h => by cases h⟩
    | ok p =>
      refine ⟨hx.1, fun _ h => ?_⟩
      cases h
      obtain ⟨h1, h2⟩ := hx.2 p rfl
      exact ⟨h1, by
        show p.map < _
        rw [h2]
        exact Nat.lt_of_lt_of_le hr.map hx.1.maps⟩
  cases c <;> first | exact pure _ | skip
  · next args =>
    simp only [UpdRef.call, UpdRef.Set]
    split
    · exact ⟨.refl h, fun _ h => by cases h⟩
    · exact step (loop_ok mergeArg_ok h r.set args hr.columns) rfl
  · next args =>
    simp only [UpdRef.call, UpdRef.Using]
    split
    · exact ⟨.refl h, fun _ h => by cases h⟩
    · split
      · exact ⟨.refl h, fun _ h => by cases h⟩
      · exact step (loop_ok useArg_ok h r.set args hr.columns) rfl
  · next args =>
    refine ⟨⟨fun t ht => ht, Nat.le_refl _⟩, fun r' h => ?_⟩
    cases h
    exact ⟨hr.columns, hr.map⟩

private theorem upd_ok_run [GoRuntime] (g : Growth) (ops : List (Act Table UpdCall)) :
    ∀ w : UpdWorld, (∀ r ∈ w.refs, UpdRefOk w.heap r) →
      ∀ r ∈ (ops.foldl (UpdWorld.step g) w).refs, UpdRefOk (ops.foldl (UpdWorld.step g) w).heap r := by
  induction ops with
  | nil => intro w h; exact h
  | cons op ops ih =>
    intro w h
    refine ih _ ?_
    cases op with
    | new t =>
      intro r hr
      rcases List.mem_append.1 hr with hr | hr
      · exact (h r hr).keeps ⟨fun _ h => h, by simp [UpdWorld.step, UpdRef.new, PairRef.new]⟩
      · rw [List.mem_singleton] at hr
        subst hr
        exact ⟨.inl ⟨rfl, rfl⟩, by simp [UpdWorld.step, UpdRef.new, PairRef.new]⟩
    | render i reached =>
      simp only [UpdWorld.step]
      split
      · exact h
      · next r hr =>
        intro q hq
        refine (h q hq).keeps ?_
        unfold UpdRef.rendered
        split
        · exact ⟨fun t ht => (Store.sortInPlace_spec (h r (List.mem_of_getElem? hr)).columns t ht).1,
            Nat.le_refl _⟩
        · exact .refl _
    | call i c =>
      simp only [UpdWorld.step]
      split
      · exact h
      · next r hr =>
        have h1 := upd_call_ok (g := g) (h r (List.mem_of_getElem? hr)) c
        split
        · next h' e hx =>
          rw [hx] at h1
          exact fun q hq => (h q hq).keeps h1.1
        · next h' r' hx =>
          rw [hx] at h1
          intro q hq
          rcases List.mem_append.1 hq with hq | hq
          · exact (h q hq).keeps h1.1
          · rw [List.mem_singleton] at hq
            subst hq
            exact h1.2 _ rfl

/-- What assignments do to the memory of a builder whose columns are at `t`. -/
private structure Gave (as : List (Column × Expr)) (t : Slice) (h h' : UpdHeap) (p p' : PairRef) :
    Prop where
  map : p'.map = p.map
  look : ∀ c, mapLookup c (h'.mapOf p.map) = (lastGiven as c).or (mapLookup c (h.mapOf p.map))
  lt : p.map < h'.maps.length
  read : h'.columns.read t = h.columns.read t
  valid : t.Valid h'.columns
  own : p'.columns.Valid h'.columns
  len : t.len ≤ p'.columns.len
  exprs : h'.exprs = h.exprs
  withs : h'.withs = h.withs
  mode : p'.mode ≠ .array

private structure Start (t : Slice) (h : UpdHeap) (p : PairRef) : Prop where
  lt : p.map < h.maps.length
  valid : t.Valid h.columns
  own : p.columns.Valid h.columns
  len : t.len ≤ p.columns.len
  mode : p.mode ≠ .array

private theorem Gave.start {as : List (Column × Expr)} {t : Slice} {h h' : UpdHeap} {p p' : PairRef}
    (a : Gave as t h h' p p') : Start t h' p' := ⟨by rw [a.map]; exact a.lt, a.valid, a.own, a.len, a.mode⟩

private theorem Start.gave {t : Slice} {h : UpdHeap} {p : PairRef} (a : Start t h p) :
    Gave [] t h h p p :=
  ⟨rfl, fun _ => by simp [lastGiven_nil], a.lt, rfl, a.valid, a.own, a.len, rfl, rfl, a.mode⟩

private theorem Gave.trans {as bs : List (Column × Expr)} {t : Slice} {h h1 h2 : UpdHeap}
    {p p1 p2 : PairRef} (a : Gave as t h h1 p p1) (b : Gave bs t h1 h2 p1 p2) :
    Gave (as ++ bs) t h h2 p p2 where
  map := b.map.trans a.map
  look c := by
    have := b.look c
    rw [a.map] at this
    rw [this, a.look, lastGiven_append, Option.or_assoc]
  lt := by have := b.lt; rwa [a.map] at this
  read := b.read.trans a.read
  valid := b.valid
  own := b.own
  len := b.len
  exprs := b.exprs.trans a.exprs
  withs := b.withs.trans a.withs
  mode := b.mode

private theorem append_len {α : Type} {st : Store α} {s : Slice} {xs : List α} (hv : s.Valid st) :
    (st.append g s xs).2.len = s.len + xs.length := by
  unfold Store.append
  split
  · next h => simp [List.isEmpty_iff.1 h]
  · split
    · split <;> rfl
    · next ha =>
      rcases hv with ⟨-, h⟩ | ⟨a, x, h, -⟩
      · rw [h]; simp
      · rw [ha] at h; cases h

private theorem gave_add {t : Slice} {h : UpdHeap} {p : PairRef} (a : Start t h p) (ce : Column × Expr) :
    ∃ p', (p.add g h ce.1 ce.2).2 = .ok p' ∧ Gave [ce] t h (p.add g h ce.1 ce.2).1 p p' := by
  have hm : (if p.mode = .unknown then PairMode.associative else p.mode) = .associative := by
    have := a.mode
    cases h : p.mode <;> simp_all
  have hlook : ∀ st : Store Column, ∀ c, mapLookup c
      (UpdHeap.mapOf { h with columns := st, maps := h.maps.set p.map (mapAssign ce.1 ce.2 (h.mapOf p.map)) } p.map)
      = (lastGiven [ce] c).or (mapLookup c (h.mapOf p.map)) := by
    intro st c
    have : UpdHeap.mapOf { h with columns := st, maps := h.maps.set p.map (mapAssign ce.1 ce.2 (h.mapOf p.map)) }
        p.map = mapAssign ce.1 ce.2 (h.mapOf p.map) := by
      simp [UpdHeap.mapOf, a.lt]
    rw [this, mapLookup_assign, lastGiven_single]
    by_cases hc : ce.1 = c
    · simp [hc]
    · rw [if_neg hc, if_neg hc]; rfl
  unfold PairRef.add
  simp only [hm, ne_eq, not_true_eq_false, ↓reduceIte]
  by_cases hs : (mapLookup ce.1 (h.mapOf p.map)).isSome = true
  · rw [if_pos hs]
    refine ⟨_, rfl, rfl, hlook _, by simpa using a.lt, rfl, a.valid, a.own, a.len, rfl, rfl, by simp⟩
  · rw [if_neg hs]
    obtain ⟨-, h1, h2⟩ := Store.append_any g (xs := [ce.1]) a.own
    refine ⟨_, rfl, rfl, hlook _, by simpa using a.lt, ?_, (h2 t a.valid).1, h1, ?_, rfl, rfl, by simp⟩
    · refine Classical.byContradiction fun hn => ?_
      have := ((h2 t a.valid).2.1 hn).2.1
      have := a.len
      omega
    · show t.len ≤ _
      rw [append_len a.own]
      have := a.len
      omega

private theorem gave_pair {t : Slice} {h : UpdHeap} {p : PairRef} (a : Start t h p) {kv : Any × Any}
    {ce : Column × Expr} (hg : GivenPair kv ce) :
    ∃ p', (p.addPair g h kv).2 = .ok p' ∧ Gave [ce] t h (p.addPair g h kv).1 p p' := by
  unfold PairRef.addPair
  rw [(toColumn_iff kv.1 ce.1).2 hg.1]
  simp only [hg.2]
  exact gave_add a ce

private theorem gave_pairs {t : Slice} {l : List (Any × Any)} {as : List (Column × Expr)}
    (hg : Each GivenPair l as) : ∀ {h : UpdHeap} {p : PairRef}, Start t h p →
    ∃ p', (loopH (PairRef.addPair g) h p l).2 = .ok p' ∧
      Gave as t h (loopH (PairRef.addPair g) h p l).1 p p' := by
  induction hg with
  | nil => intro h p a; exact ⟨p, rfl, a.gave⟩
  | @cons kv ce l as h1 _ ih =>
    intro h p a
    obtain ⟨p1, h2, h3⟩ := gave_pair (g := g) a h1
    rw [loopH]
    rcases hx : p.addPair g h kv with ⟨h', x⟩
    rw [hx] at h2 h3
    cases h2
    obtain ⟨p2, h4, h5⟩ := ih h3.start
    exact ⟨p2, h4, h3.trans h5⟩

private theorem gave_arg {t : Slice} {h : UpdHeap} {p : PairRef} (a : Start t h p) {x : Any}
    {as : List (Column × Expr)} (hg : GivenArg x as) :
    ∃ p', (p.mergeArg g h x).2 = .ok p' ∧ Gave as t h (p.mergeArg g h x).1 p p' := by
  unfold GivenArg at hg
  split at hg
  · obtain ⟨ce, h1, rfl⟩ := hg
    exact gave_pair a h1
  · exact gave_pairs hg a
  · exact gave_pairs hg a
  · exact hg.elim

private theorem gave_args {t : Slice} {args : List Any} {gs : List (List (Column × Expr))}
    (hg : Each GivenArg args gs) : ∀ {h : UpdHeap} {p : PairRef}, Start t h p →
    ∃ p', (loopH (PairRef.mergeArg g) h p args).2 = .ok p' ∧
      Gave gs.flatten t h (loopH (PairRef.mergeArg g) h p args).1 p p' := by
  induction hg with
  | nil => intro h p a; exact ⟨p, rfl, a.gave⟩
  | @cons x as l gs h1 _ ih =>
    intro h p a
    obtain ⟨p1, h2, h3⟩ := gave_arg (g := g) a h1
    rw [loopH]
    rcases hx : p.mergeArg g h x with ⟨h', y⟩
    rw [hx] at h2 h3
    cases h2
    obtain ⟨p2, h4, h5⟩ := ih h3.start
    exact ⟨p2, h4, h3.trans h5⟩

end

/-- C45, UPDATE, exactly. In every program, whatever was done before, `Set` with pairs changes the
builder it is called on as follows: the builder keeps its columns, and those for which the call
gives a value have that value from then on; nothing else changes. -/
theorem C45_update_exact [GoRuntime] (g : Growth) (ops : List (Act Table UpdCall)) (i : Nat)
    (s : UpdateStmt) (hs : (UpdWorld.run g ops).stmts[i]? = some s) (hm : s.set.mode ≠ .array)
    (args : List Any) (ha : args ≠ []) (as : List (Column × Expr)) (hg : GivenArgs args as) :
    ∃ s', (UpdWorld.run g (ops ++ [.call i (.set args)])).stmts[i]? = some s' ∧
      s' = { s with set := { s.set with map := s'.set.map } } ∧
      ∀ c, mapLookup c s'.set.map = (lastGiven as c).or (mapLookup c s.set.map) := by
  have hrun : UpdWorld.run g (ops ++ [.call i (.set args)]) =
      (UpdWorld.run g ops).step g (.call i (.set args)) := by
    unfold UpdWorld.run
    rw [List.foldl_append]
    rfl
  have hall := upd_ok_run g ops ⟨⟨[], [], [], []⟩, []⟩ (by simp)
  rw [show ops.foldl (UpdWorld.step g) ⟨⟨[], [], [], []⟩, []⟩ = UpdWorld.run g ops from rfl] at hall
  rw [hrun]
  generalize UpdWorld.run g ops = w at *
  unfold UpdWorld.stmts at hs
  rw [List.getElem?_map, Option.map_eq_some_iff] at hs
  obtain ⟨r, hr, rfl⟩ := hs
  have hok := hall r (List.mem_of_getElem? hr)
  obtain ⟨gs, hgs, rfl⟩ := hg
  obtain ⟨p', h1, h2⟩ := gave_args (g := g) hgs (t := r.set.columns) (h := w.heap) (p := r.set)
    ⟨hok.map, hok.columns, hok.columns, Nat.le_refl _, hm⟩
  have hc : r.call g w.heap (.set args) = ((loopH (PairRef.mergeArg g) w.heap r.set args).1,
      .ok { r with set := p' }) := by
    simp only [UpdRef.call, UpdRef.Set]
    rw [if_neg (by simpa using ha)]
    rcases hx : loopH (PairRef.mergeArg g) w.heap r.set args with ⟨h', y⟩
    rw [hx] at h1
    cases h1
    rfl
  simp only [UpdWorld.step, hr, hc]
  generalize (loopH (PairRef.mergeArg g) w.heap r.set args).1 = h' at *
  refine ⟨r.stmt h', ?_, ?_, h2.look⟩
  · unfold UpdWorld.stmts
    rw [List.getElem?_map, List.getElem?_append_left (List.getElem?_eq_some_iff.1 hr).1, hr]
    rfl
  · simp only [UpdRef.stmt, PairRef.value, h2.read, h2.exprs, h2.withs]

private theorem lookupAll_iff {m m' : List (Column × Expr)} {cs : List Column} {l : List (Column × Expr)}
    (h : lookupAll m cs = .ok l) : (l.map (·.1) = cs ∧ ∀ c ∈ cs, (mapLookup c m).isSome = true) ∧
      (lookupAll m' cs = .ok l ↔ ∀ c ∈ cs, mapLookup c m' = mapLookup c m) := by
  induction cs generalizing l with
  | nil => cases h; exact ⟨⟨rfl, by simp⟩, iff_of_true rfl (by simp)⟩
  | cons c cs ih =>
    rw [lookupAll] at h
    split at h
    · cases h
    · next e he =>
      split at h
      · cases h
      · next l' hl =>
        cases h
        obtain ⟨⟨h1, h2⟩, h3⟩ := ih hl
        refine ⟨⟨by rw [List.map_cons, h1], ?_⟩, ?_⟩
        · intro d hd
          rcases List.mem_cons.1 hd with rfl | hd
          · rw [he]; rfl
          · exact h2 d hd
        rw [List.forall_mem_cons, ← h3, he, lookupAll]
        constructor
        · intro h
          split at h
          · cases h
          · next e' he' =>
            split at h
            · cases h
            · next l'' hl' => cases h; exact ⟨he', hl'⟩
        · rintro ⟨h4, h5⟩
          rw [h4, h5]

/-- C45, UPDATE: exactly when the assignments of the builder on which `Set` is called change. -/
theorem C45_update_changes [GoRuntime] (g : Growth) (ops : List (Act Table UpdCall)) (i : Nat)
    (s : UpdateStmt) (hs : (UpdWorld.run g ops).stmts[i]? = some s) (hm : s.set.mode = .associative)
    (columns : List Column) (values : List Expr) (hv : s.set.values = .ok (columns, values))
    (args : List Any) (ha : args ≠ []) (as : List (Column × Expr)) (hg : GivenArgs args as)
    (s' : UpdateStmt) (hs' : (UpdWorld.run g (ops ++ [.call i (.set args)])).stmts[i]? = some s') :
    s'.set.values = s.set.values ↔
      ∀ c e e', c ∈ columns → mapLookup c s.set.map = some e → lastGiven as c = some e' → e' = e := by
  obtain ⟨s'', h1, h2, h3⟩ := C45_update_exact g ops i s hs (by simp [hm]) args ha as hg
  rw [hs'] at h1
  cases h1
  have hcols : s'.set.columns = s.set.columns := by rw [h2]
  have hmode : s'.set.mode = s.set.mode := by rw [h2]
  rw [hv]
  unfold PairContainer.values at hv ⊢
  rw [hmode, hcols]
  simp only [hm, ne_eq, not_true_eq_false, ↓reduceIte] at hv ⊢
  generalize GoRuntime.sortSlice columnLess s.set.columns = cs at hv ⊢
  cases hl : lookupAll s.set.map cs with
  | error e => rw [hl] at hv; cases hv
  | ok l =>
    rw [hl] at hv
    cases hv
    obtain ⟨⟨h4, h5⟩, h6⟩ := lookupAll_iff (m' := s'.set.map) hl
    have h7 : (match lookupAll s'.set.map cs with
        | .error e => Except.error e
        | .ok l => .ok (l.map (·.1), l.map (·.2)) : Go (List Column × List Expr)) =
          .ok (l.map (·.1), l.map (·.2)) ↔ lookupAll s'.set.map cs = .ok l := by
      cases lookupAll s'.set.map cs with
      | error e => simp
      | ok l' =>
        simp only [Except.ok.injEq, Prod.mk.injEq]
        constructor
        · rintro ⟨h, h'⟩
          have := zip_fst_snd l'
          rw [h, h', zip_fst_snd] at this
          exact this.symm
        · rintro rfl; exact ⟨rfl, rfl⟩
    refine h7.trans (h6.trans ?_)
    rw [h4]
    constructor
    · intro h c e e' hc he hg
      have := h c hc
      rw [h3, hg, he] at this
      exact Option.some.inj this
    · intro h c hc
      obtain ⟨e, he⟩ := Option.isSome_iff_exists.1 (h5 c hc)
      rw [h3]
      cases hg : lastGiven as c with
      | none => rfl
      | some e' => rw [h c e e' hc he hg, he]; rfl

/-! ## The hypotheses can be met -/

private def by_ (name : Str) : SelCall := .orderBy [{ expression := name, type := s%"ASC" }]

/-- Three orderings, one after the other, and a fourth one made from the third. -/
private def ordered : List (Act Unit SelCall) :=
  [.new (), .call 0 (by_ s%"a"), .call 1 (by_ s%"b"), .call 2 (by_ s%"c"), .call 3 (by_ s%"d")]

/-- Another ordering made from the third changes the fourth builder, -/
example : (SelWorld.run doubling (ordered ++ [.call 3 (by_ s%"e")])).stmts[4]? ≠
    (SelWorld.run doubling ordered).stmts[4]? :=
  (C45_select_exact doubling ordered 3 4 (by_ s%"e") _ _ rfl rfl).2
    (.inr (.inr ⟨_, rfl, rfl, by decide, by decide, by decide⟩))

/-- unless it is the same, -/
example : (SelWorld.run doubling (ordered ++ [.call 3 (by_ s%"d")])).stmts[4]? =
    (SelWorld.run doubling ordered).stmts[4]? := by
  refine Classical.byContradiction fun h => ?_
  rcases (C45_select_exact doubling ordered 3 4 (by_ s%"d") _ _ rfl rfl).1 h with
    ⟨_, _, h, -⟩ | ⟨_, h, -⟩ | ⟨os, h, -, -, -, h'⟩
  · cases h
  · cases h
  · cases h
    exact h' rfl

/-- and one made from the second does not change the third, whose array has no room. -/
example : (SelWorld.run doubling (ordered ++ [.call 2 (by_ s%"e")])).stmts[3]? =
    (SelWorld.run doubling ordered).stmts[3]? := by
  refine Classical.byContradiction fun h => ?_
  rcases (C45_select_exact doubling ordered 2 3 (by_ s%"e") _ _ rfl rfl).1 h with
    ⟨_, _, h, -⟩ | ⟨_, h, -⟩ | ⟨os, h, h', -⟩
  · cases h
  · cases h
  · revert h'; decide

/-- All builders after that call: `C45_select_call` says what each of them is. -/
example (r : SelRef) (hr : (SelWorld.run doubling ordered).refs[3]? = some r) :
    ((SelWorld.run doubling (ordered ++ [.call 3 (by_ s%"e")])).stmts.map fun s =>
      s.orderBy.map (·.expression)) =
    [[], [s%"a"], [s%"a", s%"b"], [s%"a", s%"b", s%"c"], [s%"a", s%"b", s%"c", s%"e"],
      [s%"a", s%"b", s%"c", s%"e"]] := by
  rw [C45_select_call doubling ordered 3 (by_ s%"e") r hr]
  cases hr
  rfl

section
attribute [local instance] Runtime.sample

private def pairOf (name : Str) (value : Int) : Any := .pair (.val (.str name)) (.val (.int .int value))

private theorem pairOf_given (value : Int) : GivenArgs [pairOf s%"a" value]
    [({ name := s%"a" }, .value (.int .int value))] :=
  ⟨[_], .cons ⟨({ name := s%"a" }, .value (.int .int value)), ⟨(toColumn_iff _ _).1 rfl, rfl⟩, rfl⟩ .nil, rfl⟩

private def assigned : List (Act Table UpdCall) :=
  [.new { name := s%"t" }, .call 0 (.set [pairOf s%"a" 1, pairOf s%"b" 2])]

/-- A different value for a column that there is changes the builder; the same does not. -/
example (v : Int) (s' : UpdateStmt)
    (hs' : (UpdWorld.run doubling (assigned ++ [.call 1 (.set [pairOf s%"a" v])])).stmts[1]? = some s') :
    s'.set.values = .ok ([{ name := s%"a" }, { name := s%"b" }],
      [.value (.int .int 1), .value (.int .int 2)]) ↔ v = 1 := by
  refine (C45_update_changes doubling assigned 1 _ rfl rfl _ _ rfl _ (by simp) _ (pairOf_given v) s'
    hs').trans ?_
  constructor
  · intro h
    have := h { name := s%"a" } (.value (.int .int 1)) (.value (.int .int v)) (by decide) rfl rfl
    simpa using this
  · rintro rfl c e e' hc he he'
    rw [lastGiven_single] at he'
    split at he'
    · next h => subst h; cases he'; cases he; rfl
    · cases he'

end

end Verif.Props
