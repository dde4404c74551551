import Verif.Lemmas.ForkUpdate
import Verif.Lemmas.HeapRender
import Verif.Props.Heap

/-!
# C45 and C47 for INSERT: every program
-/

namespace Verif.Props
open Spec

section
variable [GoRuntime]

/-- The slices of a builder lie in memory, and the SET clause of DO UPDATE is all of its array. -/
private structure InsRefOk (h : InsHeap) (r : InsRef) : Prop where
  target : r.target.Valid h.targets
  set : r.set.Valid h.sets
  full : r.set.Full h.sets

/-- Builders with the same array have it for the same syntax, `modes` of the array. -/
private def HasMode (modes : Nat → PairMode) (r : InsRef) : Prop :=
  ∀ p a, r.base.action = .update p → r.set.arr = some a → p.mode = modes a

omit [GoRuntime] in
/-- The loop leaves the memory of other builders in order, and the new builder is in order. -/
private theorem conflictLoop_ok (g : Growth) (args : List Any) : ∀ (h : InsHeap) (r : InsRef),
    InsRefOk h r →
    (∀ q, InsRefOk h q → InsRefOk (r.conflictLoop g h args).1 q) ∧
    (∀ s, s.Valid h.sets → (r.conflictLoop g h args).1.sets.read s = h.sets.read s) ∧
    ∀ r', (r.conflictLoop g h args).2 = .ok r' → InsRefOk (r.conflictLoop g h args).1 r' ∧
      ∀ modes : Nat → PairMode, ∃ modes', HasMode modes' r' ∧ ∀ a < h.sets.length, modes' a = modes a := by
  induction args with
  | nil => exact fun h r hr => ⟨fun _ h => h, fun _ _ => rfl, fun _ h => by cases h⟩
  | cons a l ih =>
    intro h r hr
    have stop : ∀ p, r.conflictLoop g h (a :: l) = (h, .error p) → _ := fun p h1 =>
      (⟨by rw [h1]; exact fun _ h => h, by rw [h1]; exact fun _ _ => rfl,
        by rw [h1]; exact fun _ h => by cases h⟩ :
        (∀ q, InsRefOk h q → InsRefOk (r.conflictLoop g h (a :: l)).1 q) ∧
        (∀ s, s.Valid h.sets → (r.conflictLoop g h (a :: l)).1.sets.read s = h.sets.read s) ∧
        ∀ r', (r.conflictLoop g h (a :: l)).2 = .ok r' →
          InsRefOk (r.conflictLoop g h (a :: l)).1 r' ∧
          ∀ modes : Nat → PairMode, ∃ modes', HasMode modes' r' ∧ ∀ a < h.sets.length, modes' a = modes a)
    have go : ∀ c, r.conflictLoop g h (a :: l) =
          InsRef.conflictLoop g { h with targets := (h.targets.append g r.target [c]).1 }
            { r with target := (h.targets.append g r.target [c]).2 } l →
        (∀ q, InsRefOk h q → InsRefOk (r.conflictLoop g h (a :: l)).1 q) ∧
        (∀ s, s.Valid h.sets → (r.conflictLoop g h (a :: l)).1.sets.read s = h.sets.read s) ∧
        ∀ r', (r.conflictLoop g h (a :: l)).2 = .ok r' →
          InsRefOk (r.conflictLoop g h (a :: l)).1 r' ∧
          ∀ modes : Nat → PairMode, ∃ modes', HasMode modes' r' ∧ ∀ a < h.sets.length, modes' a = modes a := by
      intro c h1
      rw [h1]
      obtain ⟨-, v1, v2⟩ := Store.append_any g (xs := [c]) hr.target
      obtain ⟨i1, i2, i3⟩ := ih { h with targets := (h.targets.append g r.target [c]).1 }
        { r with target := (h.targets.append g r.target [c]).2 } ⟨v1, hr.set, hr.full⟩
      exact ⟨fun q hq => i1 q ⟨(v2 _ hq.target).1, hq.set, hq.full⟩, i2, i3⟩
    cases a with
    | conflictNothing =>
      refine ⟨fun _ h => h, fun _ _ => rfl, fun r' h1 => ?_⟩
      cases h1
      exact ⟨⟨hr.target, .inl ⟨rfl, rfl⟩, fun a x h => by cases h⟩,
        fun modes => ⟨modes, (fun p a h => by cases h), fun _ _ => rfl⟩⟩
    | conflictUpdate set =>
      by_cases he : (h.targets.read r.target).isEmpty = true
      · exact stop _ (by simp only [InsRef.conflictLoop, if_pos he]; rfl)
      · have h1 : r.conflictLoop g h (.conflictUpdate set :: l) =
            ({ h with sets := (h.sets.alloc set.columns).1 },
              .ok ⟨{ r.base with action := .update set }, r.target,
                (h.sets.alloc set.columns).2⟩) := by
          simp only [InsRef.conflictLoop, if_neg he]
        rw [h1]
        obtain ⟨l1, l2, l3, l4, l5⟩ := Store.alloc_spec h.sets set.columns
        refine ⟨fun q hq => ⟨hq.target, (l5 _ hq.set).2.1, (l5 _ hq.set).2.2 hq.full⟩,
          fun s hs => (l5 s hs).1, fun r' h2 => ?_⟩
        cases h2
        refine ⟨⟨hr.target, l2, l3⟩, fun modes =>
          ⟨fun a => if a = h.sets.length then set.mode else modes a, ?_, fun a ha => ?_⟩⟩
        · intro p a h3 h4
          cases h3
          have h4 : (h.sets.alloc set.columns).2.arr = some a := h4
          rw [l4] at h4
          cases h4
          simp
        · exact if_neg (by omega)
    | val v =>
      cases v with
      | str s =>
        cases hc : toColumn (.val (.str s)) with
        | error p => exact stop p (by simp only [InsRef.conflictLoop, hc])
        | ok c => exact go c (by simp only [InsRef.conflictLoop, hc])
      | _ => exact stop _ rfl
    | selExpr e =>
      cases e with
      | column col =>
        cases hc : toColumn (.selExpr (.column col)) with
        | error p => exact stop p (by simp only [InsRef.conflictLoop, hc])
        | ok c => exact go c (by simp only [InsRef.conflictLoop, hc])
      | _ => exact stop _ rfl
    | _ => exact stop _ rfl

private theorem pure_action {c : InsCall} (hc : c.clause ≠ .onConflict) {s s' : InsertStmt}
    (h : c.apply s = .ok s') : s'.action = s.action := by
  rcases ins_pure hc (s := s) (t := s) (by cases s; rfl) with ⟨x, y, h1, -, -, -, h2, -⟩ | ⟨⟨p, h1⟩, -⟩
  · rw [h] at h1; cases h1; exact h2
  · rw [h] at h1; cases h1

/-- A call leaves the memory of other builders in order, and the new builder is in order. -/
private theorem ins_call_ok (g : Growth) {h : InsHeap} {r : InsRef} (hr : InsRefOk h r)
    (c : InsCall) :
    (∀ q, InsRefOk h q → InsRefOk (r.call g h c).1 q) ∧
    (∀ s, s.Valid h.sets → (r.call g h c).1.sets.read s = h.sets.read s) ∧
    ∀ r', (r.call g h c).2 = .ok r' → InsRefOk (r.call g h c).1 r' ∧
      ∀ modes, HasMode modes r → ∃ modes', HasMode modes' r' ∧
        ∀ a < h.sets.length, modes' a = modes a := by
  by_cases hc : c.clause = .onConflict
  · cases c <;> simp only [InsCall.clause, reduceCtorEq] at hc
    next args =>
    simp only [InsRef.call, InsRef.OnConflict]
    split
    · exact ⟨fun _ h => h, fun _ _ => rfl, fun _ h => by cases h⟩
    · split
      · exact ⟨fun _ h => h, fun _ _ => rfl, fun _ h => by cases h⟩
      · obtain ⟨h1, h2, h3⟩ := conflictLoop_ok g args h r hr
        exact ⟨h1, h2, fun r' hr' => ⟨(h3 r' hr').1, fun modes _ => (h3 r' hr').2 modes⟩⟩
  · rw [InsRef.call_pure hc]
    unfold InsRef.pure
    split
    · exact ⟨fun _ h => h, fun _ _ => rfl, fun _ h => by cases h⟩
    · next s hs =>
      refine ⟨fun _ h => h, fun _ _ => rfl, fun _ h1 => ?_⟩
      cases h1
      refine ⟨⟨hr.target, hr.set, hr.full⟩, fun modes hm => ⟨modes, ?_, fun _ _ => rfl⟩⟩
      intro p a h2 h3
      have h2 : s.action = .update p := h2
      rw [pure_action hc hs] at h2
      simp only [InsRef.stmt, InsHeap.action] at h2
      split at h2
      · next p' hp' =>
        cases h2
        exact hm p' a hp' h3
      · exact hm p a h2 h3

/-- All builders are in order, and arrays belong to one syntax. -/
private def InsWorldOk (w : InsWorld) : Prop :=
  (∀ r ∈ w.refs, InsRefOk w.heap r) ∧ ∃ modes, ∀ r ∈ w.refs, HasMode modes r

/-- Rendering a builder keeps everything in order, and changes statements only in the order of
columns. -/
private theorem ins_render {w : InsWorld} (hw : InsWorldOk w) {r : InsRef} (hr : r ∈ w.refs)
    (b : Bool) : InsWorldOk ⟨r.rendered w.heap b, w.refs⟩ ∧
      ∀ q ∈ w.refs, InsOrder (q.stmt (r.rendered w.heap b)) (q.stmt w.heap) := by
  obtain ⟨hok, modes, hm⟩ := hw
  have same : ∀ q : InsRef, InsOrder (q.stmt w.heap) (q.stmt w.heap) := by
    intro q
    refine ⟨rfl, ?_⟩
    cases (q.stmt w.heap).action <;> first | rfl | exact SetOrder.refl _
  unfold InsRef.rendered
  split
  · next p hp =>
    split
    · next hc =>
      simp only [Bool.and_eq_true, beq_iff_eq] at hc
      have hr' := hok r hr
      refine ⟨⟨fun q hq => ?_, modes, hm⟩, fun q hq => ?_⟩
      · have hq' := hok q hq
        have key := Store.sortInPlace_spec hr'.set q.set hq'.set
        exact ⟨hq'.target, key.1, key.2.1 hq'.full⟩
      · have hq' := hok q hq
        obtain ⟨-, -, k3, k4⟩ := Store.sortInPlace_spec hr'.set q.set hq'.set
        refine ⟨rfl, ?_⟩
        show ActionOrder (InsHeap.action _ q.set q.base.action) (InsHeap.action _ q.set q.base.action)
        cases hqa : q.base.action with
        | update p' =>
          show SetOrder { p' with columns := _ } { p' with columns := _ }
          by_cases ha : q.set.arr = r.set.arr
          · rcases hr'.set with ⟨h0, -⟩ | ⟨a, x, h1, h2, h3, -⟩
            · have h5 : w.heap.sets.sortInPlace r.set = w.heap.sets := by
                unfold Store.sortInPlace; rw [h0]
              simp only [h5]
              exact SetOrder.refl _
            · have hl : r.set.len ≤ q.set.len := by
                rw [hq'.full a x (ha.trans h1) h2]; exact h3
              refine ⟨rfl, k4 ha hl, fun hmode => ?_⟩
              have e1 := hm q hq p' a hqa (ha.trans h1)
              have e2 := hm r hr p a hp h1
              exact absurd (e1.trans (e2.symm.trans hc.2)) hmode
          · simp only [k3 ha]
            exact SetOrder.refl _
        | _ => rfl
    · exact ⟨⟨hok, modes, hm⟩, fun q _ => same q⟩
  · exact ⟨⟨hok, modes, hm⟩, fun q _ => same q⟩

private theorem ins_world_step (g : Growth) {w : InsWorld} (hw : InsWorldOk w)
    (op : Act Unit InsCall) : InsWorldOk (w.step g op) := by
  cases op with
  | new _ =>
    obtain ⟨hok, modes, hm⟩ := hw
    refine ⟨fun r hr => ?_, modes, fun r hr => ?_⟩ <;> rcases List.mem_append.1 hr with hr | hr
    · exact hok r hr
    · rw [List.mem_singleton] at hr
      subst hr
      exact ⟨.inl ⟨rfl, rfl⟩, .inl ⟨rfl, rfl⟩, fun a x h => by cases h⟩
    · exact hm r hr
    · rw [List.mem_singleton] at hr
      subst hr
      exact fun p a h => by cases h
  | render i b =>
    simp only [InsWorld.step]
    split
    · exact hw
    · next r hr => exact (ins_render hw (List.mem_of_getElem? hr) b).1
  | call i c =>
    obtain ⟨hok, modes, hm⟩ := hw
    simp only [InsWorld.step]
    split
    · exact ⟨hok, modes, hm⟩
    · next r hr =>
      have hr := List.mem_of_getElem? hr
      obtain ⟨h1, -, h3⟩ := ins_call_ok g (hok r hr) c
      split
      · next h' e he =>
        rw [he] at h1
        exact ⟨fun q hq => h1 q (hok q hq), modes, hm⟩
      · next h' r' he =>
        rw [he] at h1 h3
        obtain ⟨h4, h5⟩ := h3 r' rfl
        obtain ⟨modes', h6, h7⟩ := h5 modes (hm r hr)
        refine ⟨fun q hq => ?_, modes', fun q hq => ?_⟩ <;> rcases List.mem_append.1 hq with hq | hq
        · exact h1 q (hok q hq)
        · rw [List.mem_singleton] at hq
          subst hq
          exact h4
        · intro p a h8 h9
          rw [h7 a (Store.valid_lt (hok q hq).set h9)]
          exact hm q hq p a h8 h9
        · rw [List.mem_singleton] at hq
          subst hq
          exact h6

private theorem ins_world_run (g : Growth) (ops : List (Act Unit InsCall)) :
    InsWorldOk (InsWorld.run g ops) := by
  have : ∀ (ops : List (Act Unit InsCall)) (w : InsWorld), InsWorldOk w →
      InsWorldOk (ops.foldl (InsWorld.step g) w) := by
    intro ops
    induction ops with
    | nil => exact fun w h => h
    | cons op ops ih => exact fun w h => ih _ (ins_world_step g h op)
  exact this ops _ ⟨by simp, fun _ => .unknown, by simp⟩

/-- C45, INSERT, exactly. In every program, whatever was done before, a call changes a builder (not
the one it returns) if and only if it is a call of `OnConflict` on a builder without an action (or
with an empty DO UPDATE), the target columns of the two are in the same array, and one of the
columns given to the call comes to the place of another target column of the builder. The call has
this effect also if it panics in the end. -/
theorem C45_insert_exact (g : Growth) (ops : List (Act Unit InsCall)) (i k : Nat) (c : InsCall)
    (r q : InsRef) (hr : (InsWorld.run g ops).refs[i]? = some r)
    (hq : (InsWorld.run g ops).refs[k]? = some q) :
    (InsWorld.run g (ops ++ [.call i c])).stmts[k]? ≠ (InsWorld.run g ops).stmts[k]? ↔
      ∃ args, c = .onConflict args ∧
        (r.stmt (InsWorld.run g ops).heap).action.isEmpty = true ∧ r.target.arr = q.target.arr ∧
        ∃ j new old, (namedTargets args)[j]? = some new ∧
          (q.stmt (InsWorld.run g ops).heap).target[r.target.len + j]? = some old ∧ new ≠ old := by
  have hw := ins_world_run g ops
  have hrun : InsWorld.run g (ops ++ [.call i c]) = (InsWorld.run g ops).step g (.call i c) := by
    unfold InsWorld.run
    rw [List.foldl_append]
    rfl
  rw [hrun]
  generalize InsWorld.run g ops = w at *
  have hr' := hw.1 r (List.mem_of_getElem? hr)
  have hq' := hw.1 q (List.mem_of_getElem? hq)
  have hget : w.stmts[k]? = some (q.stmt w.heap) := by
    unfold InsWorld.stmts
    rw [List.getElem?_map, hq]
    rfl
  have hget' : (w.step g (.call i c)).stmts[k]? = some (q.stmt (r.call g w.heap c).1) := by
    simp only [InsWorld.step, hr]
    split
    · next h' e he =>
      unfold InsWorld.stmts
      simp only [List.getElem?_map, hq, he]
      rfl
    · next h' r' he =>
      unfold InsWorld.stmts
      simp only [List.getElem?_map, List.getElem?_append_left (List.getElem?_eq_some_iff.1 hq).1,
        hq, he]
      rfl
  rw [hget, hget']
  have hne : (some (q.stmt (r.call g w.heap c).1) ≠ some (q.stmt w.heap)) ↔
      (r.call g w.heap c).1.targets.read q.target ≠ w.heap.targets.read q.target := by
    obtain ⟨-, h2, -⟩ := ins_call_ok g hr' c
    have h3 := h2 q.set hq'.set
    have h4 : (r.call g w.heap c).1.action q.set q.base.action =
        w.heap.action q.set q.base.action := by
      unfold InsHeap.action
      split
      · rw [h3]
      · rfl
    unfold InsRef.stmt
    rw [h4]
    constructor
    · intro h5 h6; exact h5 (by rw [h6])
    · intro h5 h6
      simp only [Option.some.injEq, InsertStmt.mk.injEq] at h6
      exact h5 (by simp [h6])
  rw [hne]
  by_cases hc : c.clause = .onConflict
  · cases c <;> simp only [InsCall.clause, reduceCtorEq] at hc
    next args =>
    simp only [InsRef.call, InsRef.OnConflict, InsCall.onConflict.injEq, exists_eq_left']
    by_cases he : (r.stmt w.heap).action.isEmpty = true
    · rw [he]
      simp only [Bool.not_true, Bool.false_eq_true, if_false, true_and]
      split
      · next ha =>
        rw [List.isEmpty_iff.1 ha]
        simp [namedTargets]
      · obtain ⟨-, h2⟩ := conflictLoop_read g args w.heap r hr'.target q.target hq'.target
        show _ ↔ r.target.arr = q.target.arr ∧ ∃ j new old, _ ∧
          (w.heap.targets.read q.target)[r.target.len + j]? = some old ∧ _
        constructor
        · intro hn
          have : ∃ m : Nat, ((r.conflictLoop g w.heap args).1.targets.read q.target)[m]? ≠
              (w.heap.targets.read q.target)[m]? := by
            refine Classical.byContradiction fun hall => hn (List.ext_getElem? fun m => ?_)
            exact Classical.byContradiction fun h => hall ⟨m, h⟩
          obtain ⟨m, hm⟩ := this
          rw [h2 m] at hm
          split at hm
          · next hcond =>
            obtain ⟨c1, c2, c3, c4⟩ := hcond
            refine ⟨c1, m - r.target.len, ?_⟩
            have hlen : m < (w.heap.targets.read q.target).length := by
              rcases hq'.target with ⟨-, h0⟩ | ⟨a, x, ha, hx, hl, -⟩
              · omega
              · rw [Store.cells_length hx ha hl]; exact c3
            have hnew := List.getElem?_eq_getElem (l := namedTargets args)
              (i := m - r.target.len) (by omega)
            have hold := List.getElem?_eq_getElem hlen
            refine ⟨_, (w.heap.targets.read q.target)[m], hnew, ?_, fun h => hm ?_⟩
            · rw [show r.target.len + (m - r.target.len) = m by omega]; exact hold
            · rw [hnew, hold, h]
          · exact absurd rfl hm
        · rintro ⟨c1, j, new, old, h3, h4, h5⟩ hn
          have h6 := h2 (r.target.len + j)
          rw [hn, if_pos, h4, show r.target.len + j - r.target.len = j by omega, h3] at h6
          · cases h6; exact h5 rfl
          · have hj := (List.getElem?_eq_some_iff.1 h3).1
            have hm := (List.getElem?_eq_some_iff.1 h4).1
            refine ⟨c1, by omega, ?_, by omega⟩
            rcases hq'.target with ⟨ha, h0⟩ | ⟨a, x, ha, hx, hl, -⟩
            · rw [Store.read_none ha] at hm; simp at hm
            · rw [Store.cells_length hx ha hl] at hm; exact hm
    · simp [he]
  · rw [InsRef.call_pure hc]
    refine iff_of_false ?_ ?_
    · unfold InsRef.pure
      split <;> exact fun h => h rfl
    · rintro ⟨args, rfl, -⟩
      exact hc rfl

omit [GoRuntime] in
private theorem loop_result (g : Growth) (args : List Any) : ∀ (h : InsHeap) (r : InsRef),
    InsRefOk h r →
    match (r.stmt h).onConflictLoop args with
    | .error e => (r.conflictLoop g h args).2 = .error e
    | .ok s => ∃ r', (r.conflictLoop g h args).2 = .ok r' ∧ r'.stmt (r.conflictLoop g h args).1 = s := by
  induction args with
  | nil => exact fun h r _ => rfl
  | cons a l ih =>
    intro h r hr
    have go : ∀ c, r.conflictLoop g h (a :: l) =
          InsRef.conflictLoop g { h with targets := (h.targets.append g r.target [c]).1 }
            { r with target := (h.targets.append g r.target [c]).2 } l →
        (r.stmt h).onConflictLoop (a :: l) =
          InsertStmt.onConflictLoop { r.stmt h with target := (r.stmt h).target ++ [c] } l →
        match (r.stmt h).onConflictLoop (a :: l) with
        | .error e => (r.conflictLoop g h (a :: l)).2 = .error e
        | .ok s => ∃ r', (r.conflictLoop g h (a :: l)).2 = .ok r' ∧
            r'.stmt (r.conflictLoop g h (a :: l)).1 = s := by
      intro c h1 h2
      rw [h1, h2]
      obtain ⟨v0, v1, -⟩ := Store.append_any g (xs := [c]) hr.target
      have h3 := ih { h with targets := (h.targets.append g r.target [c]).1 }
        { r with target := (h.targets.append g r.target [c]).2 } ⟨v1, hr.set, hr.full⟩
      have h4 : InsRef.stmt { h with targets := (h.targets.append g r.target [c]).1 }
          { r with target := (h.targets.append g r.target [c]).2 } =
          { r.stmt h with target := (r.stmt h).target ++ [c] } :=
        congrArg (fun x => { r.stmt h with target := x }) v0
      rw [h4] at h3
      exact h3
    cases a with
    | conflictNothing => exact ⟨_, rfl, rfl⟩
    | conflictUpdate set =>
      by_cases he : (h.targets.read r.target).isEmpty = true
      · have he' : (r.stmt h).target.isEmpty = true := he
        simp only [InsRef.conflictLoop, InsertStmt.onConflictLoop, if_pos he, if_pos he']
        rfl
      · have he' : ¬ (r.stmt h).target.isEmpty = true := he
        simp only [InsRef.conflictLoop, InsertStmt.onConflictLoop, if_neg he, if_neg he']
        refine ⟨_, rfl, ?_⟩
        have h1 := (Store.alloc_any (st := h.sets) (xs := set.columns)).1
        have h2 : ConflictAction.update { set with
            columns := (h.sets.alloc set.columns).1.read (h.sets.alloc set.columns).2 } =
            .update set := by rw [h1]
        exact congrArg (fun x => { r.stmt h with action := x }) h2
    | val v =>
      cases v with
      | str s =>
        cases hc : toColumn (.val (.str s)) with
        | error p =>
          simp only [InsRef.conflictLoop, InsertStmt.onConflictLoop, hc]
        | ok c =>
          exact go c (by simp only [InsRef.conflictLoop, hc])
            (by simp only [InsertStmt.onConflictLoop, hc])
      | _ => exact rfl
    | selExpr e =>
      cases e with
      | column col =>
        cases hc : toColumn (.selExpr (.column col)) with
        | error p =>
          simp only [InsRef.conflictLoop, InsertStmt.onConflictLoop, hc]
        | ok c =>
          exact go c (by simp only [InsRef.conflictLoop, hc])
            (by simp only [InsertStmt.onConflictLoop, hc])
      | _ => exact rfl
    | _ => exact rfl

private theorem ins_result (g : Growth) {h : InsHeap} {r : InsRef} (hr : InsRefOk h r) (c : InsCall) :
    match c.apply (r.stmt h) with
    | .error e => (r.call g h c).2 = .error e
    | .ok s => ∃ r', (r.call g h c).2 = .ok r' ∧ r'.stmt (r.call g h c).1 = s := by
  by_cases hc : c.clause = .onConflict
  · cases c <;> simp only [InsCall.clause, reduceCtorEq] at hc
    next args =>
    simp only [InsRef.call, InsRef.OnConflict, InsCall.apply, InsertStmt.OnConflict]
    by_cases h1 : (!(r.stmt h).action.isEmpty) = true
    · rw [if_pos h1, if_pos h1]
      rfl
    · rw [if_neg h1, if_neg h1]
      by_cases h2 : args.isEmpty = true
      · rw [if_pos h2, if_pos h2]
        rfl
      · rw [if_neg h2, if_neg h2]
        exact loop_result g args h r hr
  · rw [InsRef.call_pure hc]
    unfold InsRef.pure
    cases ha : c.apply (r.stmt h) with
    | error e => rfl
    | ok s =>
      refine ⟨_, rfl, ?_⟩
      have h1 : s.action = (r.stmt h).action := pure_action hc ha
      have h2 : s.target = (r.stmt h).target := by
        rcases ins_pure hc (s := r.stmt h) (t := r.stmt h) rfl with
          ⟨x, y, h1, h2, h3, -⟩ | ⟨⟨p, h1⟩, -⟩
        · rw [ha] at h2; cases h2; exact h3
        · rw [ha] at h1; cases h1
      have h3 : h.action r.set s.action = s.action := by
        rw [h1]
        simp only [InsRef.stmt, InsHeap.action]
        cases r.base.action <;> rfl
      show { s with target := (r.stmt h).target, action := h.action r.set s.action } = s
      rw [h3, ← h2]

private theorem ins_others (g : Growth) {h : InsHeap} {r q : InsRef} (hr : InsRefOk h r)
    (hq : InsRefOk h q) (c : InsCall) : q.stmt (r.call g h c).1 = afterInsCall h r q c := by
  have h4 : (r.call g h c).1.action q.set q.base.action = h.action q.set q.base.action := by
    unfold InsHeap.action
    split
    · rw [(ins_call_ok g hr c).2.1 q.set hq.set]
    · rfl
  have key : ∀ ts, (r.call g h c).1.targets.read q.target = ts →
      q.stmt (r.call g h c).1 = { q.stmt h with target := ts } := by
    rintro ts rfl
    exact congrArg (fun x => { q.stmt h with
      target := (r.call g h c).1.targets.read q.target, action := x }) h4
  have same : (r.call g h c).1 = h → q.stmt (r.call g h c).1 = q.stmt h := fun e => by rw [e]
  by_cases hc : c.clause = .onConflict
  · cases c <;> simp only [InsCall.clause, reduceCtorEq] at hc
    next args =>
    unfold afterInsCall
    by_cases he : (r.stmt h).action.isEmpty = true
    · simp only [he, if_true]
      refine key _ ?_
      simp only [InsRef.call, InsRef.OnConflict, he, Bool.not_true, Bool.false_eq_true, if_false]
      split
      · next ha =>
        rw [List.isEmpty_iff.1 ha]
        simp only [namedTargets, sharedAfter, overwritten_nil, ite_self]
        rfl
      · refine List.ext_getElem? fun m => ?_
        rw [(conflictLoop_read g args h r hr.target q.target hq.target).2 m]
        show _ = (sharedAfter r.target q.target (h.targets.read q.target) (namedTargets args))[m]?
        unfold sharedAfter
        have hl := Store.read_length hq.target
        split
        · next hh => rw [if_pos hh.1, overwritten_get, if_pos (by omega)]
        · next hh =>
          split
          · next ha => rw [overwritten_get, if_neg (fun h3 => hh ⟨ha, by omega⟩)]
          · rfl
    · simp only [he]
      refine same ?_
      simp only [InsRef.call, InsRef.OnConflict, he]
      rfl
  · have h5 : afterInsCall h r q c = q.stmt h := by cases c <;> first | rfl | exact absurd rfl hc
    rw [h5]
    refine same ?_
    rw [InsRef.call_pure hc]
    unfold InsRef.pure
    split <;> rfl

private theorem ins_run_snoc (g : Growth) (ops : List (Act Unit InsCall)) (op : Act Unit InsCall) :
    InsWorld.run g (ops ++ [op]) = (InsWorld.run g ops).step g op := by
  unfold InsWorld.run
  rw [List.foldl_append]
  rfl

/-- C45, INSERT, exactly. In every program, whatever was done before, a call does this to all builders.
If it is a call of `OnConflict` on a builder without an action (or with an empty DO UPDATE), then a
builder whose target columns are in the same array and are more gets the new ones in the place of its
own, as far as it reaches. Nothing else changes. The builder that is returned, if the call does not
panic, is what the call makes of the statement that the builder was at that moment. -/
theorem C45_insert_call (g : Growth) (ops : List (Act Unit InsCall)) (i : Nat) (c : InsCall)
    (r : InsRef) (hr : (InsWorld.run g ops).refs[i]? = some r) :
    (InsWorld.run g (ops ++ [.call i c])).stmts =
      (InsWorld.run g ops).refs.map (fun q => afterInsCall (InsWorld.run g ops).heap r q c) ++
      (match c.apply (r.stmt (InsWorld.run g ops).heap) with
        | .ok s => [s]
        | .error _ => []) := by
  have hall := (ins_world_run g ops).1
  rw [ins_run_snoc]
  generalize InsWorld.run g ops = w at *
  have hok := hall r (List.mem_of_getElem? hr)
  have h1 := ins_result g hok c
  have h2 : w.refs.map (fun q => q.stmt (r.call g w.heap c).1) =
      w.refs.map (fun q => afterInsCall w.heap r q c) :=
    List.map_congr_left fun q hq => ins_others g hok (hall q hq) c
  simp only [InsWorld.step, hr, InsWorld.stmts]
  rcases hx : r.call g w.heap c with ⟨h', x⟩
  rw [hx] at h1 h2
  cases hy : c.apply (r.stmt w.heap) with
  | error e =>
    rw [hy] at h1
    have : x = .error e := h1
    subst this
    simpa using h2
  | ok s =>
    rw [hy] at h1
    obtain ⟨r', h3, h4⟩ := h1
    simp only at h3 h4
    subst h3
    simp only [List.map_append, List.map_cons, List.map_nil, h4]
    rw [← h2]

/-- C45, INSERT, exactly, for renderings: one that gets as far as the SET clause of DO UPDATE sorts the
columns of the builder where they are, and so those of all builders with the same action. Nothing else
changes. -/
theorem C45_insert_render (g : Growth) (ops : List (Act Unit InsCall)) (i : Nat)
    (r : InsRef) (hr : (InsWorld.run g ops).refs[i]? = some r) :
    (InsWorld.run g (ops ++ [.render i true])).stmts =
      (InsWorld.run g ops).refs.map (fun q => afterInsRender (InsWorld.run g ops).heap r q) ∧
    (InsWorld.run g (ops ++ [.render i false])).stmts = (InsWorld.run g ops).stmts := by
  have hall := (ins_world_run g ops).1
  rw [ins_run_snoc, ins_run_snoc]
  generalize InsWorld.run g ops = w at *
  have hok := hall r (List.mem_of_getElem? hr)
  simp only [InsWorld.step, hr, InsWorld.stmts]
  refine ⟨List.map_congr_left fun q hq => ?_, List.map_congr_left fun q hq => ?_⟩
  · have hq' := hall q hq
    unfold afterInsRender InsRef.rendered
    simp only [InsRef.stmt, InsHeap.action]
    cases hra : r.base.action with
    | update p =>
      cases hqa : q.base.action with
      | update p' =>
        have hread := Store.sortInPlace_read hok.set hq'.set
        have hp : (!p.isEmpty && p.mode == .associative) = true ↔
            p.mode = .associative ∧ (p.map ≠ [] ∨ p.expressions ≠ []) := by
          unfold PairContainer.isEmpty
          cases p.map <;> cases p.expressions <;> cases p.mode <;> simp
        simp only [Bool.true_and]
        by_cases hc : (!p.isEmpty && p.mode == .associative) = true
        · rw [if_pos hc]
          simp only [hread]
          by_cases ha : r.set.arr = q.set.arr
          · rw [if_pos ha, if_pos ⟨(hp.1 hc).1, (hp.1 hc).2, ha⟩]
          · rw [if_neg ha, if_neg (fun h => ha h.2.2)]
        · rw [if_neg hc, if_neg (fun h => hc (hp.2 ⟨h.1, h.2.1⟩))]
      | _ => simp only [Bool.true_and]; split <;> rfl
    | _ => rfl
  · have : r.rendered w.heap false = w.heap := by
      unfold InsRef.rendered
      split
      · simp
      · rfl
    rw [this]

/-- C47, INSERT, partial. In every program: after any sequence of renderings, of any builders and in
any number, every builder renders as before.
Missing: aliases that contradict names, for which the property is false as it is for UPDATE, see
`C47_insert_false`. -/
theorem C47_insert_partial (g : Growth) (ops rs : List (Act Unit InsCall)) (hr : OnlyRenders rs)
    (i : Nat) (s : InsertStmt) (hs : (InsWorld.run g ops).stmts[i]? = some s)
    (ha : Agree (actionColumns s.action)) :
    ∃ s', (InsWorld.run g (ops ++ rs)).stmts[i]? = some s' ∧ InsOrder s' s ∧
      SameRenderings (.insert s') (.insert s) := by
  have trans : ∀ {a b c : InsertStmt}, InsOrder a b → InsOrder b c → InsOrder a c := by
    rintro a b c ⟨h1, h2⟩ ⟨h3, h4⟩
    refine ⟨?_, ?_⟩
    · rw [h1, h3]
    · revert h2 h4
      cases a.action <;> cases b.action <;> cases c.action <;>
        simp only [ActionOrder, reduceCtorEq, false_implies, implies_true]
      exact fun h2 h4 => h2.trans h4
  have all : ∀ (rs : List (Act Unit InsCall)), OnlyRenders rs → ∀ w : InsWorld, InsWorldOk w →
      (rs.foldl (InsWorld.step g) w).refs = w.refs ∧
      ∀ q ∈ w.refs, InsOrder (q.stmt (rs.foldl (InsWorld.step g) w).heap) (q.stmt w.heap) := by
    intro rs
    induction rs with
    | nil =>
      intro _ w hw
      refine ⟨rfl, fun q _ => ⟨rfl, ?_⟩⟩
      show ActionOrder (q.stmt w.heap).action (q.stmt w.heap).action
      cases (q.stmt w.heap).action <;> first | rfl | exact SetOrder.refl _
    | cons op rs ih =>
      intro hr w hw
      obtain ⟨j, b, rfl⟩ := hr op List.mem_cons_self
      have hstep := ins_world_step g hw (.render j b)
      obtain ⟨h1, h2⟩ := ih (fun o ho => hr o (List.mem_cons_of_mem _ ho)) _ hstep
      rw [List.foldl_cons]
      have hrefs : (w.step g (.render j b)).refs = w.refs := by
        simp only [InsWorld.step]; split <;> rfl
      refine ⟨h1.trans hrefs, fun q hq => ?_⟩
      have h3 := h2 q (by rw [hrefs]; exact hq)
      refine trans h3 ?_
      simp only [InsWorld.step]
      split
      · refine ⟨rfl, ?_⟩
        cases (q.stmt w.heap).action <;> first | rfl | exact SetOrder.refl _
      · next r hr' => exact (ins_render hw (List.mem_of_getElem? hr') b).2 q hq
  have hw := ins_world_run g ops
  obtain ⟨h1, h2⟩ := all rs hr _ hw
  have hrun : InsWorld.run g (ops ++ rs) = rs.foldl (InsWorld.step g) (InsWorld.run g ops) := by
    unfold InsWorld.run
    rw [List.foldl_append]
  unfold InsWorld.stmts at hs
  rw [List.getElem?_map, Option.map_eq_some_iff] at hs
  obtain ⟨q, hq, rfl⟩ := hs
  have ho := h2 q (List.mem_of_getElem? hq)
  refine ⟨_, ?_, ho, ho.renderings ha⟩
  rw [hrun]
  unfold InsWorld.stmts
  rw [List.getElem?_map, h1, hq]
  rfl

end

/-! ## Programs that show the conditions, and programs for which the properties fail -/

section
attribute [local instance] Runtime.sample

/-- `Insert("t").Columns("a").Values(1).OnConflict("a", "b", "c", DoUpdate())`, and two conflict
clauses of which the first is made from that: `OnConflict("d", DoNothing())`. -/
private def insBefore : List (Act Unit InsCall) :=
  [.new (), .call 0 (.into (.val (.str s%"t"))), .call 1 (.columns [.val (.str s%"a")]),
    .call 2 (.values [.val (.int .int 1)]),
    .call 3 (.onConflict [.val (.str s%"a"), .val (.str s%"b"), .val (.str s%"c"),
      .conflictUpdate PairContainer.new]),
    .call 4 (.onConflict [.val (.str s%"d"), .conflictNothing])]

/-- C45 is false for INSERT: after a DO UPDATE without assignments, `OnConflict` may be called
again, and a second builder derived from the same one overwrites the fourth target of the first. -/
theorem C45_insert_false :
    ((InsWorld.run doubling insBefore).stmts[5]?).map (fun s => (Stmt.insert s).write.string) =
      some (.ok (s%"INSERT INTO \"t\" (\"a\") VALUES (1) " ++
        s%"ON CONFLICT (\"a\", \"b\", \"c\", \"d\") DO NOTHING")) ∧
    ((InsWorld.run doubling (insBefore ++ [.call 4 (.onConflict
        [.val (.str s%"e"), .conflictNothing])])).stmts[5]?).map
      (fun s => (Stmt.insert s).write.string) =
      some (.ok (s%"INSERT INTO \"t\" (\"a\") VALUES (1) " ++
        s%"ON CONFLICT (\"a\", \"b\", \"c\", \"e\") DO NOTHING")) := by
  decide +kernel

/-- The same with a call that panics, because it is given no action. -/
example : ((InsWorld.run doubling (insBefore ++ [.call 4 (.onConflict
        [.val (.str s%"e")])])).stmts[5]?).map (fun s => (Stmt.insert s).write.string) =
      some (.ok (s%"INSERT INTO \"t\" (\"a\") VALUES (1) " ++
        s%"ON CONFLICT (\"a\", \"b\", \"c\", \"e\") DO NOTHING")) := by
  decide +kernel

/-- The condition of `C45_insert_exact` is met in that program. -/
example : ∃ r q, (InsWorld.run doubling insBefore).refs[4]? = some r ∧
    (InsWorld.run doubling insBefore).refs[5]? = some q ∧ r.target.arr = q.target.arr ∧
    (namedTargets [.val (.str s%"e"), .conflictNothing])[0]? = some { name := s%"e" } ∧
    (q.stmt (InsWorld.run doubling insBefore).heap).target[r.target.len + 0]? =
      some { name := s%"d" } :=
  ⟨_, _, rfl, rfl, rfl, rfl, rfl⟩

/-- What `C45_insert_call` says of the two builders of that program. -/
example (r : InsRef) (hr : (InsWorld.run doubling insBefore).refs[4]? = some r) :
    (((InsWorld.run doubling insBefore).refs.map fun q =>
      afterInsCall (InsWorld.run doubling insBefore).heap r q (.onConflict
        [.val (.str s%"e"), .conflictNothing])).drop 4).map (fun s => s.target.map (·.name)) =
    [[s%"a", s%"b", s%"c"], [s%"a", s%"b", s%"c", s%"e"]] := by
  cases hr
  rfl

/-- A DO UPDATE of two columns whose aliases contradict their names. -/
private def insAliased : List (Act Unit InsCall) :=
  [.new (), .call 0 (.into (.val (.str s%"t"))), .call 1 (.columns [.val (.str s%"a")]),
    .call 2 (.values [.val (.int .int 1)]),
    .call 3 (.onConflict [.val (.str s%"a"), .conflictUpdate
      { mode := .associative,
        map := [({ name := s%"a", alias := s%"z" }, .value (.int .int 1)),
          ({ name := s%"b", alias := s%"y" }, .value (.int .int 2))],
        columns := [{ name := s%"a", alias := s%"z" }, { name := s%"b", alias := s%"y" }],
        expressions := [] }])]

/-- C47 is false for INSERT if aliases contradict names. -/
theorem C47_insert_false :
    ((InsWorld.run doubling insAliased).stmts[4]?).map (fun s => (Stmt.insert s).write.string) ≠
      ((InsWorld.run doubling (insAliased ++ [.render 4 true])).stmts[4]?).map
        (fun s => (Stmt.insert s).write.string) := by
  decide +kernel

/-- A program that meets the condition of `C47_insert_partial` for every builder: two builders share
the columns of a DO UPDATE, which a rendering sorts. -/
private def insShared : List (Act Unit InsCall) :=
  [.new (), .call 0 (.into (.val (.str s%"t"))), .call 1 (.columns [.val (.str s%"a")]),
    .call 2 (.values [.val (.int .int 1)]),
    .call 3 (.onConflict [.val (.str s%"a"), .conflictUpdate PairContainer.new]),
    .call 4 (.onConflict [.val (.str s%"b"), .conflictUpdate
      { mode := .associative,
        map := [({ name := s%"c" }, .value (.int .int 2)), ({ name := s%"b" }, .value (.int .int 3))],
        columns := [{ name := s%"c" }, { name := s%"b" }], expressions := [] }]),
    .call 5 (.returning [.val (.str s%"id")])]

example : ∀ s ∈ (InsWorld.run doubling insShared).stmts,
    ∀ c ∈ actionColumns s.action, c.alias = [] := by decide +kernel

example : ((InsWorld.run doubling (insShared ++ [.render 5 true])).stmts[6]?).map
      (fun s => (actionColumns s.action, (Stmt.insert s).write.string)) =
    some ([{ name := s%"b" }, { name := s%"c" }],
      .ok (s%"INSERT INTO \"t\" (\"a\") VALUES (1) ON CONFLICT (\"a\", \"b\") " ++
        s%"DO UPDATE SET \"b\" = 3, \"c\" = 2 RETURNING \"id\"")) := by decide +kernel

/-- What `C45_insert_render` says of that program. -/
example (r : InsRef) (hr : (InsWorld.run doubling insShared).refs[5]? = some r) :
    (((InsWorld.run doubling insShared).refs.map fun q =>
      afterInsRender (InsWorld.run doubling insShared).heap r q).drop 5).map
        (fun s => actionColumns s.action) =
    [[{ name := s%"b" }, { name := s%"c" }], [{ name := s%"b" }, { name := s%"c" }]] := by
  cases hr
  rfl

end

end Verif.Props
