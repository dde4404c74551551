import Verif.Lemmas.ForkUpdate
import Verif.Props.Calls
import Verif.Props.Fork

/-!
# C45, UPDATE, exactly: what becomes of all builders
-/

namespace Verif.Props
open Spec

section
variable {g : Growth}

private structure PairOk (h : UpdHeap) (p : PairRef) : Prop where
  columns : p.columns.Valid h.columns
  exprs : p.exprs.Valid h.exprs
  map : p.map < h.maps.length

private structure RefOk (h : UpdHeap) (r : UpdRef) : Prop where
  withs : r.withs.Valid h.withs
  set : PairOk h r.set

/-- What the container of another builder is after the steps. -/
private def pairsAfter (h : UpdHeap) (own other : PairRef) (steps : List PairStep) : PairContainer :=
  { other.value h with
    map := if own.map = other.map then newMap (h.mapOf other.map) steps else h.mapOf other.map
    columns := sharedAfter own.columns other.columns (h.columns.read other.columns)
      (newColumns (h.mapOf own.map) steps)
    expressions := sharedAfter own.exprs other.exprs (h.exprs.read other.exprs)
      (newValues steps) }

private theorem outcome_other {h : UpdHeap} {p q : PairRef} (hp : PairOk h p) (hq : PairOk h q)
    (steps : List PairStep) : PairOk (outcome g h p steps).1 q ∧
      q.value (outcome g h p steps).1 = pairsAfter h p q steps := by
  obtain ⟨-, -, c3⟩ := Store.appendEach_spec g (newColumns (h.mapOf p.map) steps) _ _ hp.columns
  obtain ⟨-, -, e3⟩ := Store.appendEach_spec g (newValues steps) _ _ hp.exprs
  refine ⟨⟨(c3 _ hq.columns).1, (e3 _ hq.exprs).1, by simpa [outcome] using hq.map⟩, ?_⟩
  have hmap : UpdHeap.mapOf (outcome g h p steps).1 q.map =
      if p.map = q.map then newMap (h.mapOf q.map) steps else h.mapOf q.map := by
    unfold UpdHeap.mapOf
    simp only [outcome]
    by_cases hm : p.map = q.map
    · rw [if_pos hm, ← hm, List.getElem?_set_self hp.map]
      rfl
    · rw [if_neg hm, List.getElem?_set_ne hm]
  unfold PairRef.value
  rw [hmap, show (outcome g h p steps).1.columns.read q.columns = _ from (c3 _ hq.columns).2,
    show (outcome g h p steps).1.exprs.read q.exprs = _ from (e3 _ hq.exprs).2]
  rfl

private theorem outcome_own {h : UpdHeap} {p : PairRef} (hp : PairOk h p) (steps : List PairStep) :
    PairOk (outcome g h p steps).1 (outcome g h p steps).2 := by
  obtain ⟨c1, -, -⟩ := Store.appendEach_spec g (newColumns (h.mapOf p.map) steps) _ _ hp.columns
  obtain ⟨e1, -, -⟩ := Store.appendEach_spec g (newValues steps) _ _ hp.exprs
  exact ⟨c1, e1, by simpa [outcome] using hp.map⟩

/-- What `With` does to the memory of common table expressions. -/
private def withsAfter (g : Growth) (h : UpdHeap) (r : UpdRef) : UpdCall → Store WithQuery × Slice
  | .with qs =>
    if (h.withs.read r.withs).isEmpty then h.withs.alloc qs else h.withs.append g r.withs qs
  | _ => (h.withs, r.withs)

private theorem performed_values {m : PairMode} (hm : m ≠ .array) (l : List Any) :
    performed m (l.map valueStep) = [] := by
  cases l with
  | nil => rfl
  | cons a l =>
    rw [List.map_cons]
    unfold valueStep
    split
    · rfl
    · simp [performed, PairStep.fits, hm]

private theorem call_memory {h : UpdHeap} {r : UpdRef} (hr : RefOk h r) (c : UpdCall) :
    (r.call g h c).1 = { (outcome g h r.set (callSteps (r.stmt h) c)).1 with
      withs := (withsAfter g h r c).1 } ∧
    ∀ r', (r.call g h c).2 = .ok r' → r'.withs = (withsAfter g h r c).2 ∧
      r'.set = (outcome g h r.set (callSteps (r.stmt h) c)).2 := by
  have pure : ∀ m : UpdateStmt → Go UpdateStmt, (r.pure h m).1 = h ∧
      ∀ r', (r.pure h m).2 = .ok r' → r'.withs = r.withs ∧ r'.set = r.set := by
    intro m
    unfold UpdRef.pure
    split
    · exact ⟨rfl, fun _ h => by cases h⟩
    · exact ⟨rfl, fun _ h => by cases h; exact ⟨rfl, rfl⟩⟩
  have lift : ∀ {att : List (Option PairStep)} {x : UpdHeap × Go PairRef}, StepsTo g h r.set att x →
      ∀ {y : UpdHeap × Go UpdRef}, (y = match x with
        | (h', .error p) => (h', .error p)
        | (h', .ok p) => (h', .ok { r with set := p })) →
      y.1 = { (outcome g h r.set (performed r.set.mode att)).1 with withs := h.withs } ∧
      ∀ r', y.2 = .ok r' → r'.withs = r.withs ∧
        r'.set = (outcome g h r.set (performed r.set.mode att)).2 := by
    rintro att ⟨h', x⟩ hx y rfl
    obtain ⟨h1, h2⟩ := hx.outcome hr.set.map
    simp only at h1 h2
    have h3 : { (outcome g h r.set (performed r.set.mode att)).1 with withs := h.withs } = h' := by
      rw [h1]; rfl
    rw [h3]
    cases x with
    | error e => exact ⟨rfl, fun _ h => by cases h⟩
    | ok p => exact ⟨rfl, fun _ h => by cases h; exact ⟨rfl, h2 p rfl⟩⟩
  have hmode : (r.stmt h).set.mode = r.set.mode := rfl
  cases c with
  | set args =>
    simp only [callSteps, hmode, withsAfter]
    by_cases ha : args = []
    · subst ha
      simp only [UpdRef.call, UpdRef.Set]
      exact ⟨by simp [performed, outcome_nil], fun _ h => by cases h⟩
    · have := steps_loop (g := g) steps_mergeArg args h r.set
      refine lift this ?_
      simp only [UpdRef.call, UpdRef.Set]
      rw [if_neg (by simpa using ha)]
      rfl
  | «using» args =>
    simp only [callSteps, hmode, withsAfter]
    by_cases hm : r.set.mode = .array
    · by_cases ha : args = []
      · subst ha
        simp only [UpdRef.call, UpdRef.Using]
        rw [if_neg (by simpa using hm)]
        exact ⟨by simp [performed, outcome_nil], fun _ h => by cases h⟩
      · have := steps_loop (g := g) steps_useArg args h r.set
        rw [flatMap_single] at this
        refine lift this ?_
        simp only [UpdRef.call, UpdRef.Using]
        rw [if_neg (by simpa using hm), if_neg (by simpa using ha)]
        rfl
    · rw [performed_values hm, outcome_nil]
      simp only [UpdRef.call, UpdRef.Using]
      rw [if_pos hm]
      exact ⟨rfl, fun _ h => by cases h⟩
  | «with» qs =>
    simp only [callSteps, outcome_nil, UpdRef.call, UpdRef.With, withsAfter]
    exact ⟨trivial, fun _ h => by cases h; exact ⟨rfl, rfl⟩⟩
  | _ =>
    simp only [callSteps, outcome_nil, withsAfter]
    obtain ⟨h1, h2⟩ := pure _
    exact ⟨h1, h2⟩

/-! ### What the call returns -/

/-- Running on shared memory gives what running on the values of the moment gives. -/
private def SimV (res : UpdHeap × Go PairRef) : Go PairContainer → Prop
  | .ok q => ∃ p', res.2 = .ok p' ∧ PairOk res.1 p' ∧ p'.value res.1 = q
  | .error e => res.2 = .error e

private theorem simv_cons {α : Type} {body : UpdHeap → PairRef → α → UpdHeap × Go PairRef}
    {h : UpdHeap} {p : PairRef} {a : α} {l : List α} {now : Go PairContainer}
    {rest : PairContainer → Go PairContainer} (h1 : SimV (body h p a) now)
    (h2 : ∀ h' p', PairOk h' p' → SimV (loopH body h' p' l) (rest (p'.value h'))) :
    SimV (loopH body h p (a :: l)) (match (generalizing := false) now with
      | .error e => .error e
      | .ok q' => rest q') := by
  rcases hb : body h p a with ⟨h', res⟩
  rw [hb] at h1
  cases now with
  | error e =>
    have he : res = .error e := h1
    subst he
    simp only [loopH, hb]
    rfl
  | ok q' =>
    obtain ⟨p', he, hr', rfl⟩ := h1
    simp only at he hr'
    subst he
    simp only [loopH, hb]
    exact h2 h' p' hr'

private theorem simv_ok {h : UpdHeap} {p : PairRef} (hp : PairOk h p) :
    SimV (h, .ok p) (.ok (p.value h)) := ⟨p, rfl, hp, rfl⟩

private theorem simv_add {h : UpdHeap} {p : PairRef} (hp : PairOk h p) (c : Column) (e : Expr) :
    SimV (p.add g h c e) ((p.value h).add c e) := by
  unfold PairRef.add PairContainer.add
  have hmode : (p.value h).mode = p.mode := rfl
  have hmap : (p.value h).map = h.mapOf p.map := rfl
  simp only [hmode, hmap]
  by_cases hm : (if p.mode = .unknown then PairMode.associative else p.mode) ≠ .associative
  · rw [if_pos hm, if_pos hm]
    rfl
  · rw [if_neg hm, if_neg hm]
    have hset : ∀ st : Store Column, UpdHeap.mapOf { h with
        columns := st, maps := h.maps.set p.map (mapAssign c e (h.mapOf p.map)) } p.map =
        mapAssign c e (h.mapOf p.map) := by
      intro st
      simp [UpdHeap.mapOf, hp.map]
    by_cases hs : (mapLookup c (h.mapOf p.map)).isSome = true
    · simp only [hs, if_true]
      refine ⟨_, rfl, ⟨hp.columns, hp.exprs, by simpa using hp.map⟩, ?_⟩
      simp only [PairRef.value, hset]
    · simp only [hs, if_false, Bool.false_eq_true]
      obtain ⟨a1, a2, -⟩ := Store.append_any g (xs := [c]) hp.columns
      refine ⟨_, rfl, ⟨a2, hp.exprs, by simpa using hp.map⟩, ?_⟩
      simp only [PairRef.value, hset, a1]

private theorem simv_set {h : UpdHeap} {p : PairRef} (hp : PairOk h p) (c : Column) :
    SimV (p.set g h c) ((p.value h).set c) := by
  unfold PairRef.set PairContainer.set
  have hmode : (p.value h).mode = p.mode := rfl
  simp only [hmode]
  by_cases hm : (if p.mode = .unknown then PairMode.array else p.mode) ≠ .array
  · rw [if_pos hm, if_pos hm]
    rfl
  · rw [if_neg hm, if_neg hm]
    obtain ⟨a1, a2, -⟩ := Store.append_any g (xs := [c]) hp.columns
    refine ⟨_, rfl, ⟨a2, hp.exprs, hp.map⟩, ?_⟩
    simp only [PairRef.value, UpdHeap.mapOf, a1]

private theorem simv_use {h : UpdHeap} {p : PairRef} (hp : PairOk h p) (e : Expr) :
    SimV (p.use g h e) ((p.value h).use e) := by
  unfold PairRef.use PairContainer.use
  have hmode : (p.value h).mode = p.mode := rfl
  simp only [hmode]
  by_cases hm : p.mode ≠ .array
  · rw [if_pos hm, if_pos hm]
    rfl
  · rw [if_neg hm, if_neg hm]
    obtain ⟨a1, a2, -⟩ := Store.append_any g (xs := [e]) hp.exprs
    refine ⟨_, rfl, ⟨hp.columns, a2, hp.map⟩, ?_⟩
    simp only [PairRef.value, UpdHeap.mapOf, a1]

private theorem simv_addPair {h : UpdHeap} {p : PairRef} (hp : PairOk h p) (kv : Any × Any) :
    SimV (p.addPair g h kv) (addPair (p.value h) kv.1 kv.2) := by
  unfold PairRef.addPair addPair
  cases toColumn kv.1 with
  | error e => rfl
  | ok c =>
    simp only
    cases newWrapped kv.2 with
    | error e => rfl
    | ok x => exact simv_add hp c x

private theorem simv_addPairs (l : List (Any × Any)) : ∀ {h : UpdHeap} {p : PairRef},
    PairOk h p → SimV (loopH (PairRef.addPair g) h p l) (addPairs (p.value h) l) := by
  induction l with
  | nil => exact fun hp => simv_ok hp
  | cons kv l ih =>
    intro h p hp
    obtain ⟨k, v⟩ := kv
    unfold addPairs
    exact simv_cons (simv_addPair hp (k, v)) fun h' p' hp' => ih hp'

private theorem simv_setColumns (cs : List Column) : ∀ {h : UpdHeap} {p : PairRef},
    PairOk h p → SimV (loopH (PairRef.set g) h p cs) (setColumns (p.value h) cs) := by
  induction cs with
  | nil => exact fun hp => simv_ok hp
  | cons c l ih =>
    intro h p hp
    unfold setColumns
    exact simv_cons (simv_set hp c) fun h' p' hp' => ih hp'

private theorem simv_mergeArg {h : UpdHeap} {p : PairRef} (hp : PairOk h p) (a : Any) :
    SimV (p.mergeArg g h a) (mergeSetArg (p.value h) a) := by
  cases a with
  | val v =>
    cases v with
    | str s =>
      simp only [PairRef.mergeArg, mergeSetArg]
      cases toColumns [.val (.str s)] with
      | error e => rfl
      | ok cs => exact simv_setColumns cs hp
    | _ => rfl
  | selExpr x =>
    cases x with
    | column c =>
      simp only [PairRef.mergeArg, mergeSetArg]
      cases toColumns [.selExpr (.column c)] with
      | error e => rfl
      | ok cs => exact simv_setColumns cs hp
    | _ => rfl
  | strMap b entries => exact simv_addPairs _ hp
  | anyMap entries => exact simv_addPairs _ hp
  | pair k v => exact simv_addPair hp (k, v)
  | _ => rfl

private theorem simv_mergeSet (l : List Any) : ∀ {h : UpdHeap} {p : PairRef},
    PairOk h p → SimV (loopH (PairRef.mergeArg g) h p l) (mergeSet (p.value h) l) := by
  induction l with
  | nil => exact fun hp => simv_ok hp
  | cons a l ih =>
    intro h p hp
    unfold mergeSet
    exact simv_cons (simv_mergeArg hp a) fun h' p' hp' => ih hp'

private theorem simv_useArg {h : UpdHeap} {p : PairRef} (hp : PairOk h p) (a : Any) :
    SimV (p.useArg g h a) (match newExpression a with
      | .error e => .error e
      | .ok x => (p.value h).use x) := by
  unfold PairRef.useArg
  cases newExpression a with
  | error e => rfl
  | ok x => exact simv_use hp x

private theorem simv_useAll (l : List Any) : ∀ {h : UpdHeap} {p : PairRef},
    PairOk h p → SimV (loopH (PairRef.useArg g) h p l) (UpdateStmt.useAll (p.value h) l) := by
  induction l with
  | nil => exact fun hp => simv_ok hp
  | cons a l ih =>
    intro h p hp
    have := simv_cons (l := l) (rest := fun q => UpdateStmt.useAll q l)
      (simv_useArg (g := g) hp a) fun h' p' hp' => ih hp'
    unfold UpdateStmt.useAll
    cases hx : newExpression a with
    | error e => rw [hx] at this; exact this
    | ok x =>
      rw [hx] at this
      simp only at this ⊢
      cases hy : (p.value h).use x with
      | error e => rw [hy] at this; exact this
      | ok q' => rw [hy] at this; exact this

private theorem call_result {h : UpdHeap} {r : UpdRef} (hr : RefOk h r) (c : UpdCall) :
    match c.apply (r.stmt h) with
    | .ok s => ∃ r', (r.call g h c).2 = .ok r' ∧ RefOk (r.call g h c).1 r' ∧
        r'.stmt (r.call g h c).1 = s
    | .error e => (r.call g h c).2 = .error e := by
  have pure : ∀ m : UpdateStmt → Go UpdateStmt, (∀ s s', m s = .ok s' → s'.withs = s.withs ∧
      s'.set = s.set) → match m (r.stmt h) with
      | .ok s => ∃ r', (r.pure h m).2 = .ok r' ∧ RefOk (r.pure h m).1 r' ∧
          r'.stmt (r.pure h m).1 = s
      | .error e => (r.pure h m).2 = .error e := by
    intro m hm
    unfold UpdRef.pure
    cases hx : m (r.stmt h) with
    | error e => rfl
    | ok s =>
      obtain ⟨h1, h2⟩ := hm _ _ hx
      refine ⟨_, rfl, ⟨hr.withs, hr.set⟩, ?_⟩
      cases s
      simp only at h1 h2
      subst h1 h2
      rfl
  have frame : ∀ s s', c.apply s = .ok s' → .with ≠ c.clause → .set ≠ c.clause →
      s'.withs = s.withs ∧ s'.set = s.set := fun s s' hs h1 h2 =>
    ⟨C23_update_frame c s s' hs .with h1, C23_update_frame c s s' hs .set h2⟩
  cases c with
  | set args =>
    simp only [UpdCall.apply, UpdateStmt.Set, UpdRef.call, UpdRef.Set]
    by_cases ha : args.isEmpty = true
    · simp only [ha, if_true]
      rfl
    · simp only [ha, if_false, Bool.false_eq_true]
      have := simv_mergeSet (g := g) args hr.set
      have hv : (r.stmt h).set = r.set.value h := rfl
      rw [hv]
      have hw : (loopH (PairRef.mergeArg g) h r.set args).1.withs = h.withs := by
        rw [((steps_loop (g := g) steps_mergeArg args h r.set).outcome hr.set.map).1]
        rfl
      rcases hx : loopH (PairRef.mergeArg g) h r.set args with ⟨h', x⟩
      rw [hx] at this hw
      cases hy : mergeSet (r.set.value h) args with
      | error e =>
        rw [hy] at this
        have hxe : x = .error e := this
        subst hxe
        rfl
      | ok q =>
        rw [hy] at this
        obtain ⟨p', hxe, hp', rfl⟩ := this
        simp only at hxe hp' hw
        subst hxe
        refine ⟨_, rfl, ⟨by rw [hw]; exact hr.withs, hp'⟩, ?_⟩
        simp only [UpdRef.stmt, hw]
  | «using» args =>
    simp only [UpdCall.apply, UpdateStmt.Using, UpdRef.call, UpdRef.Using]
    have hv : (r.stmt h).set = r.set.value h := rfl
    have hmode : (r.set.value h).mode = r.set.mode := rfl
    rw [hv, hmode]
    by_cases hm : r.set.mode ≠ .array
    · rw [if_pos hm, if_pos hm]
      rfl
    · rw [if_neg hm, if_neg hm]
      by_cases ha : args.isEmpty = true
      · simp only [ha, if_true]
        rfl
      · simp only [ha, if_false, Bool.false_eq_true]
        have := simv_useAll (g := g) args hr.set
        have hw : (loopH (PairRef.useArg g) h r.set args).1.withs = h.withs := by
          have := steps_loop (g := g) steps_useArg args h r.set
          rw [(this.outcome hr.set.map).1]
          rfl
        rcases hx : loopH (PairRef.useArg g) h r.set args with ⟨h', x⟩
        rw [hx] at this hw
        cases hy : UpdateStmt.useAll (r.set.value h) args with
        | error e =>
          rw [hy] at this
          have hxe : x = .error e := this
          subst hxe
          rfl
        | ok q =>
          rw [hy] at this
          obtain ⟨p', hxe, hp', rfl⟩ := this
          simp only at hxe hp' hw
          subst hxe
          refine ⟨_, rfl, ⟨by rw [hw]; exact hr.withs, hp'⟩, ?_⟩
          simp only [UpdRef.stmt, hw]
  | «with» qs =>
    simp only [UpdCall.apply, UpdateStmt.With, UpdRef.call, UpdRef.With]
    have hv : (r.stmt h).withs = h.withs.read r.withs := rfl
    rw [hv]
    by_cases he : (h.withs.read r.withs).isEmpty = true
    · simp only [he, if_true]
      obtain ⟨a1, a2, -⟩ := Store.alloc_any (st := h.withs) (xs := qs)
      refine ⟨_, rfl, ⟨a2, ⟨hr.set.columns, hr.set.exprs, hr.set.map⟩⟩, ?_⟩
      simp only [UpdRef.stmt, a1]
      rfl
    · simp only [he, if_false, Bool.false_eq_true]
      obtain ⟨a1, a2, -⟩ := Store.append_any g (xs := qs) hr.withs
      refine ⟨_, rfl, ⟨a2, ⟨hr.set.columns, hr.set.exprs, hr.set.map⟩⟩, ?_⟩
      simp only [UpdRef.stmt, a1]
      rfl
  | _ =>
    refine pure _ fun s s' hs => frame s s' hs ?_ ?_ <;> simp [UpdCall.clause]

/-! ### Programs -/

private theorem call_others {h : UpdHeap} {r q : UpdRef} (hr : RefOk h r) (hq : RefOk h q)
    (c : UpdCall) : RefOk (r.call g h c).1 q ∧ q.stmt (r.call g h c).1 = afterCall h r q c := by
  obtain ⟨h1, -⟩ := call_memory (g := g) hr c
  obtain ⟨s1, s2⟩ := outcome_other (g := g) hr.set hq.set (callSteps (r.stmt h) c)
  have hw : q.withs.Valid (withsAfter g h r c).1 ∧ (withsAfter g h r c).1.read q.withs =
      (afterCall h r q c).withs := by
    unfold withsAfter afterCall
    cases c with
    | «with» qs =>
      simp only
      have hv : (r.stmt h).withs = h.withs.read r.withs := rfl
      rw [hv]
      by_cases he : (h.withs.read r.withs).isEmpty = true
      · obtain ⟨-, -, a3⟩ := Store.alloc_any (st := h.withs) (xs := qs)
        rw [if_pos he, if_neg (by simp [List.isEmpty_iff.1 he])]
        exact a3 _ hq.withs
      · obtain ⟨-, -, a3⟩ := Store.append_any g (xs := qs) hr.withs
        rw [if_neg he]
        refine ⟨(a3 _ hq.withs).1, ?_⟩
        rw [Store.append_read g hr.withs hq.withs]
        have : h.withs.read r.withs ≠ [] := by simpa using he
        simp only [this, ne_eq, not_false_eq_true, true_and]
        rfl
    | _ => exact ⟨hq.withs, rfl⟩
  rw [h1]
  refine ⟨⟨hw.1, ⟨s1.columns, s1.exprs, s1.map⟩⟩, ?_⟩
  have hset : q.set.value { (outcome g h r.set (callSteps (r.stmt h) c)).1 with
      withs := (withsAfter g h r c).1 } = (afterCall h r q c).set := s2
  have key : ∀ H : UpdHeap, H.withs.read q.withs = (afterCall h r q c).withs →
      q.set.value H = (afterCall h r q c).set → q.stmt H = afterCall h r q c := by
    intro H e1 e2
    have : q.stmt H = { q.base with withs := H.withs.read q.withs, set := q.set.value H } := rfl
    rw [this, e1, e2]
    rfl
  exact key _ hw.2 hset

private theorem rendered_others [GoRuntime] {h : UpdHeap} {r q : UpdRef} (hr : RefOk h r)
    (hq : RefOk h q) (b : Bool) : RefOk (r.rendered h b) q ∧
      q.stmt (r.rendered h b) = if b then afterRender h r q else q.stmt h := by
  unfold UpdRef.rendered
  cases b with
  | false => exact ⟨hq, rfl⟩
  | true =>
    have hc : ((true && !(r.set.value h).isEmpty && r.set.mode == .associative) = true) ↔
        (r.stmt h).set.mode = .associative ∧
          ((r.stmt h).set.map ≠ [] ∨ (r.stmt h).set.expressions ≠ []) := by
      have e1 : (r.stmt h).set = r.set.value h := rfl
      have e2 : (r.set.value h).mode = r.set.mode := rfl
      rw [e1, e2]
      unfold PairContainer.isEmpty
      rw [e2]
      cases r.set.mode <;> simp [← Classical.not_and_iff_not_or_not]
    by_cases hb : (true && !(r.set.value h).isEmpty && r.set.mode == .associative) = true
    · rw [if_pos hb, if_pos rfl]
      refine ⟨⟨hq.withs, ⟨(Store.sortInPlace_spec hr.set.columns _ hq.set.columns).1, hq.set.exprs,
        hq.set.map⟩⟩, ?_⟩
      obtain ⟨c1, c2⟩ := hc.1 hb
      unfold afterRender
      simp only [c1, c2, true_and]
      unfold UpdRef.stmt PairRef.value
      simp only [Store.sortInPlace_read hr.set.columns hq.set.columns]
      split <;> rfl
    · rw [if_neg hb, if_pos rfl]
      refine ⟨hq, ?_⟩
      unfold afterRender
      rw [if_neg]
      rintro ⟨c1, c2, -⟩
      exact hb (hc.2 ⟨c1, c2⟩)

private theorem step_ok [GoRuntime] (w : UpdWorld) (hw : ∀ r ∈ w.refs, RefOk w.heap r)
    (op : Act Table UpdCall) : ∀ r ∈ (w.step g op).refs, RefOk (w.step g op).heap r := by
  cases op with
  | new t =>
    intro r hr
    rcases List.mem_append.1 hr with hr | hr
    · obtain ⟨h1, h2, h3, h4⟩ := hw r hr
      exact ⟨h1, ⟨h2, h3, by simp [UpdWorld.step, UpdRef.new, PairRef.new]; omega⟩⟩
    · rw [List.mem_singleton] at hr
      subst hr
      exact ⟨.inl ⟨rfl, rfl⟩, ⟨.inl ⟨rfl, rfl⟩, .inl ⟨rfl, rfl⟩,
        by simp [UpdWorld.step, UpdRef.new, PairRef.new]⟩⟩
  | render i b =>
    simp only [UpdWorld.step]
    split
    · exact hw
    · next r hr =>
      intro q hq
      exact (rendered_others (hw r (List.mem_of_getElem? hr)) (hw q hq) b).1
  | call i c =>
    simp only [UpdWorld.step]
    split
    · exact hw
    · next r hr =>
      have hok := hw r (List.mem_of_getElem? hr)
      have h1 := call_result (g := g) hok c
      have h2 := fun q hq => (call_others (g := g) hok (hw q hq) c).1
      split
      · next h' e hx => rw [hx] at h2; exact h2
      · next h' r' hx =>
        rw [hx] at h1 h2
        intro q hq
        rcases List.mem_append.1 hq with hq | hq
        · exact h2 q hq
        · rw [List.mem_singleton] at hq
          subst hq
          split at h1
          · obtain ⟨r'', h3, h4, -⟩ := h1
            cases h3
            exact h4
          · cases h1

private theorem run_ok [GoRuntime] (ops : List (Act Table UpdCall)) :
    ∀ w : UpdWorld, (∀ r ∈ w.refs, RefOk w.heap r) →
      ∀ r ∈ (ops.foldl (UpdWorld.step g) w).refs, RefOk (ops.foldl (UpdWorld.step g) w).heap r := by
  induction ops with
  | nil => exact fun w h => h
  | cons op ops ih => exact fun w h => ih _ (step_ok w h op)

private theorem run_snoc [GoRuntime] (ops : List (Act Table UpdCall)) (op : Act Table UpdCall) :
    UpdWorld.run g (ops ++ [op]) = (UpdWorld.run g ops).step g op := by
  unfold UpdWorld.run
  rw [List.foldl_append]
  rfl

end

/-- C45, UPDATE, exactly. In every program, whatever was done before, a call does this to all
builders. A builder that has the same map of values as the one the call is made on gets the values
the call assigns. A builder whose columns (values, common table expressions) are in the same array
and are more than those of the other gets the new ones in the place of its own, as far as it
reaches. Nothing else changes. The builder that is returned, if the call does not panic, is what the
call makes of the statement that the builder was at that moment. -/
theorem C45_update_call [GoRuntime] (g : Growth) (ops : List (Act Table UpdCall)) (i : Nat)
    (c : UpdCall) (r : UpdRef) (hr : (UpdWorld.run g ops).refs[i]? = some r) :
    (UpdWorld.run g (ops ++ [.call i c])).stmts =
      (UpdWorld.run g ops).refs.map (fun q => afterCall (UpdWorld.run g ops).heap r q c) ++
      (match c.apply (r.stmt (UpdWorld.run g ops).heap) with
        | .ok s => [s]
        | .error _ => []) := by
  have hall := run_ok (g := g) ops ⟨⟨[], [], [], []⟩, []⟩ (by simp)
  rw [show ops.foldl (UpdWorld.step g) ⟨⟨[], [], [], []⟩, []⟩ = UpdWorld.run g ops from rfl] at hall
  rw [run_snoc]
  generalize UpdWorld.run g ops = w at *
  have hok := hall r (List.mem_of_getElem? hr)
  have h1 := call_result (g := g) hok c
  have h2 : w.refs.map (fun q => q.stmt (r.call g w.heap c).1) =
      w.refs.map (fun q => afterCall w.heap r q c) :=
    List.map_congr_left fun q hq => (call_others (g := g) hok (hall q hq) c).2
  simp only [UpdWorld.step, hr, UpdWorld.stmts]
  rcases hx : r.call g w.heap c with ⟨h', x⟩
  rw [hx] at h1 h2
  cases hy : c.apply (r.stmt w.heap) with
  | error e =>
    rw [hy] at h1
    have : x = .error e := h1
    subst this
    simpa using h2
  | ok s =>
    rw [hy] at h1
    obtain ⟨r', h3, -, h4⟩ := h1
    simp only at h3 h4
    subst h3
    simp only [List.map_append, List.map_cons, List.map_nil, h4]
    rw [← h2]

/-- C45, UPDATE, exactly, for renderings: one that gets as far as the SET clause sorts the columns of
the builder where they are, and so exchanges those of all builders in the same array. Nothing else
changes. -/
theorem C45_update_render [GoRuntime] (g : Growth) (ops : List (Act Table UpdCall)) (i : Nat)
    (r : UpdRef) (hr : (UpdWorld.run g ops).refs[i]? = some r) :
    (UpdWorld.run g (ops ++ [.render i true])).stmts =
      (UpdWorld.run g ops).refs.map (fun q => afterRender (UpdWorld.run g ops).heap r q) ∧
    (UpdWorld.run g (ops ++ [.render i false])).stmts = (UpdWorld.run g ops).stmts := by
  have hall := run_ok (g := g) ops ⟨⟨[], [], [], []⟩, []⟩ (by simp)
  rw [show ops.foldl (UpdWorld.step g) ⟨⟨[], [], [], []⟩, []⟩ = UpdWorld.run g ops from rfl] at hall
  rw [run_snoc, run_snoc]
  generalize UpdWorld.run g ops = w at *
  have hok := hall r (List.mem_of_getElem? hr)
  simp only [UpdWorld.step, hr, UpdWorld.stmts]
  exact ⟨List.map_congr_left fun q hq => (rendered_others hok (hall q hq) true).2,
    List.map_congr_left fun q hq => (rendered_others hok (hall q hq) false).2⟩

section
attribute [local instance] Runtime.sample

private def assign (name : Str) (value : Int) : UpdCall :=
  .set [.pair (.val (.str name)) (.val (.int .int value))]

/-- An UPDATE with three assignments, and one with a fourth made from it. -/
private def four : List (Act Table UpdCall) :=
  [.new { name := s%"t" }, .call 0 (assign s%"c" 1), .call 1 (assign s%"d" 2),
    .call 2 (assign s%"e" 3), .call 3 (assign s%"a" 4)]

private def texts (ss : List UpdateStmt) : List (Go Str) :=
  ss.map fun s => (Stmt.update s).write.string

/-- Another assignment made from the third takes the place of the fourth column, and `c` has its new
value in all of them. -/
example (r : UpdRef) (hr : (UpdWorld.run doubling four).refs[3]? = some r) :
    texts (((UpdWorld.run doubling four).refs.map fun q => afterCall (UpdWorld.run doubling four).heap
      r q (.set [.pair (.val (.str s%"b")) (.val (.int .int 5)),
        .pair (.val (.str s%"c")) (.val (.int .int 6))])).drop 1) =
    [.ok s%"UPDATE \"t\" SET \"c\" = 6",
      .ok s%"UPDATE \"t\" SET \"c\" = 6, \"d\" = 2",
      .ok s%"UPDATE \"t\" SET \"c\" = 6, \"d\" = 2, \"e\" = 3",
      .ok s%"UPDATE \"t\" SET \"b\" = 5, \"c\" = 6, \"d\" = 2, \"e\" = 3"] := by
  cases hr
  decide +kernel

/-- The same by running the program. -/
example : (texts (UpdWorld.run doubling (four ++ [.call 3 (.set [
      .pair (.val (.str s%"b")) (.val (.int .int 5)),
      .pair (.val (.str s%"c")) (.val (.int .int 6))])])).stmts).drop 4 =
    [.ok s%"UPDATE \"t\" SET \"b\" = 5, \"c\" = 6, \"d\" = 2, \"e\" = 3",
      .ok s%"UPDATE \"t\" SET \"b\" = 5, \"c\" = 6, \"d\" = 2, \"e\" = 3"] := by
  decide +kernel

/-- A call that panics half way: the first assignment has been made, the list of columns is
refused. -/
example : (texts (UpdWorld.run doubling [.new { name := s%"t" }, .call 0 (assign s%"a" 1),
      .call 1 (.set [.pair (.val (.str s%"a")) (.val (.int .int 2)), .val (.str s%"b")])]).stmts).drop 1 =
    [.ok s%"UPDATE \"t\" SET \"a\" = 2"] := by
  decide +kernel

/-- Rendering the fourth one exchanges the columns of the third. -/
example (r : UpdRef) (hr : (UpdWorld.run doubling four).refs[4]? = some r) :
    texts (((UpdWorld.run doubling four).refs.map
      (afterRender (UpdWorld.run doubling four).heap r)).drop 3) =
    [.ok s%"UPDATE \"t\" SET \"a\" = 4, \"c\" = 1, \"d\" = 2",
      .ok s%"UPDATE \"t\" SET \"a\" = 4, \"c\" = 1, \"d\" = 2, \"e\" = 3"] := by
  cases hr
  decide +kernel

end

end Verif.Props
