import Verif.Lemmas.Columns

/-!
# SET clauses on shared memory
-/

namespace Verif

/-- The container in memory represents the given one, and can be extended. -/
structure Rep (r : Bool) (h : UpdHeap) (p : PairRef) (q : PairContainer) : Prop where
  mode : p.mode = q.mode
  map : h.maps[p.map]? = some q.map
  cols : Same (r && q.mode == .associative) (h.columns.read p.columns) q.columns
  exprs : h.exprs.read p.exprs = q.expressions
  cv : p.columns.Valid h.columns
  cf : p.columns.Full h.columns
  ev : p.exprs.Valid h.exprs
  ef : p.exprs.Full h.exprs
  known : p.columns.arr ≠ none → p.mode ≠ .unknown

/-- What extending a container does to the rest of memory. -/
structure PFrame (h h' : UpdHeap) (p p' : PairRef) : Prop where
  withs : h'.withs = h.withs
  cols : Ext h.columns h'.columns p.columns p'.columns
  exprs : Ext h.exprs h'.exprs p.exprs p'.exprs
  maps : ∀ i, i ≠ p.map → h'.maps[i]? = h.maps[i]?
  maplen : h'.maps.length = h.maps.length
  map : p'.map = p.map
  mode : p.mode ≠ .unknown → p'.mode = p.mode

theorem PFrame.trans {h h1 h2 : UpdHeap} {p p1 p2 : PairRef} (a : PFrame h h1 p p1)
    (b : PFrame h1 h2 p1 p2) : PFrame h h2 p p2 := by
  refine ⟨b.withs.trans a.withs, a.cols.trans b.cols, a.exprs.trans b.exprs, fun i hi => ?_,
    b.maplen.trans a.maplen, b.map.trans a.map, fun hm => ?_⟩
  · rw [b.maps i (by rw [a.map]; exact hi), a.maps i hi]
  · have := a.mode hm
    rw [b.mode (by rw [this]; exact hm), this]

theorem Rep.frame {r : Bool} {h : UpdHeap} {p : PairRef} {q : PairContainer} (hr : Rep r h p q) :
    PFrame h h p p :=
  ⟨rfl, Ext.refl hr.cv hr.cf, Ext.refl hr.ev hr.ef, fun _ _ => rfl, rfl, rfl, fun _ => rfl⟩

/-- Running on shared memory does what running on values does. -/
def Sim (r : Bool) (h : UpdHeap) (p : PairRef) (res : UpdHeap × Go PairRef) :
    Go PairContainer → Prop
  | .ok q => ∃ p', res.2 = .ok p' ∧ Rep r res.1 p' q ∧ PFrame h res.1 p p'
  | .error e => res.2 = .error e ∧ ∃ p', PFrame h res.1 p p'

section
variable {r : Bool} {h : UpdHeap} {p : PairRef} {q : PairContainer} (g : Growth)

theorem Rep.error (hr : Rep r h p q) (e : Panic) : Sim r h p (h, .error e) (.error e) :=
  ⟨rfl, p, hr.frame⟩

theorem Rep.ok (hr : Rep r h p q) : Sim r h p (h, .ok p) (.ok q) := ⟨p, rfl, hr, hr.frame⟩

theorem Rep.mapOf (hr : Rep r h p q) : h.mapOf p.map = q.map := by
  unfold UpdHeap.mapOf
  rw [hr.map]

theorem mode_same {m : PairMode} {l l' : List Column}
    (hs : Same (r && m == .associative) l l') (hm : m = .unknown ∨ m = .associative) :
    Same (r && PairMode.associative == .associative) l l' := by
  rcases hm with hm | hm
  · subst hm
    have : l = l' := by
      have h0 : (r && PairMode.unknown == PairMode.associative) = false := by cases r <;> rfl
      rw [h0] at hs; exact hs
    rw [this]; exact Same.refl _ _
  · subst hm; exact hs

theorem map_lt (hr : Rep r h p q) : p.map < h.maps.length :=
  (List.getElem?_eq_some_iff.1 hr.map).1

theorem sim_add (hr : Rep r h p q) (c : Column) (e : Expr) :
    Sim r h p (p.add g h c e) (q.add c e) := by
  unfold PairRef.add PairContainer.add
  simp only [hr.mode, hr.mapOf]
  by_cases hm : (if q.mode = .unknown then PairMode.associative else q.mode) ≠ .associative
  · rw [if_pos hm, if_pos hm]
    exact hr.error _
  · rw [if_neg hm, if_neg hm]
    have hm' : (if q.mode = .unknown then PairMode.associative else q.mode) = .associative := by
      simpa using hm
    have hcase : q.mode = .unknown ∨ q.mode = .associative := by
      by_cases h0 : q.mode = .unknown
      · exact .inl h0
      · rw [if_neg h0] at hm'; exact .inr hm'
    have hset : (h.maps.set p.map (mapAssign c e q.map))[p.map]? = some (mapAssign c e q.map) := by
      rw [List.getElem?_set_self (map_lt hr)]
    have hmode : p.mode ≠ .unknown → PairMode.associative = p.mode := by
      intro h0
      rcases hcase with h1 | h1
      · rw [hr.mode] at h0; exact absurd h1 h0
      · rw [hr.mode, h1]
    rw [hm']
    by_cases hl : (mapLookup c q.map).isSome = true
    · rw [if_pos hl, if_pos hl]
      exact ⟨_, rfl, ⟨rfl, hset, mode_same hr.cols hcase, hr.exprs, hr.cv, hr.cf, hr.ev, hr.ef,
        fun _ h0 => by cases h0⟩, ⟨rfl, Ext.refl hr.cv hr.cf, Ext.refl hr.ev hr.ef,
          fun i hi => List.getElem?_set_ne (Ne.symm hi), by simp, rfl, hmode⟩⟩
    · rw [if_neg hl, if_neg hl]
      have hx := Ext.append g [c] hr.cv hr.cf
      have hrd := (Store.append_spec g (xs := [c]) hr.cv hr.cf).1
      refine ⟨_, rfl, ⟨rfl, hset, ?_, hr.exprs, hx.valid, hx.full, hr.ev, hr.ef,
        fun _ h0 => by cases h0⟩, ⟨rfl, hx, Ext.refl hr.ev hr.ef,
          fun i hi => List.getElem?_set_ne (Ne.symm hi), by simp, rfl, hmode⟩⟩
      simp only [hrd]
      exact (mode_same hr.cols hcase).append _

theorem sim_set (hr : Rep r h p q) (c : Column) : Sim r h p (p.set g h c) (q.set c) := by
  unfold PairRef.set PairContainer.set
  simp only [hr.mode]
  by_cases hm : (if q.mode = .unknown then PairMode.array else q.mode) ≠ .array
  · rw [if_pos hm, if_pos hm]
    exact hr.error _
  · rw [if_neg hm, if_neg hm]
    have hm' : (if q.mode = .unknown then PairMode.array else q.mode) = .array := by
      simpa using hm
    have hcase : q.mode = .unknown ∨ q.mode = .array := by
      by_cases h0 : q.mode = .unknown
      · exact .inl h0
      · rw [if_neg h0] at hm'; exact .inr hm'
    have hmode : p.mode ≠ .unknown → PairMode.array = p.mode := by
      intro h0
      rcases hcase with h1 | h1
      · rw [hr.mode] at h0; exact absurd h1 h0
      · rw [hr.mode, h1]
    have hcols : h.columns.read p.columns = q.columns := by
      have h0 : (r && q.mode == PairMode.associative) = false := by
        rcases hcase with h1 | h1 <;> rw [h1] <;> cases r <;> rfl
      have := hr.cols
      rw [h0] at this; exact this
    rw [hm']
    have hx := Ext.append g [c] hr.cv hr.cf
    have hrd := (Store.append_spec g (xs := [c]) hr.cv hr.cf).1
    refine ⟨_, rfl, ⟨rfl, hr.map, ?_, hr.exprs, hx.valid, hx.full, hr.ev, hr.ef,
      fun _ h0 => by cases h0⟩, ⟨rfl, hx, Ext.refl hr.ev hr.ef,
        fun i hi => rfl, rfl, rfl, hmode⟩⟩
    simp only [hrd, hcols]
    exact Same.refl _ _

theorem sim_use (hr : Rep r h p q) (e : Expr) : Sim r h p (p.use g h e) (q.use e) := by
  unfold PairRef.use PairContainer.use
  by_cases hm : q.mode ≠ .array
  · rw [if_pos hm, if_pos (by rw [hr.mode]; exact hm)]
    exact hr.error _
  · rw [if_neg hm, if_neg (by rw [hr.mode]; exact hm)]
    have hx := Ext.append g [e] hr.ev hr.ef
    have hrd := (Store.append_spec g (xs := [e]) hr.ev hr.ef).1
    refine ⟨_, rfl, ⟨hr.mode, hr.map, hr.cols, ?_, hr.cv, hr.cf, hx.valid, hx.full,
      hr.known⟩, ⟨rfl, Ext.refl hr.cv hr.cf, hx,
        fun i hi => rfl, rfl, rfl, fun _ => rfl⟩⟩
    simp only [hrd, hr.exprs]

theorem sim_cons {α : Type} {body : UpdHeap → PairRef → α → UpdHeap × Go PairRef} {a : α}
    {l : List α} {now : Go PairContainer} {rest : PairContainer → Go PairContainer}
    (h1 : Sim r h p (body h p a) now)
    (h2 : ∀ h' p' q', Rep r h' p' q' → Sim r h' p' (loopH body h' p' l) (rest q')) :
    Sim r h p (loopH body h p (a :: l)) (match (generalizing := false) now with
      | .error e => .error e
      | .ok q' => rest q') := by
  rcases hb : body h p a with ⟨h', res⟩
  rw [hb] at h1
  cases now with
  | error e =>
    obtain ⟨he, p', hf⟩ := h1
    simp only at he hf
    subst he
    simp only [loopH, hb]
    exact ⟨rfl, p', hf⟩
  | ok q' =>
    obtain ⟨p', he, hr', hf⟩ := h1
    simp only at he hf hr'
    subst he
    simp only [loopH, hb]
    have := h2 h' p' q' hr'
    cases hq : rest q' with
    | error e =>
      rw [hq] at this
      obtain ⟨h3, p'', h4⟩ := this
      exact ⟨h3, p'', hf.trans h4⟩
    | ok q'' =>
      rw [hq] at this
      obtain ⟨p'', h3, h4, h5⟩ := this
      exact ⟨p'', h3, h4, hf.trans h5⟩

theorem sim_setColumns (cs : List Column) : ∀ {h : UpdHeap} {p : PairRef} {q : PairContainer},
    Rep r h p q → Sim r h p (loopH (PairRef.set g) h p cs) (setColumns q cs) := by
  induction cs with
  | nil => exact fun hr => hr.ok
  | cons c l ih =>
    intro h p q hr
    unfold setColumns
    exact sim_cons (sim_set g hr c) fun h' p' q' hr' => ih hr'

theorem sim_addPair (hr : Rep r h p q) (kv : Any × Any) :
    Sim r h p (p.addPair g h kv) (addPair q kv.1 kv.2) := by
  unfold PairRef.addPair addPair
  cases toColumn kv.1 with
  | error e => exact hr.error e
  | ok c =>
    simp only
    cases newWrapped kv.2 with
    | error e => exact hr.error e
    | ok x => exact sim_add g hr c x

theorem sim_addPairs (l : List (Any × Any)) : ∀ {h : UpdHeap} {p : PairRef} {q : PairContainer},
    Rep r h p q → Sim r h p (loopH (PairRef.addPair g) h p l) (addPairs q l) := by
  induction l with
  | nil => exact fun hr => hr.ok
  | cons kv l ih =>
    intro h p q hr
    obtain ⟨k, v⟩ := kv
    unfold addPairs
    exact sim_cons (sim_addPair g hr (k, v)) fun h' p' q' hr' => ih hr'

theorem sim_mergeArg (hr : Rep r h p q) (a : Any) :
    Sim r h p (p.mergeArg g h a) (mergeSetArg q a) := by
  cases a with
  | val v =>
    cases v with
    | str s =>
      simp only [PairRef.mergeArg, mergeSetArg]
      cases toColumns [.val (.str s)] with
      | error e => exact hr.error e
      | ok cs => exact sim_setColumns g cs hr
    | _ => exact hr.error _
  | selExpr x =>
    cases x with
    | column c =>
      simp only [PairRef.mergeArg, mergeSetArg]
      cases toColumns [.selExpr (.column c)] with
      | error e => exact hr.error e
      | ok cs => exact sim_setColumns g cs hr
    | _ => exact hr.error _
  | strMap b entries => exact sim_addPairs g _ hr
  | anyMap entries => exact sim_addPairs g _ hr
  | pair k v => exact sim_addPair g hr (k, v)
  | _ => exact hr.error _

theorem sim_mergeSet (l : List Any) : ∀ {h : UpdHeap} {p : PairRef} {q : PairContainer},
    Rep r h p q → Sim r h p (loopH (PairRef.mergeArg g) h p l) (mergeSet q l) := by
  induction l with
  | nil => exact fun hr => hr.ok
  | cons a l ih =>
    intro h p q hr
    unfold mergeSet
    exact sim_cons (sim_mergeArg g hr a) fun h' p' q' hr' => ih hr'

theorem sim_useArg (hr : Rep r h p q) (a : Any) :
    Sim r h p (p.useArg g h a) (match newExpression a with
      | .error e => .error e
      | .ok x => q.use x) := by
  unfold PairRef.useArg
  cases newExpression a with
  | error e => exact hr.error e
  | ok x => exact sim_use g hr x

theorem sim_useAll (l : List Any) : ∀ {h : UpdHeap} {p : PairRef} {q : PairContainer},
    Rep r h p q → Sim r h p (loopH (PairRef.useArg g) h p l) (UpdateStmt.useAll q l) := by
  induction l with
  | nil => exact fun hr => hr.ok
  | cons a l ih =>
    intro h p q hr
    have := sim_cons (sim_useArg g hr a) fun h' p' q' hr' => ih hr'
    unfold UpdateStmt.useAll
    cases hx : newExpression a with
    | error e => rw [hx] at this; exact this
    | ok x =>
      rw [hx] at this
      simp only at this ⊢
      cases hy : q.use x with
      | error e => rw [hy] at this; exact this
      | ok q' => rw [hy] at this; exact this

end

end Verif
