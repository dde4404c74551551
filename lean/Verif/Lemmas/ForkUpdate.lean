import Verif.Lemmas.ForkInsert
import Verif.Lemmas.HeapRender
import Verif.Spec.ForkUpdate

/-!
# What `append` and sorting do to slices of the same array, element by element
-/

namespace Verif
open Spec

variable {α : Type}

theorem overwritten_get (old xs : List α) (pos m : Nat) :
    (overwritten old pos xs)[m]? =
      if pos ≤ m ∧ m < old.length ∧ m < pos + xs.length then xs[m - pos]? else old[m]? := by
  unfold overwritten
  by_cases hp : pos ≤ old.length
  · have h1 : (old.take pos).length = pos := by rw [List.length_take]; omega
    by_cases hm : m < pos
    · rw [List.append_assoc, List.getElem?_append_left (by omega), List.getElem?_take, if_pos hm,
        if_neg (by omega)]
    · by_cases hx : m < pos + min (old.length - pos) xs.length
      · rw [List.getElem?_append_left (by
          rw [List.length_append, h1, List.length_take]; exact hx),
          List.getElem?_append_right (by omega), h1, List.getElem?_take, if_pos (by omega),
          if_pos (by omega)]
      · rw [List.getElem?_append_right (by
          rw [List.length_append, h1, List.length_take]; omega),
          List.length_append, h1, List.length_take, List.getElem?_drop, if_neg (by omega)]
        by_cases hl : xs.length ≤ old.length - pos
        · congr 1; omega
        · rw [List.getElem?_eq_none (by omega), List.getElem?_eq_none (by omega)]
  · rw [if_neg (by omega), List.take_of_length_le (by omega), show old.length - pos = 0 by omega,
      List.drop_of_length_le (by omega)]
    simp

theorem overwritten_nil (old : List α) (pos : Nat) : overwritten old pos [] = old := by
  simp [overwritten]

namespace Store

theorem read_length {st : Store α} {s : Slice} (h : s.Valid st) : (st.read s).length = s.len := by
  rcases h with ⟨ha, hl⟩ | ⟨a, x, ha, hx, h1, _⟩
  · rw [read_none ha, hl]; rfl
  · rw [read_some ha hx, List.length_take]; omega

/-- Elements appended one at a time. -/
def appendEach (g : Growth) (st : Store α) (s : Slice) : List α → Store α × Slice
  | [] => (st, s)
  | x :: l => appendEach g (st.append g s [x]).1 (st.append g s [x]).2 l

theorem appendEach_spec (g : Growth) (xs : List α) : ∀ (st : Store α) (s : Slice), s.Valid st →
    (appendEach g st s xs).2.Valid (appendEach g st s xs).1 ∧
    (appendEach g st s xs).1.read (appendEach g st s xs).2 = st.read s ++ xs ∧
    ∀ t : Slice, t.Valid st → t.Valid (appendEach g st s xs).1 ∧
      (appendEach g st s xs).1.read t = sharedAfter s t (st.read t) xs := by
  induction xs with
  | nil =>
    intro st s hv
    refine ⟨hv, by simp [appendEach], fun t ht => ⟨ht, ?_⟩⟩
    unfold sharedAfter
    rw [overwritten_nil]
    simp [appendEach]
  | cons x l ih =>
    intro st s hv
    obtain ⟨v0, v1, v2⟩ := append_any g (xs := [x]) hv
    obtain ⟨i1, i2, i3⟩ := ih _ _ v1
    refine ⟨i1, by rw [appendEach, i2, v0]; simp, fun t ht => ⟨(i3 t (v2 t ht).1).1, ?_⟩⟩
    obtain ⟨a1, a2, a3⟩ := append_one g (x := x) hv ht
    rw [appendEach, (i3 t (v2 t ht).1).2]
    have hlen := read_length ht
    have hlen' := read_length (v2 t ht).1
    apply List.ext_getElem?
    intro m
    have e1 : ∀ (u : Slice) (l' : List α) (ys : List α), (sharedAfter u t l' ys)[m]? =
        if u.arr = t.arr ∧ u.len ≤ m ∧ m < l'.length ∧ m < u.len + ys.length then ys[m - u.len]?
        else l'[m]? := by
      intro u l' ys
      unfold sharedAfter
      split
      · next h => simp only [overwritten_get, h, true_and]
      · next h => simp only [h, false_and, if_false]
    rw [e1, e1, hlen, hlen', a1, a2]
    simp only [List.length_cons]
    rcases a3 with a3 | ⟨a3, a4⟩
    · rw [a3]
      by_cases hs : s.arr = t.arr
      · simp only [hs, true_and]
        by_cases hm : m = s.len
        · subst hm
          rw [if_neg (by omega)]
          by_cases ht : s.len < t.len
          · rw [if_pos ⟨rfl, ht⟩, if_pos (by omega)]; simp
          · rw [if_neg (by omega), if_neg (by omega)]
        · rw [if_neg (c := m = s.len ∧ m < t.len) (by omega)]
          by_cases hc : s.len + 1 ≤ m ∧ m < t.len ∧ m < s.len + 1 + l.length
          · rw [if_pos hc, if_pos (by omega)]
            obtain ⟨d, rfl⟩ : ∃ d, m = s.len + 1 + d := ⟨m - (s.len + 1), by omega⟩
            rw [show s.len + 1 + d - (s.len + 1) = d by omega,
              show s.len + 1 + d - s.len = d + 1 by omega]
            rfl
          · rw [if_neg hc, if_neg (by omega)]
      · simp only [hs, false_and, if_false]
    · simp only [a3, false_and, if_false]
      rw [if_neg, if_neg]
      · rintro ⟨h5, h6, h7, -⟩
        have := a4 h5
        omega
      · rintro ⟨h5, h6, h7⟩
        have := a4 h5
        omega

/-- `append` of several elements at once. -/
theorem append_read (g : Growth) {st : Store α} {s : Slice} {xs : List α} (hv : s.Valid st)
    {t : Slice} (ht : t.Valid st) :
    (st.append g s xs).1.read t =
      if s.len + xs.length ≤ st.cap s then sharedAfter s t (st.read t) xs else st.read t := by
  by_cases hx : xs = []
  · subst hx
    rw [append_nil]
    unfold sharedAfter
    rw [overwritten_nil]
    simp
  have hxe : xs.isEmpty = false := by cases xs with
    | nil => exact absurd rfl hx
    | cons => rfl
  rcases hv with ⟨ha, hl⟩ | ⟨a, y, ha, hay, h1, h2⟩
  · have he : st.append g s xs =
        (st ++ [⟨xs, g.cap st.length 0 xs.length⟩], ⟨some st.length, xs.length⟩) := by
      unfold append
      rw [hxe, ha]
      rfl
    have hcap : st.cap s = 0 := by unfold cap; rw [ha]
    have : xs.length ≠ 0 := by simpa using hx
    rw [he, (snoc_other ht).1, hcap, if_neg (by omega)]
  · by_cases hc : s.len + xs.length ≤ st.cap s
    · have he : st.append g s xs = (st.write a s.len xs, ⟨some a, s.len + xs.length⟩) := by
        unfold append
        rw [hxe, ha]
        simp only [if_pos hc]
        rfl
      rw [he, if_pos hc]
      unfold sharedAfter
      rcases ht with ⟨hta, htl⟩ | ⟨b, z, hta, hz, h3, h4⟩
      · rw [if_neg (by rw [ha, hta]; simp), read_none hta, read_none hta]
      · by_cases hab : a = b
        · subst hab
          rw [hay] at hz; cases hz
          have hw : (st.write a s.len xs)[a]? = some { y with
              cells := y.cells.take s.len ++ xs ++ y.cells.drop (s.len + xs.length) } := by
            rw [get_write hay, if_pos rfl]
          rw [if_pos (by rw [ha, hta]), read_some hta hw, read_some hta hay]
          have hlt : (y.cells.take s.len).length = s.len := by rw [List.length_take]; omega
          apply List.ext_getElem?
          intro m
          rw [overwritten_get, List.length_take, Nat.min_eq_left h3]
          simp only [List.getElem?_take]
          by_cases hm : m < t.len
          · simp only [hm, true_and, if_true]
            by_cases hlt' : m < s.len
            · rw [List.append_assoc, List.getElem?_append_left (by omega), List.getElem?_take,
                if_pos hlt', if_neg (by omega)]
            · by_cases hr : m < s.len + xs.length
              · rw [List.getElem?_append_left (by simp [hlt]; omega),
                  List.getElem?_append_right (by omega), hlt, if_pos (by omega)]
              · rw [List.getElem?_append_right (by simp [hlt]; omega), if_neg (by omega)]
                simp only [List.length_append, hlt, List.getElem?_drop]
                congr 1
                omega
          · simp [hm]
        · have hb : (st.write a s.len xs)[b]? = some z := by rw [get_write hz, if_neg hab]
          rw [read_some hta hb, read_some hta hz, if_neg]
          rw [ha, hta]
          intro h
          cases h
          exact hab rfl
    · have he : st.append g s xs =
          (st ++ [⟨st.read s ++ xs, g.cap st.length (st.cap s) (s.len + xs.length)⟩],
            ⟨some st.length, s.len + xs.length⟩) := by
        unfold append
        rw [hxe, ha]
        simp only [if_neg hc]
        rfl
      rw [he, (snoc_other ht).1, if_neg hc]

/-- Sorting in place. -/
theorem sortInPlace_read [GoRuntime] {st : Store Column} {s : Slice} (hv : s.Valid st) {t : Slice}
    (ht : t.Valid st) : (st.sortInPlace s).read t =
      if s.arr = t.arr then overwritten (st.read t) 0 (GoRuntime.sortSlice columnLess (st.read s))
      else st.read t := by
  unfold sortInPlace
  rcases hv with ⟨ha, hl⟩ | ⟨a, y, ha, hay, h1, h2⟩
  · rw [ha]
    simp only
    split
    · next h =>
      rw [read_none h.symm, read_none ha,
        List.Perm.eq_nil (GoRuntime.sortSlice_perm columnLess [])]
      rfl
    · rfl
  · rw [ha]
    simp only
    generalize hx : GoRuntime.sortSlice columnLess (st.read s) = xs
    have hlen : xs.length = s.len := by
      rw [← hx, (GoRuntime.sortSlice_perm columnLess _).length_eq, read_length (.inr ⟨a, y, ha, hay, h1, h2⟩)]
    rcases ht with ⟨hta, htl⟩ | ⟨b, z, hta, hz, h3, h4⟩
    · rw [if_neg (by rw [hta]; simp), read_none hta, read_none hta]
    · by_cases hab : a = b
      · subst hab
        rw [hay] at hz; cases hz
        have hw : (st.write a 0 xs)[a]? = some { y with
            cells := y.cells.take 0 ++ xs ++ y.cells.drop (0 + xs.length) } := by
          rw [get_write hay, if_pos rfl]
        rw [if_pos hta.symm, read_some hta hw, read_some hta hay]
        apply List.ext_getElem?
        intro m
        rw [overwritten_get, List.length_take, Nat.min_eq_left h3]
        simp only [List.getElem?_take, List.take_zero, List.nil_append, Nat.zero_add, Nat.zero_le,
          true_and, Nat.sub_zero]
        by_cases hm : m < t.len
        · simp only [hm, true_and, if_true]
          by_cases hr : m < xs.length
          · rw [List.getElem?_append_left hr, if_pos hr]
          · rw [List.getElem?_append_right (by omega), if_neg hr, List.getElem?_drop]
            congr 1
            omega
        · simp [hm]
      · have hb : (st.write a 0 xs)[b]? = some z := by rw [get_write hz, if_neg hab]
        rw [read_some hta hb, read_some hta hz, if_neg]
        rw [hta]
        intro h
        cases h
        exact hab rfl

end Store

/-! ## The steps of a call -/

/-- What the steps do to memory and to the container. -/
def outcome (g : Growth) (h : UpdHeap) (p : PairRef) (steps : List PairStep) : UpdHeap × PairRef :=
  let cs := newColumns (h.mapOf p.map) steps
  ({ h with
      columns := (h.columns.appendEach g p.columns cs).1
      exprs := (h.exprs.appendEach g p.exprs (newValues steps)).1
      maps := h.maps.set p.map (newMap (h.mapOf p.map) steps) },
    { p with
      mode := steps.foldl (fun _ s => s.mode) p.mode
      columns := (h.columns.appendEach g p.columns cs).2
      exprs := (h.exprs.appendEach g p.exprs (newValues steps)).2 })

theorem set_mapOf (h : UpdHeap) (m : Nat) : h.maps.set m (h.mapOf m) = h.maps := by
  unfold UpdHeap.mapOf
  by_cases hm : m < h.maps.length
  · rw [List.getElem?_eq_getElem hm]
    simp
  · exact List.set_eq_of_length_le (by omega)

theorem outcome_nil (g : Growth) (h : UpdHeap) (p : PairRef) : outcome g h p [] = (h, p) := by
  simp only [outcome, newColumns, newValues, newMap, Store.appendEach, List.foldl_nil, set_mapOf]

theorem outcome_cons (g : Growth) (h : UpdHeap) (p : PairRef) (s : PairStep) (l : List PairStep)
    (hm : p.map < h.maps.length) :
    outcome g h p (s :: l) = outcome g (outcome g h p [s]).1 (outcome g h p [s]).2 l := by
  have hmap : ∀ (st : Store Column) (se : Store Expr) (x : List (Column × Expr)),
      UpdHeap.mapOf { h with columns := st, exprs := se, maps := h.maps.set p.map x } p.map = x := by
    intro st se x
    simp [UpdHeap.mapOf, hm]
  cases s with
  | assign c e =>
    simp only [outcome, newColumns, newMap, newValues, hmap, Store.appendEach, List.foldl_cons,
      List.foldl_nil, List.set_set]
    by_cases hs : (mapLookup c (h.mapOf p.map)).isSome = true
    · simp only [hs, if_true, Store.appendEach]
    · simp only [hs, if_false, Store.appendEach, Bool.false_eq_true]
  | column c =>
    simp only [outcome, newColumns, newMap, newValues, hmap, Store.appendEach, List.foldl_cons,
      List.foldl_nil, List.set_set]
  | value e =>
    simp only [outcome, newColumns, newMap, newValues, hmap, Store.appendEach, List.foldl_cons,
      List.foldl_nil, List.set_set]

/-- Trying the steps one after the other. -/
inductive StepsTo (g : Growth) :
    UpdHeap → PairRef → List (Option PairStep) → UpdHeap × Go PairRef → Prop
  | nil (h : UpdHeap) (p : PairRef) : StepsTo g h p [] (h, .ok p)
  | refused (h : UpdHeap) (p : PairRef) (l : List (Option PairStep)) (e : Panic) :
      StepsTo g h p (none :: l) (h, .error e)
  | unfit (h : UpdHeap) (p : PairRef) (s : PairStep) (l : List (Option PairStep)) (e : Panic)
      (hf : s.fits p.mode = false) : StepsTo g h p (some s :: l) (h, .error e)
  | step (h : UpdHeap) (p : PairRef) (s : PairStep) (l : List (Option PairStep))
      (x : UpdHeap × Go PairRef) (hf : s.fits p.mode = true)
      (hx : StepsTo g (outcome g h p [s]).1 (outcome g h p [s]).2 l x) :
      StepsTo g h p (some s :: l) x

section
variable {g : Growth}

theorem StepsTo.append_ok {h h1 : UpdHeap} {p p1 : PairRef} {a b : List (Option PairStep)}
    {x y : UpdHeap × Go PairRef} (ha : StepsTo g h p a y) (hy : y = (h1, .ok p1))
    (hb : StepsTo g h1 p1 b x) : StepsTo g h p (a ++ b) x := by
  induction ha with
  | nil => cases hy; exact hb
  | refused => cases hy
  | unfit => cases hy
  | step h p s l y hf _ ih => exact .step h p s _ x hf (ih hy)

theorem StepsTo.append_error {h h1 : UpdHeap} {p : PairRef} {a : List (Option PairStep)} {e : Panic}
    {y : UpdHeap × Go PairRef} (ha : StepsTo g h p a y) (hy : y = (h1, .error e))
    (b : List (Option PairStep)) : StepsTo g h p (a ++ b) y := by
  induction ha with
  | nil => cases hy
  | refused h p l e => exact .refused h p _ e
  | unfit h p s l e hf => exact .unfit h p s _ e hf
  | step h p s l y hf _ ih => exact .step h p s _ _ hf (ih hy)

theorem steps_loop {β : Type} {body : UpdHeap → PairRef → β → UpdHeap × Go PairRef}
    {att : β → List (Option PairStep)} (hb : ∀ h p a, StepsTo g h p (att a) (body h p a))
    (l : List β) : ∀ h p, StepsTo g h p (l.flatMap att) (loopH body h p l) := by
  induction l with
  | nil => intro h p; exact .nil h p
  | cons a l ih =>
    intro h p
    have h1 := hb h p a
    rw [loopH, List.flatMap_cons]
    split
    · next h' e he => rw [← he]; exact h1.append_error he _
    · next h' p' he => exact h1.append_ok he (ih h' p')

theorem steps_set (h : UpdHeap) (p : PairRef) (c : Column) :
    StepsTo g h p [some (.column c)] (p.set g h c) := by
  unfold PairRef.set
  by_cases hm : p.mode = .associative
  · simp only [hm]
    exact .unfit h p _ _ _ (by simp [PairStep.fits, hm])
  · have : (if p.mode = .unknown then PairMode.array else p.mode) = .array := by
      cases h : p.mode <;> simp_all
    simp only [this, ne_eq, not_true_eq_false, ↓reduceIte]
    refine .step h p _ _ _ (by simp [PairStep.fits, hm]) ?_
    have e : outcome g h p [.column c] =
        ({ h with columns := (h.columns.append g p.columns [c]).1 },
          { p with mode := .array, columns := (h.columns.append g p.columns [c]).2 }) := by
      simp only [outcome, newColumns, newValues, newMap, Store.appendEach, List.foldl_nil,
        List.foldl_cons, set_mapOf, PairStep.mode]
    rw [e]
    exact .nil _ _

theorem steps_addPair (h : UpdHeap) (p : PairRef) (kv : Any × Any) :
    StepsTo g h p [pairStep kv] (p.addPair g h kv) := by
  unfold PairRef.addPair pairStep
  cases toColumn kv.1 with
  | error e => exact .refused h p _ e
  | ok c =>
    simp only
    cases newWrapped kv.2 with
    | error e => exact .refused h p _ e
    | ok x =>
      simp only
      unfold PairRef.add
      by_cases hm : p.mode = .array
      · simp only [hm]
        exact .unfit h p _ _ _ (by simp [PairStep.fits, hm])
      · have : (if p.mode = .unknown then PairMode.associative else p.mode) = .associative := by
          cases h : p.mode <;> simp_all
        simp only [this, ne_eq, not_true_eq_false, ↓reduceIte]
        refine .step h p _ _ _ (by simp [PairStep.fits, hm]) ?_
        by_cases hs : (mapLookup c (h.mapOf p.map)).isSome = true
        · have e : outcome g h p [.assign c x] =
              ({ h with maps := h.maps.set p.map (mapAssign c x (h.mapOf p.map)) },
                { p with mode := .associative }) := by
            simp only [outcome, newColumns, newValues, newMap, Store.appendEach, List.foldl_nil,
              List.foldl_cons, hs, if_true, PairStep.mode]
          rw [e, if_pos hs]
          exact .nil _ _
        · have e : outcome g h p [.assign c x] =
              ({ h with
                  columns := (h.columns.append g p.columns [c]).1
                  maps := h.maps.set p.map (mapAssign c x (h.mapOf p.map)) },
                { p with
                  mode := .associative
                  columns := (h.columns.append g p.columns [c]).2 }) := by
            simp only [outcome, newColumns, newValues, newMap, Store.appendEach, List.foldl_nil,
              List.foldl_cons, hs, if_false, PairStep.mode, Bool.false_eq_true]
          rw [e, if_neg hs]
          exact .nil _ _

theorem steps_useArg (h : UpdHeap) (p : PairRef) (a : Any) :
    StepsTo g h p [valueStep a] (p.useArg g h a) := by
  unfold PairRef.useArg valueStep
  cases newExpression a with
  | error e => exact .refused h p _ e
  | ok x =>
    simp only
    unfold PairRef.use
    by_cases hm : p.mode = .array
    · rw [if_neg (by simpa using hm)]
      refine .step h p _ _ _ (by simp [PairStep.fits, hm]) ?_
      have e : outcome g h p [.value x] =
          ({ h with exprs := (h.exprs.append g p.exprs [x]).1 },
            { p with exprs := (h.exprs.append g p.exprs [x]).2 }) := by
        simp only [outcome, newColumns, newValues, newMap, Store.appendEach, List.foldl_nil,
          List.foldl_cons, set_mapOf, PairStep.mode, ← hm]
      rw [e]
      exact .nil _ _
    · rw [if_pos hm]
      exact .unfit h p _ _ _ (by simp [PairStep.fits, hm])

theorem flatMap_single {β γ : Type} (f : β → γ) (l : List β) :
    l.flatMap (fun a => [f a]) = l.map f := by
  induction l with
  | nil => rfl
  | cons a l ih => simp [ih]

theorem steps_mergeArg (h : UpdHeap) (p : PairRef) (a : Any) :
    StepsTo g h p (argSteps a) (p.mergeArg g h a) := by
  have cols : ∀ x : Go (List Column), StepsTo g h p
      (match x with | .error _ => [none] | .ok cs => cs.map fun c => some (.column c))
      (match x with | .error e => (h, .error e) | .ok cs => loopH (PairRef.set g) h p cs) := by
    intro x
    cases x with
    | error e => exact .refused h p _ e
    | ok cs =>
      have := steps_loop (g := g) steps_set cs h p
      rwa [flatMap_single] at this
  unfold argSteps PairRef.mergeArg
  split
  · exact cols _
  · exact cols _
  · next b entries =>
    have := steps_loop (g := g) steps_addPair (entries.map (fun kv => (.val (.str kv.1), kv.2))) h p
    rw [flatMap_single, List.map_map] at this
    exact this
  · next entries =>
    have := steps_loop (g := g) steps_addPair entries h p
    rwa [flatMap_single] at this
  · exact steps_addPair h p _
  · split
    all_goals first
      | exact .refused h p _ _
      | (simp_all; done)

/-- What is done in the end. -/
theorem StepsTo.outcome {h : UpdHeap} {p : PairRef} {att : List (Option PairStep)}
    {x : UpdHeap × Go PairRef} (hx : StepsTo g h p att x) (hm : p.map < h.maps.length) :
    x.1 = (Verif.outcome g h p (performed p.mode att)).1 ∧
    ∀ p', x.2 = .ok p' → p' = (Verif.outcome g h p (performed p.mode att)).2 := by
  induction hx with
  | nil h p => rw [performed, outcome_nil]; exact ⟨rfl, fun _ h => by cases h; rfl⟩
  | refused h p l e => rw [performed, outcome_nil]; exact ⟨rfl, fun _ h => by cases h⟩
  | unfit h p s l e hf =>
    rw [performed, if_neg (by simp [hf]), outcome_nil]; exact ⟨rfl, fun _ h => by cases h⟩
  | step h p s l x hf _ ih =>
    rw [performed, if_pos hf, outcome_cons _ _ _ _ _ hm]
    exact ih (by simpa [Verif.outcome] using hm)

end

end Verif
