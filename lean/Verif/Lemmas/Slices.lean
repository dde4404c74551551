import Verif.Model.Heap

/-!
# Slices: what `append` does to the other slices
-/

namespace Verif

variable {α : Type}

/-- The slice is the whole written part of its array. -/
def Slice.Full (st : Store α) (s : Slice) : Prop :=
  ∀ a x, s.arr = some a → st[a]? = some x → s.len = x.cells.length

namespace Store

theorem read_some {st : Store α} {s : Slice} {a : Nat} {x : Arr α} (ha : s.arr = some a)
    (hx : st[a]? = some x) : st.read s = x.cells.take s.len := by
  unfold read
  rw [ha]
  simp only [cells, hx]

theorem read_none {st : Store α} {s : Slice} (ha : s.arr = none) : st.read s = [] := by
  unfold read
  rw [ha]

theorem get_snoc {st : Store α} {y x : Arr α} {a : Nat} (h : st[a]? = some x) :
    (st ++ [y])[a]? = some x := by
  have hl : a < st.length := (List.getElem?_eq_some_iff.1 h).1
  rw [List.getElem?_append_left hl, h]

theorem get_last {st : Store α} {y : Arr α} : (st ++ [y])[st.length]? = some y := by simp

theorem valid_lt {st : Store α} {s : Slice} {a : Nat} (h : s.Valid st) (ha : s.arr = some a) :
    a < st.length := by
  rcases h with ⟨h, _⟩ | ⟨b, x, hb, hx, _⟩
  · rw [h] at ha; cases ha
  · rw [hb] at ha; cases ha; exact (List.getElem?_eq_some_iff.1 hx).1

/-- A new array leaves the slices there are as they are. -/
theorem snoc_other {st : Store α} {y : Arr α} {t : Slice} (h : t.Valid st) :
    (st ++ [y]).read t = st.read t ∧ t.Valid (st ++ [y]) ∧ (t.Full st → t.Full (st ++ [y])) := by
  rcases h with ⟨ha, hl⟩ | ⟨a, x, ha, hx, h1, h2⟩
  · refine ⟨by rw [read_none ha, read_none ha], .inl ⟨ha, hl⟩, fun _ a x h => ?_⟩
    rw [ha] at h; cases h
  · refine ⟨by rw [read_some ha hx, read_some ha (get_snoc hx)],
      .inr ⟨a, x, ha, get_snoc hx, h1, h2⟩, fun hf b z hb hz => ?_⟩
    rw [ha] at hb; cases hb
    rw [get_snoc hx] at hz; cases hz
    exact hf _ _ ha hx

theorem get_write {st : Store α} {a b pos : Nat} {xs : List α} {x : Arr α} (h : st[b]? = some x) :
    (st.write a pos xs)[b]? = some (if a = b then
      { x with cells := x.cells.take pos ++ xs ++ x.cells.drop (pos + xs.length) } else x) := by
  unfold write
  rw [List.getElem?_modify, h]
  by_cases hab : a = b <;> simp [hab]

theorem cap_some {st : Store α} {s : Slice} {a : Nat} {x : Arr α} (ha : s.arr = some a)
    (hx : st[a]? = some x) : st.cap s = x.cap := by
  unfold cap
  rw [ha]
  simp only [hx]

theorem append_nil (g : Growth) (st : Store α) (s : Slice) : st.append g s [] = (st, s) := rfl

/-- `append` to a slice that is the whole written part of its array: the result has the elements,
and every other slice keeps its elements. -/
theorem append_spec (g : Growth) {st : Store α} {s : Slice} {xs : List α} (hv : s.Valid st)
    (hf : s.Full st) :
    (st.append g s xs).1.read (st.append g s xs).2 = st.read s ++ xs ∧
    (st.append g s xs).2.Valid (st.append g s xs).1 ∧
    (st.append g s xs).2.Full (st.append g s xs).1 ∧
    ((st.append g s xs).2.arr = s.arr ∨ (st.append g s xs).2.arr = some st.length) ∧
    ∀ t : Slice, t.Valid st → (st.append g s xs).1.read t = st.read t ∧
      t.Valid (st.append g s xs).1 ∧
      (t.arr = none ∨ t.arr ≠ s.arr → t.Full st → t.Full (st.append g s xs).1) := by
  by_cases hx : xs = []
  · subst hx
    rw [append_nil]
    exact ⟨by simp, hv, hf, .inl rfl, fun t ht => ⟨rfl, ht, fun _ h => h⟩⟩
  have hxe : xs.isEmpty = false := by cases xs with
    | nil => exact absurd rfl hx
    | cons => rfl
  rcases hv with ⟨ha, hl⟩ | ⟨a, x, ha, hax, h1, h2⟩
  · have he : st.append g s xs =
        (st ++ [⟨xs, g.cap st.length 0 xs.length⟩], ⟨some st.length, xs.length⟩) := by
      unfold append
      rw [hxe, ha]
      rfl
    rw [he]
    refine ⟨?_, .inr ⟨_, _, rfl, get_last, Nat.le_refl _, g.enough _ _ _⟩, ?_, .inr rfl,
      fun t ht => ⟨(snoc_other ht).1, (snoc_other ht).2.1, fun _ => (snoc_other ht).2.2⟩⟩
    · rw [read_some rfl get_last, read_none ha]; simp
    · intro b z hb hz
      cases hb
      rw [get_last] at hz; cases hz
      rfl
  · have hlen : s.len = x.cells.length := hf a x ha hax
    by_cases hc : s.len + xs.length ≤ st.cap s
    · have he : st.append g s xs = (st.write a s.len xs, ⟨some a, s.len + xs.length⟩) := by
        unfold append
        rw [hxe, ha]
        simp only [if_pos hc]
        rfl
      have hcells : x.cells.take s.len ++ xs ++ x.cells.drop (s.len + xs.length) = x.cells ++ xs := by
        rw [List.take_of_length_le (by omega), List.drop_eq_nil_of_le (by omega)]
        simp
      have hw : (st.write a s.len xs)[a]? = some { x with cells := x.cells ++ xs } := by
        rw [get_write hax, if_pos rfl, hcells]
      rw [cap_some ha hax] at hc
      rw [he]
      refine ⟨?_, .inr ⟨_, _, rfl, hw, ?_, ?_⟩, ?_, .inl ha.symm, fun t ht => ?_⟩
      · rw [read_some (s := ⟨some a, s.len + xs.length⟩) rfl hw, read_some ha hax]
        simp only [hlen]
        rw [List.take_of_length_le (by simp), List.take_of_length_le (Nat.le_refl _)]
      · simp only [List.length_append, hlen]; omega
      · simp only [List.length_append]; omega
      · intro b z hb hz
        cases hb
        rw [hw] at hz; cases hz
        simp only [List.length_append, hlen]
      · rcases ht with ⟨hta, htl⟩ | ⟨b, z, hta, hz, h3, h4⟩
        · refine ⟨by rw [read_none hta, read_none hta], .inl ⟨hta, htl⟩, fun _ _ b z hb => ?_⟩
          rw [hta] at hb; cases hb
        · by_cases hab : a = b
          · subst hab
            rw [hax] at hz; cases hz
            refine ⟨?_, .inr ⟨_, _, hta, hw, ?_, ?_⟩, fun hne => ?_⟩
            · rw [read_some hta hw, read_some hta hax]
              simp only
              rw [List.take_append_of_le_length h3]
            · simp only [List.length_append]; omega
            · simp only [List.length_append]; omega
            · rcases hne with hne | hne
              · rw [hta] at hne; cases hne
              · rw [hta, ha] at hne; exact absurd rfl hne
          · have hb : (st.write a s.len xs)[b]? = some z := by rw [get_write hz, if_neg hab]
            refine ⟨by rw [read_some hta hb, read_some hta hz], .inr ⟨_, _, hta, hb, h3, h4⟩,
              fun _ hft c y hc' hy => ?_⟩
            rw [hta] at hc'; cases hc'
            rw [hb] at hy; cases hy
            exact hft _ _ hta hz
    · have he : st.append g s xs =
          (st ++ [⟨st.read s ++ xs, g.cap st.length (st.cap s) (s.len + xs.length)⟩],
            ⟨some st.length, s.len + xs.length⟩) := by
        unfold append
        rw [hxe, ha]
        simp only [if_neg hc]
        rfl
      have hr : (st.read s ++ xs).length = s.len + xs.length := by
        rw [read_some ha hax]; simp; omega
      rw [he]
      refine ⟨?_, .inr ⟨_, _, rfl, get_last, by simp only [hr, Nat.le_refl], ?_⟩, ?_, .inr rfl,
        fun t ht => ⟨(snoc_other ht).1, (snoc_other ht).2.1, fun _ => (snoc_other ht).2.2⟩⟩
      · rw [read_some rfl get_last]
        simp only
        rw [List.take_of_length_le (by rw [hr]; exact Nat.le_refl _)]
      · simp only [hr]; exact g.enough _ _ _
      · intro b z hb hz
        cases hb
        rw [get_last] at hz; cases hz
        exact hr.symm

theorem alloc_spec (st : Store α) (xs : List α) :
    (st.alloc xs).1.read (st.alloc xs).2 = xs ∧
    (st.alloc xs).2.Valid (st.alloc xs).1 ∧
    (st.alloc xs).2.Full (st.alloc xs).1 ∧
    (st.alloc xs).2.arr = some st.length ∧
    ∀ t : Slice, t.Valid st → (st.alloc xs).1.read t = st.read t ∧
      t.Valid (st.alloc xs).1 ∧ (t.Full st → t.Full (st.alloc xs).1) := by
  refine ⟨?_, .inr ⟨_, _, rfl, get_last, Nat.le_refl _, Nat.le_refl _⟩, ?_, rfl,
    fun t ht => snoc_other ht⟩
  · rw [alloc, read_some rfl get_last]; simp
  · intro b z hb hz
    cases hb
    rw [alloc, get_last] at hz; cases hz
    rfl

end Store

/-! ## A slice that is extended -/

/-- The slice `s'` is made from `s` by `append`, any number of times. -/
structure Ext (st st' : Store α) (s s' : Slice) : Prop where
  valid : s'.Valid st'
  full : s'.Full st'
  arr : s'.arr = s.arr ∨ ∃ a, st.length ≤ a ∧ s'.arr = some a
  len : st.length ≤ st'.length
  other : ∀ t : Slice, t.Valid st → st'.read t = st.read t ∧ t.Valid st' ∧
    (t.arr = none ∨ t.arr ≠ s.arr → t.Full st → t.Full st')

theorem Ext.refl {st : Store α} {s : Slice} (hv : s.Valid st) (hf : s.Full st) : Ext st st s s :=
  ⟨hv, hf, .inl rfl, Nat.le_refl _, fun _ h => ⟨rfl, h, fun _ h => h⟩⟩

theorem Ext.trans {st st1 st2 : Store α} {s s1 s2 : Slice} (h1 : Ext st st1 s s1)
    (h2 : Ext st1 st2 s1 s2) : Ext st st2 s s2 := by
  refine ⟨h2.valid, h2.full, ?_, Nat.le_trans h1.len h2.len, fun t ht => ?_⟩
  · rcases h2.arr with h | ⟨a, ha, h⟩
    · rcases h1.arr with h' | ⟨b, hb, h'⟩
      · exact .inl (h.trans h')
      · exact .inr ⟨b, hb, h.trans h'⟩
    · exact .inr ⟨a, Nat.le_trans h1.len ha, h⟩
  · obtain ⟨a1, a2, a3⟩ := h1.other t ht
    obtain ⟨b1, b2, b3⟩ := h2.other t a2
    refine ⟨b1.trans a1, b2, fun hn hf => b3 ?_ (a3 hn hf)⟩
    rcases hn with hn | hn
    · exact .inl hn
    · by_cases hta : t.arr = none
      · exact .inl hta
      · refine .inr fun he => ?_
        rcases h1.arr with h | ⟨b, hb, h⟩
        · exact hn (he.trans h)
        · have := Store.valid_lt ht (he.trans h)
          omega

theorem Store.append_length (g : Growth) (st : Store α) (s : Slice) (xs : List α) :
    st.length ≤ (st.append g s xs).1.length := by
  unfold Store.append
  split
  · exact Nat.le_refl _
  · split
    · split
      · simp [Store.write]
      · simp
    · simp

theorem Ext.append (g : Growth) {st : Store α} {s : Slice} (xs : List α) (hv : s.Valid st)
    (hf : s.Full st) : Ext st (st.append g s xs).1 s (st.append g s xs).2 := by
  obtain ⟨_, h2, h3, h4, h5⟩ := Store.append_spec g (xs := xs) hv hf
  refine ⟨h2, h3, ?_, Store.append_length g st s xs, h5⟩
  rcases h4 with h | h
  · exact .inl h
  · exact .inr ⟨_, Nat.le_refl _, h⟩

/-! ## All slices of a program -/

/-- A slice, when it was last extended, and what it should contain. -/
structure TEntry (α : Type) where
  slice : Slice
  ver : Nat
  content : List α

/-- Every slice contains what it should, and a slice that has not been extended can be. -/
structure Tracked (st : Store α) (spent : List Nat) (es : List (TEntry α)) : Prop where
  read : ∀ e ∈ es, st.read e.slice = e.content
  valid : ∀ e ∈ es, e.slice.Valid st
  full : ∀ e ∈ es, e.ver ∉ spent → e.slice.Full st
  same : ∀ e ∈ es, ∀ f ∈ es, e.ver = f.ver → e.slice = f.slice
  excl : ∀ e ∈ es, ∀ f ∈ es, e.ver ∉ spent → f.ver ∉ spent → e.slice.arr = f.slice.arr →
    e.slice.arr ≠ none → e.ver = f.ver
  fresh : ∀ e ∈ es, e.ver < es.length

namespace Tracked
variable {st : Store α} {spent : List Nat} {es : List (TEntry α)}

theorem start : Tracked ([] : Store α) [] [] :=
  ⟨by simp, by simp, by simp, by simp, by simp, by simp⟩

/-- Fewer slices that can be extended. -/
theorem weaken (h : Tracked st spent es) {spent' : List Nat} (hs : ∀ v, v ∈ spent → v ∈ spent') :
    Tracked st spent' es :=
  ⟨h.read, h.valid, fun e he hv => h.full e he fun x => hv (hs _ x), h.same,
    fun e he f hf h1 h2 => h.excl e he f hf (fun x => h1 (hs _ x)) (fun x => h2 (hs _ x)), h.fresh⟩

/-- A new slice. -/
theorem push (h : Tracked st spent es) {st' : Store α} {spent' : List Nat} {s : Slice}
    {c : List α} (hs : ∀ v, v ∈ spent → v ∈ spent') (hr : st'.read s = c) (hv : s.Valid st')
    (hf : s.Full st')
    (hold : ∀ e ∈ es, st'.read e.slice = st.read e.slice ∧ e.slice.Valid st' ∧
      (e.ver ∉ spent' → e.slice.Full st'))
    (hex : ∀ e ∈ es, e.ver ∉ spent' → s.arr = e.slice.arr → s.arr = none) :
    Tracked st' spent' (es ++ [⟨s, es.length, c⟩]) := by
  refine ⟨?_, ?_, ?_, ?_, ?_, ?_⟩
  · intro e he
    rcases List.mem_append.1 he with he | he
    · rw [(hold e he).1, h.read e he]
    · simp only [List.mem_singleton] at he; subst he; exact hr
  · intro e he
    rcases List.mem_append.1 he with he | he
    · exact (hold e he).2.1
    · simp only [List.mem_singleton] at he; subst he; exact hv
  · intro e he hn
    rcases List.mem_append.1 he with he | he
    · exact (hold e he).2.2 hn
    · simp only [List.mem_singleton] at he; subst he; exact hf
  · intro e he f hf' hef
    rcases List.mem_append.1 he with he | he <;> rcases List.mem_append.1 hf' with hf' | hf'
    · exact h.same e he f hf' hef
    · simp only [List.mem_singleton] at hf'; subst hf'
      have := h.fresh e he
      simp only at hef; omega
    · simp only [List.mem_singleton] at he; subst he
      have := h.fresh f hf'
      simp only at hef; omega
    · simp only [List.mem_singleton] at he hf'; rw [he, hf']
  · intro e he f hf' h1 h2 ha hn
    rcases List.mem_append.1 he with he | he <;> rcases List.mem_append.1 hf' with hf' | hf'
    · exact h.excl e he f hf' (fun x => h1 (hs _ x)) (fun x => h2 (hs _ x)) ha hn
    · simp only [List.mem_singleton] at hf'; subst hf'
      exact absurd (ha.trans (hex e he h1 ha.symm)) hn
    · simp only [List.mem_singleton] at he; subst he
      exact absurd (hex f hf' h2 ha) hn
    · simp only [List.mem_singleton] at he hf'; rw [he, hf']
  · intro e he
    rcases List.mem_append.1 he with he | he
    · have := h.fresh e he; simp only [List.length_append, List.length_singleton]; omega
    · simp only [List.mem_singleton] at he; subst he; simp

/-- The builder of a slice is copied. -/
theorem copy (h : Tracked st spent es) {e : TEntry α} (he : e ∈ es) :
    Tracked st spent (es ++ [e]) := by
  have key : ∀ f, f ∈ es ++ [e] → f ∈ es := by
    intro f hf
    rcases List.mem_append.1 hf with hf | hf
    · exact hf
    · simp only [List.mem_singleton] at hf; subst hf; exact he
  refine ⟨fun f hf => h.read f (key f hf), fun f hf => h.valid f (key f hf),
    fun f hf => h.full f (key f hf), fun f hf k hk => h.same f (key f hf) k (key k hk),
    fun f hf k hk => h.excl f (key f hf) k (key k hk), fun f hf => ?_⟩
  have := h.fresh f (key f hf)
  simp only [List.length_append, List.length_singleton]; omega

/-- A builder without the slice. -/
theorem new (h : Tracked st spent es) : Tracked st spent (es ++ [⟨.nil, es.length, []⟩]) :=
  h.push (fun _ h => h) rfl (.inl ⟨rfl, rfl⟩) (fun _ _ ha => by cases ha)
    (fun e he => ⟨rfl, h.valid e he, h.full e he⟩) fun _ _ _ _ => rfl

/-- Extended, once. -/
theorem ext (h : Tracked st spent es) {e : TEntry α} (he : e ∈ es) (hs : e.ver ∉ spent)
    {st' : Store α} {s : Slice} {c : List α} (hx : Ext st st' e.slice s) (hr : st'.read s = c) :
    Tracked st' (e.ver :: spent) (es ++ [⟨s, es.length, c⟩]) := by
  refine h.push (fun v hv => List.mem_cons_of_mem _ hv) hr hx.valid hx.full ?_ ?_
  · intro f hf
    obtain ⟨h6, h7, h8⟩ := hx.other f.slice (h.valid f hf)
    refine ⟨h6, h7, fun hn => h8 ?_ (h.full f hf fun x => hn (List.mem_cons_of_mem _ x))⟩
    by_cases ha : f.slice.arr = none
    · exact .inl ha
    · refine .inr fun heq => hn ?_
      rw [h.excl f hf e he (fun x => hn (List.mem_cons_of_mem _ x)) hs heq ha]
      exact List.mem_cons_self
  · intro f hf hn ha
    rcases hx.arr with h4 | ⟨a, hle, h4⟩
    · cases hxa : s.arr with
      | none => rfl
      | some a =>
        exfalso
        apply hn
        rw [h.excl f hf e he (fun x => hn (List.mem_cons_of_mem _ x)) hs (by rw [← ha, h4])
          (by rw [← ha, hxa]; exact fun h => by cases h)]
        exact List.mem_cons_self
    · have := Store.valid_lt (h.valid f hf) (ha.symm.trans h4)
      omega

/-- Forget the last slice. -/
theorem drop {f : TEntry α} (h : Tracked st spent (es ++ [f]))
    (hf : ∀ e ∈ es, e.ver < es.length) : Tracked st spent es :=
  have k : ∀ e, e ∈ es → e ∈ es ++ [f] := fun _ h => List.mem_append.2 (.inl h)
  ⟨fun e he => h.read e (k e he), fun e he => h.valid e (k e he), fun e he => h.full e (k e he),
    fun e he f hf => h.same e (k e he) f (k f hf), fun e he f hf => h.excl e (k e he) f (k f hf),
    hf⟩

/-- `append`, once. -/
theorem append (g : Growth) (h : Tracked st spent es) {e : TEntry α} (he : e ∈ es)
    (hs : e.ver ∉ spent) (xs : List α) :
    Tracked (st.append g e.slice xs).1 (e.ver :: spent)
      (es ++ [⟨(st.append g e.slice xs).2, es.length, e.content ++ xs⟩]) :=
  h.ext he hs (Ext.append g xs (h.valid e he) (h.full e he hs))
    (by rw [(Store.append_spec g (h.valid e he) (h.full e he hs)).1, h.read e he])

/-- A new array. -/
theorem alloc (h : Tracked st spent es) (xs : List α) :
    Tracked (st.alloc xs).1 spent (es ++ [⟨(st.alloc xs).2, es.length, xs⟩]) := by
  obtain ⟨h1, h2, h3, h4, h5⟩ := Store.alloc_spec st xs
  refine h.push (fun _ h => h) h1 h2 h3
    (fun e he => ⟨(h5 _ (h.valid e he)).1, (h5 _ (h.valid e he)).2.1,
      fun hn => (h5 _ (h.valid e he)).2.2 (h.full e he hn)⟩) ?_
  intro f hf _ ha
  have := Store.valid_lt (h.valid f hf) (ha.symm.trans h4)
  omega

end Tracked

end Verif
