import Verif.Lemmas.Slices
import Verif.Spec.Caller

/-!
# Slices of the caller: who can write to which array
-/

namespace Verif
open Spec
variable {α : Type}

namespace Store

/-- Writing to an array leaves the slices in other arrays as they are. -/
theorem write_other {st : Store α} {a pos : Nat} {xs : List α} {t : Slice} (ht : t.Valid st)
    (ha : t.arr ≠ some a) :
    (st.write a pos xs).read t = st.read t ∧ t.Valid (st.write a pos xs) ∧
      (t.Full st → t.Full (st.write a pos xs)) := by
  rcases ht with ⟨hn, hl⟩ | ⟨b, z, hb, hz, h1, h2⟩
  · refine ⟨by rw [read_none hn, read_none hn], .inl ⟨hn, hl⟩, fun _ c y hc => ?_⟩
    rw [hn] at hc; cases hc
  · have hab : a ≠ b := fun e => ha (by rw [hb, e])
    have hw : (st.write a pos xs)[b]? = some z := by rw [get_write hz, if_neg hab]
    refine ⟨by rw [read_some hb hw, read_some hb hz], .inr ⟨_, _, hb, hw, h1, h2⟩,
      fun hf c y hc hy => ?_⟩
    rw [hb] at hc; cases hc
    rw [hw] at hy; cases hy
    exact hf _ _ hb hz

/-- Assigning to an element of a slice. -/
theorem assign_spec {st : Store α} {s : Slice} (i : Nat) (x : α) (hv : s.Valid st)
    (hf : s.Full st) :
    (s.len ≤ i ∧ st.assign s i x = .error .index ∧ (st.read s).set i x = st.read s) ∨
    ∃ a st', s.arr = some a ∧ st.assign s i x = .ok st' ∧ st'.read s = (st.read s).set i x ∧
      s.Valid st' ∧ s.Full st' ∧ st' = st.write a i [x] := by
  rcases hv with ⟨hn, hl⟩ | ⟨a, z, ha, hz, h1, h2⟩
  · refine .inl ⟨by omega, ?_, ?_⟩
    · unfold assign; rw [if_neg (by omega)]
    · rw [read_none hn]; rfl
  · have hlen := hf a z ha hz
    by_cases hi : i < s.len
    · refine .inr ⟨a, st.write a i [x], ha, ?_, ?_, ?_, ?_, rfl⟩
      · unfold assign; rw [if_pos hi, ha]
      · have hw := get_write (a := a) (pos := i) (xs := [x]) hz
        rw [if_pos rfl] at hw
        have hc : z.cells.take i ++ [x] ++ z.cells.drop (i + 1) = z.cells.set i x := by
          rw [List.set_eq_take_append_cons_drop, if_pos (by omega)]; simp
        simp only [List.length_singleton, hc] at hw
        rw [read_some ha hw, read_some ha hz]
        simp only
        rw [List.take_of_length_le (by simp; omega), List.take_of_length_le (by omega)]
      · have hw := get_write (a := a) (pos := i) (xs := [x]) hz
        rw [if_pos rfl] at hw
        refine .inr ⟨a, _, ha, hw, ?_, ?_⟩ <;>
          (simp only [List.length_append, List.length_take, List.length_drop,
            List.length_singleton]; omega)
      · intro b y hb hy
        have hw := get_write (a := a) (pos := i) (xs := [x]) hz
        rw [if_pos rfl] at hw
        rw [ha] at hb; cases hb
        rw [hw] at hy; cases hy
        simp only [List.length_append, List.length_take, List.length_drop, List.length_singleton]
        omega
    · refine .inl ⟨by omega, ?_, ?_⟩
      · unfold assign; rw [if_neg hi]
      · rw [read_some ha hz, List.take_of_length_le (by omega), List.set_eq_of_length_le (by omega)]

theorem make_spec (st : Store α) (xs : List α) (spare : Nat) :
    (st.make xs spare).1.read (st.make xs spare).2 = xs ∧
    (st.make xs spare).2.Valid (st.make xs spare).1 ∧
    (st.make xs spare).2.Full (st.make xs spare).1 ∧
    (st.make xs spare).2.arr = some st.length ∧
    ∀ t : Slice, t.Valid st → (st.make xs spare).1.read t = st.read t ∧
      t.Valid (st.make xs spare).1 ∧ (t.Full st → t.Full (st.make xs spare).1) := by
  refine ⟨?_, .inr ⟨_, _, rfl, get_last, Nat.le_refl _, ?_⟩, ?_, rfl, fun t ht => snoc_other ht⟩
  · rw [make, read_some rfl get_last]; simp
  · simp only; omega
  · intro b z hb hz
    cases hb
    rw [make, get_last] at hz; cases hz
    rfl

end Store

theorem getElem?_snoc {β : Type} {l : List β} {i : Nat} {x y : β} (h : l[i]? = some x) :
    (l ++ [y])[i]? = some x := by
  rw [List.getElem?_append_left (List.getElem?_eq_some_iff.1 h).1, h]

namespace Tracked
variable {st : Store α} {spent : List Nat} {es : List (TEntry α)}

/-- The memory changes, but not for these slices. -/
theorem move (h : Tracked st spent es) {st' : Store α}
    (hs : ∀ e ∈ es, st'.read e.slice = st.read e.slice ∧ e.slice.Valid st' ∧
      (e.slice.Full st → e.slice.Full st')) : Tracked st' spent es :=
  ⟨fun e he => by rw [(hs e he).1, h.read e he], fun e he => (hs e he).2.1,
    fun e he hn => (hs e he).2.2 (h.full e he hn), h.same, h.excl, h.fresh⟩

end Tracked

/-- The caller's variables, but for the dead ones, have arrays of their own. -/
structure VarInv (w : CallerWorld α) (dead : Nat → Prop) (vals : CallerValues α) : Prop where
  len : w.vars.length = vals.vars.length
  var : ∀ v s, w.vars[v]? = some s → ¬ dead v →
    s.Valid w.store ∧ s.Full w.store ∧ vals.vars[v]? = some (w.store.read s)
  apart : ∀ v v' s s', w.vars[v]? = some s → w.vars[v']? = some s' → ¬ dead v → ¬ dead v' →
    v ≠ v' → s.arr ≠ none → s.arr ≠ s'.arr

/-- No builder has a slice in the array of a variable that is not dead. -/
def Foreign (w : CallerWorld α) (dead : Nat → Prop) : Prop :=
  ∀ v s, w.vars[v]? = some s → ¬ dead v → s.arr ≠ none → ∀ r ∈ w.refs, r.arr ≠ s.arr

namespace VarInv
variable {w : CallerWorld α} {dead : Nat → Prop} {vals : CallerValues α}

/-- The memory changes, but not for the variables that are not dead. -/
theorem move (h : VarInv w dead vals) {st' : Store α} {refs : List Slice} {ideals : List (List α)}
    {dead' : Nat → Prop} (hd : ∀ v, dead v → dead' v)
    (hs : ∀ v s, w.vars[v]? = some s → ¬ dead' v → st'.read s = w.store.read s ∧ s.Valid st' ∧
      (s.Full w.store → s.Full st')) :
    VarInv ⟨st', w.vars, refs⟩ dead' ⟨vals.vars, ideals⟩ := by
  refine ⟨h.len, fun v s hv hn => ?_, fun v v' s s' h1 h2 h3 h4 =>
    h.apart v v' s s' h1 h2 (fun x => h3 (hd _ x)) fun x => h4 (hd _ x)⟩
  obtain ⟨a, b, c⟩ := h.var v s hv fun x => hn (hd _ x)
  obtain ⟨d, e, f⟩ := hs v s hv hn
  exact ⟨e, f b, by rw [d]; exact c⟩

/-- A variable has another slice, in its own array or in a new one. -/
theorem update (h : VarInv w dead vals) {v : Nat} {s s' : Slice} {st' : Store α}
    (hv : w.vars[v]? = some s) (hn : ¬ dead v)
    (ha : s'.arr = s.arr ∨ ∃ a, w.store.length ≤ a ∧ s'.arr = some a)
    (hval : s'.Valid st') (hful : s'.Full st')
    (ho : ∀ t : Slice, t.Valid w.store → t.arr = none ∨ t.arr ≠ s.arr →
      st'.read t = w.store.read t ∧ t.Valid st' ∧ (t.Full w.store → t.Full st')) :
    VarInv ⟨st', w.vars.set v s', w.refs⟩ dead ⟨vals.vars.set v (st'.read s'), vals.refs⟩ := by
  have hlt : v < w.vars.length := (List.getElem?_eq_some_iff.1 hv).1
  have hother : ∀ u t, w.vars[u]? = some t → ¬ dead u → u ≠ v → t.arr = none ∨ t.arr ≠ s.arr := by
    intro u t hu hdu huv
    by_cases hta : t.arr = none
    · exact .inl hta
    · exact .inr (h.apart u v t s hu hv hdu hn huv hta)
  refine ⟨by simp [h.len], ?_, ?_⟩
  · intro u t hu hdu
    by_cases huv : u = v
    · subst huv
      rw [List.getElem?_set_self hlt] at hu
      cases hu
      exact ⟨hval, hful, List.getElem?_set_self (by rw [← h.len]; exact hlt)⟩
    · rw [List.getElem?_set_ne (Ne.symm huv)] at hu
      obtain ⟨a, b, c⟩ := h.var u t hu hdu
      obtain ⟨d, e, f⟩ := ho t a (hother u t hu hdu huv)
      exact ⟨e, f b, by rw [List.getElem?_set_ne (Ne.symm huv), d]; exact c⟩
  · have key : ∀ u t, w.vars[u]? = some t → ¬ dead u → u ≠ v → t.arr ≠ none → t.arr ≠ s'.arr := by
      intro u t hu hdu huv hta he
      rcases ha with ha | ⟨a, hle, ha⟩
      · exact h.apart u v t s hu hv hdu hn huv hta (he.trans ha)
      · have := Store.valid_lt (h.var u t hu hdu).1 (he.trans ha)
        omega
    intro u u' t t' hu hu' hdu hdu' hne hta
    by_cases huv : u = v
    · subst huv
      rw [List.getElem?_set_self hlt] at hu
      rw [List.getElem?_set_ne hne] at hu'
      cases hu
      intro he
      exact key u' t' hu' hdu' (Ne.symm hne) (by rw [← he]; exact hta) he.symm
    · rw [List.getElem?_set_ne (Ne.symm huv)] at hu
      by_cases huv' : u' = v
      · subst huv'
        rw [List.getElem?_set_self hlt] at hu'
        cases hu'
        exact key u t hu hdu huv hta
      · rw [List.getElem?_set_ne (Ne.symm huv')] at hu'
        exact h.apart u u' t t' hu hu' hdu hdu' hne hta

/-- A new variable. -/
theorem push (h : VarInv w dead vals) (xs : List α) (spare : Nat) :
    VarInv ⟨(w.store.make xs spare).1, w.vars ++ [(w.store.make xs spare).2], w.refs⟩ dead
      ⟨vals.vars ++ [xs], vals.refs⟩ := by
  obtain ⟨h1, h2, h3, h4, h5⟩ := Store.make_spec w.store xs spare
  have hsplit : ∀ (v : Nat) (s : Slice), (w.vars ++ [(w.store.make xs spare).2])[v]? = some s →
      w.vars[v]? = some s ∨ (v = w.vars.length ∧ s = (w.store.make xs spare).2) := by
    intro v s hv
    by_cases hlt : v < w.vars.length
    · rw [List.getElem?_append_left hlt] at hv; exact .inl hv
    · have hlt2 := (List.getElem?_eq_some_iff.1 hv).1
      simp only [List.length_append, List.length_singleton] at hlt2
      have : v = w.vars.length := by omega
      subst this
      rw [List.getElem?_concat_length] at hv
      cases hv; exact .inr ⟨rfl, rfl⟩
  refine ⟨by simp [h.len], ?_, ?_⟩
  · intro v s hv hn
    rcases hsplit v s hv with hv | ⟨rfl, rfl⟩
    · obtain ⟨a, b, c⟩ := h.var v s hv hn
      obtain ⟨d, e, f⟩ := h5 s a
      exact ⟨e, f b, by rw [d]; exact getElem?_snoc c⟩
    · exact ⟨h2, h3, by rw [h1, h.len]; simp⟩
  · intro v v' s s' hv hv' hn hn' hne hna he
    rcases hsplit v s hv with hv | ⟨rfl, rfl⟩ <;> rcases hsplit v' s' hv' with hv' | ⟨rfl, rfl⟩
    · exact h.apart v v' s s' hv hv' hn hn' hne hna he
    · have := Store.valid_lt (h.var v s hv hn).1 (he.trans h4); omega
    · have := Store.valid_lt (h.var v' s' hv' hn').1 (he.symm.trans h4); omega
    · exact hne rfl

theorem weaken (h : VarInv w dead vals) {dead' : Nat → Prop} (hd : ∀ v, dead v → dead' v) :
    VarInv w dead' vals :=
  ⟨h.len, fun v s hv hn => h.var v s hv fun x => hn (hd v x), fun v v' s s' h1 h2 h3 h4 =>
    h.apart v v' s s' h1 h2 (fun x => h3 (hd _ x)) fun x => h4 (hd _ x)⟩

end VarInv

/-! ## Methods that append -/

/-- Builders and variables have what they should, and only one of them can write to an array. -/
structure OwnInv (w : CallerWorld α) (spent : List Nat) (dead : Nat → Prop)
    (vals : CallerValues α) (es : List (TEntry α)) : Prop where
  vars : VarInv w dead vals
  refs : w.refs = es.map (·.slice)
  ideals : vals.refs = es.map (·.content)
  vers : ∀ i (e : TEntry α), es[i]? = some e → e.ver = i
  tracked : Tracked w.store spent es
  foreign : Foreign w dead

namespace OwnInv
variable {w : CallerWorld α} {spent : List Nat} {dead : Nat → Prop} {vals : CallerValues α}
  {es : List (TEntry α)}

theorem weaken (h : OwnInv w spent dead vals es) {spent' : List Nat} {dead' : Nat → Prop}
    (hs : ∀ v, v ∈ spent → v ∈ spent') (hd : ∀ v, dead v → dead' v) :
    OwnInv w spent' dead' vals es :=
  ⟨h.vars.weaken hd, h.refs, h.ideals, h.vers, h.tracked.weaken hs,
    fun v s hv hn => h.foreign v s hv fun x => hn (hd v x)⟩

theorem vers_snoc (h : OwnInv w spent dead vals es) (s : Slice) (c : List α) (i : Nat)
    (e : TEntry α) (he : (es ++ [⟨s, es.length, c⟩])[i]? = some e) : e.ver = i := by
  by_cases hlt : i < es.length
  · rw [List.getElem?_append_left hlt] at he; exact h.vers i e he
  · have hlt2 := (List.getElem?_eq_some_iff.1 he).1
    simp only [List.length_append, List.length_singleton] at hlt2
    have : i = es.length := by omega
    subst this
    rw [List.getElem?_concat_length] at he
    cases he; rfl

/-- An array that nobody uses. -/
theorem alloc (h : OwnInv w spent dead vals es) (xs : List α) :
    OwnInv ⟨(w.store.alloc xs).1, w.vars, w.refs⟩ spent dead vals es := by
  obtain ⟨_, _, _, _, h5⟩ := Store.alloc_spec w.store xs
  exact ⟨h.vars.move (fun _ h => h) fun v s hv hn => h5 s (h.vars.var v s hv hn).1, h.refs,
    h.ideals, h.vers, h.tracked.move fun e he => h5 _ (h.tracked.valid e he), h.foreign⟩

/-- A builder appends to its slice. -/
theorem extend (g : Growth) (h : OwnInv w spent dead vals es) {b : Nat} {e : TEntry α}
    (hb : es[b]? = some e) (hs : b ∉ spent) (xs : List α) :
    OwnInv ⟨(w.store.append g e.slice xs).1, w.vars, w.refs ++ [(w.store.append g e.slice xs).2]⟩
      (b :: spent) dead ⟨vals.vars, vals.refs ++ [e.content ++ xs]⟩
      (es ++ [⟨(w.store.append g e.slice xs).2, es.length, e.content ++ xs⟩]) := by
  have hm : e ∈ es := List.mem_of_getElem? hb
  have hver : e.ver = b := h.vers b e hb
  have hs' : e.ver ∉ spent := by rw [hver]; exact hs
  have hx := Ext.append g xs (h.tracked.valid e hm) (h.tracked.full e hm hs')
  have hne : ∀ v s, w.vars[v]? = some s → ¬ dead v → s.arr = none ∨ s.arr ≠ e.slice.arr := by
    intro v s hv hn
    by_cases ha : s.arr = none
    · exact .inl ha
    · exact .inr fun heq => h.foreign v s hv hn ha e.slice
        (by rw [h.refs]; exact List.mem_map_of_mem hm) heq.symm
  refine ⟨h.vars.move (fun _ h => h) fun v s hv hn => ?_, by simp [h.refs], by simp [h.ideals],
    h.vers_snoc _ _, ?_, ?_⟩
  · obtain ⟨h1, h2, h3⟩ := hx.other s (h.vars.var v s hv hn).1
    exact ⟨h1, h2, h3 (hne v s hv hn)⟩
  · have := h.tracked.append g hm hs' xs
    rw [hver] at this
    exact this
  · intro v s hv hn ha r hr
    rcases List.mem_append.1 hr with hr | hr
    · exact h.foreign v s hv hn ha r hr
    · simp only [List.mem_singleton] at hr; subst hr
      intro heq
      rcases hx.arr with h4 | ⟨a, hle, h4⟩
      · rcases hne v s hv hn with h5 | h5
        · exact ha h5
        · exact h5 (heq.symm.trans h4)
      · have := Store.valid_lt (h.vars.var v s hv hn).1 (heq.symm.trans h4)
        omega

/-- A builder keeps a slice. -/
theorem keep (h : OwnInv w spent dead vals es) {dead' : Nat → Prop} (hd : ∀ v, dead v → dead' v)
    {s : Slice} {c : List α} (hv : s.Valid w.store) (hf : s.Full w.store)
    (hr : w.store.read s = c)
    (ha : ∀ v t, w.vars[v]? = some t → ¬ dead' v → t.arr ≠ none → s.arr ≠ t.arr)
    (hex : ∀ r ∈ w.refs, s.arr = r.arr → s.arr = none) :
    OwnInv ⟨w.store, w.vars, w.refs ++ [s]⟩ spent dead' ⟨vals.vars, vals.refs ++ [c]⟩
      (es ++ [⟨s, es.length, c⟩]) := by
  refine ⟨(h.vars.move hd fun v s hv hn =>
    ⟨rfl, (h.vars.var v s hv fun x => hn (hd v x)).1, fun h => h⟩), by simp [h.refs],
    by simp [h.ideals], h.vers_snoc _ _, ?_, ?_⟩
  · exact h.tracked.push (fun _ h => h) hr hv hf
      (fun e he => ⟨rfl, h.tracked.valid e he, h.tracked.full e he⟩)
      fun e he _ heq => hex e.slice (by rw [h.refs]; exact List.mem_map_of_mem he) heq
  · intro v t hv' hn hta r hr'
    rcases List.mem_append.1 hr' with hr' | hr'
    · exact h.foreign v t hv' (fun x => hn (hd v x)) hta r hr'
    · simp only [List.mem_singleton] at hr'; subst hr'
      exact ha v t hv' hn hta

end OwnInv

/-- The method appends the elements of the slice; if `keep`, it may keep the slice when it has
nothing to append to. -/
def Appends (g : Growth) (keep : Bool) (takes : Takes α) : Prop :=
  ∀ st b args, takes st b args = .ok (st.append g b (st.read args)) ∨
    (keep = true ∧ st.read b = [] ∧ takes st b args = .ok (st, args))

theorem ownInv_step (g : Growth) {keep : Bool} {takes : Takes α} (ht : Appends g keep takes)
    {w : CallerWorld α} {spent : List Nat} {dead : Nat → Prop} {vals : CallerValues α}
    {es : List (TEntry α)} (h : OwnInv w spent dead vals es) (op : CallerAct α)
    (hs : ∀ b, op.receiver = some b → b ∉ spent) (hd : ∀ v, dead v → op.uses v = false) :
    ∃ es', OwnInv (w.step g takes op) (op.receiver.toList ++ spent)
      (fun v => dead v ∨ (keep = true ∧ op.given = some v))
      (vals.step (fun l xs => .ok (l ++ xs)) op) es' := by
  cases op with
  | make xs spare =>
    obtain ⟨h1, h2, h3, h4, h5⟩ := Store.make_spec w.store xs spare
    refine ⟨es, OwnInv.weaken (dead := dead) ?_ (fun _ h => h) fun _ => .inl⟩
    refine ⟨h.vars.push xs spare, h.refs, h.ideals, h.vers,
      h.tracked.move fun e he => h5 _ (h.tracked.valid e he), ?_⟩
    intro v s hv hn ha r hr
    by_cases hlt : v < w.vars.length
    · refine h.foreign v s ?_ hn ha r hr
      rw [← List.getElem?_append_left hlt]
      exact hv
    · have hlt2 := (List.getElem?_eq_some_iff.1 hv).1
      simp only [CallerWorld.step, List.length_append, List.length_singleton] at hlt2
      have : v = w.vars.length := by omega
      subst this
      have hv' : (w.vars ++ [(w.store.make xs spare).2])[w.vars.length]? = some s := hv
      rw [List.getElem?_concat_length] at hv'
      cases hv'
      rw [h4]
      intro heq
      have hr' : r ∈ w.refs := hr
      rw [h.refs] at hr'
      obtain ⟨e, he, rfl⟩ := List.mem_map.1 hr'
      have := Store.valid_lt (h.tracked.valid e he) heq
      omega
  | assign v i x =>
    refine ⟨es, OwnInv.weaken (dead := dead) ?_ (fun _ h => h) fun _ => .inl⟩
    have hnd : ¬ dead v := fun hv => by simpa [CallerAct.uses] using hd v hv
    simp only [CallerWorld.step, CallerValues.step]
    cases hv : w.vars[v]? with
    | none =>
      have : vals.vars[v]? = none := by
        rw [List.getElem?_eq_none_iff, ← h.vars.len]
        exact List.getElem?_eq_none_iff.1 hv
      simp only [this]
      exact h
    | some s =>
      obtain ⟨h1, h2, h3⟩ := h.vars.var v s hv hnd
      simp only [h3]
      rcases Store.assign_spec i x h1 h2 with ⟨_, h4, h5⟩ | ⟨a, st', h4, h5, h6, h7, h8, h9⟩
      · rw [h4, h5]
        simp only
        have : vals.vars.set v (w.store.read s) = vals.vars := by
          apply List.ext_getElem?
          intro u
          by_cases huv : v = u
          · subst huv
            rw [List.getElem?_set_self (List.getElem?_eq_some_iff.1 h3).1, h3]
          · rw [List.getElem?_set_ne huv]
        rw [this]
        exact h
      · rw [h5]
        simp only
        have hset : w.vars.set v s = w.vars := by
          apply List.ext_getElem?
          intro u
          by_cases huv : v = u
          · subst huv
            rw [List.getElem?_set_self (List.getElem?_eq_some_iff.1 hv).1, hv]
          · rw [List.getElem?_set_ne huv]
        have ho : ∀ t : Slice, t.Valid w.store → t.arr = none ∨ t.arr ≠ s.arr →
            st'.read t = w.store.read t ∧ t.Valid st' ∧ (t.Full w.store → t.Full st') := by
          intro t htv hta
          subst h9
          refine Store.write_other htv ?_
          rcases hta with hta | hta
          · rw [hta]; exact fun e => by cases e
          · rw [← h4]; exact hta
        have := h.vars.update hv hnd (.inl rfl) h7 h8 ho
        rw [hset, h6] at this
        refine ⟨this, h.refs, h.ideals, h.vers, h.tracked.move fun e he => ?_, h.foreign⟩
        refine ho e.slice (h.tracked.valid e he) (.inr ?_)
        exact h.foreign v s hv hnd (by rw [h4]; exact fun e => by cases e) e.slice
          (by rw [h.refs]; exact List.mem_map_of_mem he)
  | grow v xs =>
    refine ⟨es, OwnInv.weaken (dead := dead) ?_ (fun _ h => h) fun _ => .inl⟩
    have hnd : ¬ dead v := fun hv => by simpa [CallerAct.uses] using hd v hv
    simp only [CallerWorld.step, CallerValues.step]
    cases hv : w.vars[v]? with
    | none =>
      have : vals.vars[v]? = none := by
        rw [List.getElem?_eq_none_iff, ← h.vars.len]
        exact List.getElem?_eq_none_iff.1 hv
      simp only [this]
      exact h
    | some s =>
      obtain ⟨h1, h2, h3⟩ := h.vars.var v s hv hnd
      have hx := Ext.append g xs h1 h2
      have hread := (Store.append_spec g (xs := xs) h1 h2).1
      simp only [h3]
      have := h.vars.update hv hnd hx.arr hx.valid hx.full
        fun t htv hta => ⟨(hx.other t htv).1, (hx.other t htv).2.1, (hx.other t htv).2.2 hta⟩
      rw [hread] at this
      have hne : ∀ e ∈ es, e.slice.arr = none ∨ e.slice.arr ≠ s.arr := by
        intro e he
        by_cases ha : e.slice.arr = none
        · exact .inl ha
        · refine .inr fun heq => ?_
          exact h.foreign v s hv hnd (by rw [← heq]; exact ha) e.slice
            (by rw [h.refs]; exact List.mem_map_of_mem he) heq
      refine ⟨this, h.refs, h.ideals, h.vers, h.tracked.move fun e he => ?_, ?_⟩
      · obtain ⟨a, b, c⟩ := hx.other e.slice (h.tracked.valid e he)
        exact ⟨a, b, c (hne e he)⟩
      · intro u t hu hn ha r hr
        by_cases huv : v = u
        · subst huv
          have hu' : (w.vars.set v (w.store.append g s xs).2)[v]? = some t := hu
          rw [List.getElem?_set_self (List.getElem?_eq_some_iff.1 hv).1] at hu'
          cases hu'
          have hr' : r ∈ w.refs := hr
          rcases hx.arr with h4 | ⟨a, hle, h4⟩
          · rw [h4] at ha ⊢
            exact h.foreign v s hv hnd ha r hr'
          · intro heq
            rw [h.refs] at hr'
            obtain ⟨e, he, rfl⟩ := List.mem_map.1 hr'
            have := Store.valid_lt (h.tracked.valid e he) (heq.trans h4)
            omega
        · have hu' : (w.vars.set v (w.store.append g s xs).2)[u]? = some t := hu
          rw [List.getElem?_set_ne huv] at hu'
          exact h.foreign u t hu' hn ha r hr
  | new =>
    refine ⟨es ++ [⟨.nil, es.length, []⟩],
      OwnInv.weaken (dead := dead) ?_ (fun _ h => h) fun _ => .inl⟩
    · exact h.keep (fun _ h => h) (.inl ⟨rfl, rfl⟩) (fun _ _ ha => by cases ha) rfl
        (fun v t _ _ ha e => ha e.symm) fun _ _ _ => rfl
  | give b v =>
    have hnd : ¬ dead v := fun hv => by simpa [CallerAct.uses] using hd v hv
    have hbs : b ∉ spent := hs b rfl
    simp only [CallerWorld.step, CallerValues.step, h.refs, h.ideals, List.getElem?_map]
    have hsame : OwnInv w ((CallerAct.give (α := α) b v).receiver.toList ++ spent)
        (fun u => dead u ∨ (keep = true ∧ (CallerAct.give (α := α) b v).given = some u)) vals es :=
      h.weaken (fun u hu => List.mem_append.2 (.inr hu)) fun _ => .inl
    cases hb : es[b]? with
    | none => exact ⟨es, hsame⟩
    | some e =>
      cases hv : w.vars[v]? with
      | none =>
        have : vals.vars[v]? = none := by
          rw [List.getElem?_eq_none_iff, ← h.vars.len]
          exact List.getElem?_eq_none_iff.1 hv
        simp only [this, Option.map_some]
        exact ⟨es, hsame⟩
      | some s =>
        have hm : e ∈ es := List.mem_of_getElem? hb
        obtain ⟨h1, h2, h3⟩ := h.vars.var v s hv hnd
        simp only [h3, Option.map_some]
        rw [← h.ideals, ← h.refs]
        rcases ht w.store e.slice s with h4 | ⟨hk, h4, h5⟩
        · rw [h4]
          exact ⟨_, (h.extend g hb hbs _).weaken (fun _ h => h) fun _ => .inl⟩
        · rw [h5]
          have hc : e.content = [] := by rw [← h.tracked.read e hm, h4]
          rw [hc, List.nil_append]
          refine ⟨_, (h.keep (dead' := fun u => dead u ∨
            (keep = true ∧ (CallerAct.give (α := α) b v).given = some u)) (fun _ => .inl) h1 h2
            rfl ?_ ?_).weaken (fun u hu => List.mem_append.2 (.inr hu)) fun _ h => h⟩
          · intro u t hu hn hta heq
            have huv : u ≠ v := fun e => hn (.inr ⟨hk, by subst e; rfl⟩)
            exact h.vars.apart u v t s hu hv (fun x => hn (.inl x)) hnd huv hta heq.symm
          · intro r hr heq
            cases hsa : s.arr with
            | none => rfl
            | some a =>
              exact absurd heq.symm (h.foreign v s hv hnd (by rw [hsa]; exact fun e => by cases e)
                r hr)
  | pass b xs =>
    have hbs : b ∉ spent := hs b rfl
    simp only [CallerWorld.step, CallerValues.step, h.refs, h.ideals, List.getElem?_map]
    have hsame : OwnInv w ((CallerAct.pass b xs).receiver.toList ++ spent)
        (fun u => dead u ∨ (keep = true ∧ (CallerAct.pass b xs).given = some u)) vals es :=
      h.weaken (fun u hu => List.mem_append.2 (.inr hu)) fun _ => .inl
    cases hb : es[b]? with
    | none => exact ⟨es, hsame⟩
    | some e =>
      have hm : e ∈ es := List.mem_of_getElem? hb
      obtain ⟨h1, h2, h3, h4, h5⟩ := Store.alloc_spec w.store xs
      have ha := h.alloc xs
      simp only [Option.map_some]
      rw [← h.ideals, ← h.refs]
      rcases ht (w.store.alloc xs).1 e.slice (w.store.alloc xs).2 with h6 | ⟨hk, h6, h7⟩
      · rw [h6]
        simp only
        rw [h1]
        exact ⟨_, (ha.extend g hb hbs xs).weaken (fun _ h => h) fun _ => .inl⟩
      · rw [h7]
        have hc : e.content = [] := by rw [← ha.tracked.read e hm]; exact h6
        rw [hc, List.nil_append]
        refine ⟨_, (ha.keep (dead' := dead) (fun _ h => h) h2 h3 h1 ?_ ?_).weaken
          (fun u hu => List.mem_append.2 (.inr hu)) fun _ => .inl⟩
        · intro u t hu hn hta heq
          have := Store.valid_lt (h.vars.var u t hu hn).1 (heq.symm.trans h4)
          omega
        · intro r hr heq
          have hr' : r ∈ w.refs := hr
          rw [h.refs] at hr'
          obtain ⟨e', he', rfl⟩ := List.mem_map.1 hr'
          have := Store.valid_lt (h.tracked.valid e' he') (heq.symm.trans h4)
          omega

theorem ownInv_run (g : Growth) {keep : Bool} {takes : Takes α} (ht : Appends g keep takes)
    (ops : List (CallerAct α)) : ∀ {w : CallerWorld α} {spent : List Nat} {dead : Nat → Prop}
    {vals : CallerValues α} {es : List (TEntry α)}, OwnInv w spent dead vals es →
    (∀ b ∈ ops.filterMap CallerAct.receiver, b ∉ spent) → UsedOnce ops →
    (∀ v, dead v → ∀ c ∈ ops, c.uses v = false) → (keep = true → HandsOver ops) →
    ∃ spent' dead' es', OwnInv (ops.foldl (CallerWorld.step g takes) w) spent' dead'
      (ops.foldl (CallerValues.step fun l xs => .ok (l ++ xs)) vals) es' ∧
      (keep = false → (∀ v, ¬ dead v) → ∀ v, ¬ dead' v) := by
  induction ops with
  | nil => exact fun h _ _ _ _ => ⟨_, _, _, h, fun _ h => h⟩
  | cons op l ih =>
    intro w spent dead vals es h hs hu hd hh
    have hs1 : ∀ b, op.receiver = some b → b ∉ spent := fun b hb =>
      hs b (List.mem_filterMap.2 ⟨op, List.mem_cons_self, hb⟩)
    obtain ⟨es', h'⟩ := ownInv_step g ht h op hs1 fun v hv => hd v hv op List.mem_cons_self
    have hu' : UsedOnce l := by
      unfold UsedOnce at hu ⊢
      rw [List.filterMap_cons] at hu
      split at hu
      · exact hu
      · exact (List.nodup_cons.1 hu).2
    have hs2 : ∀ b ∈ l.filterMap CallerAct.receiver, b ∉ op.receiver.toList ++ spent := by
      intro b hb hm
      rcases List.mem_append.1 hm with hm | hm
      · have hr : op.receiver = some b := by simpa using hm
        unfold UsedOnce at hu
        rw [List.filterMap_cons, hr] at hu
        exact (List.nodup_cons.1 hu).1 hb
      · obtain ⟨c, hc, hcb⟩ := List.mem_filterMap.1 hb
        exact hs b (List.mem_filterMap.2 ⟨c, List.mem_cons_of_mem _ hc, hcb⟩) hm
    obtain ⟨sp, de, es'', h1, h2⟩ := ih h' hs2 hu' (by
      rintro v (hv | ⟨hk, hv⟩) c hc
      · exact hd v hv c (List.mem_cons_of_mem _ hc)
      · exact (hh hk).1 v hv c hc) fun hk => (hh hk).2
    refine ⟨sp, de, es'', h1, fun hk hv => h2 hk fun v hx => ?_⟩
    rcases hx with hx | ⟨hx, _⟩
    · exact hv v hx
    · rw [hk] at hx; cases hx

theorem varInv_start (dead : Nat → Prop) :
    VarInv (⟨[], [], []⟩ : CallerWorld α) dead ⟨[], []⟩ :=
  ⟨rfl, fun v s hv => by simp at hv, fun v v' s s' hv => by simp at hv⟩

theorem ownInv_start : OwnInv (⟨[], [], []⟩ : CallerWorld α) [] (fun _ => False) ⟨[], []⟩ [] :=
  ⟨varInv_start _, rfl, rfl, fun i e he => by simp at he, Tracked.start,
    fun v s hv => by simp at hv⟩

/-- Without dead variables, all variables have what they should. -/
theorem VarInv.reads {w : CallerWorld α} {dead : Nat → Prop} {vals : CallerValues α}
    (h : VarInv w dead vals) (hd : ∀ v, ¬ dead v) : w.vars.map w.store.read = vals.vars := by
  apply List.ext_getElem?
  intro v
  rw [List.getElem?_map]
  cases hv : w.vars[v]? with
  | none =>
    rw [Option.map_none, eq_comm, List.getElem?_eq_none_iff, ← h.len]
    exact List.getElem?_eq_none_iff.1 hv
  | some s => rw [(h.var v s hv (hd v)).2.2]; rfl

theorem OwnInv.reads {w : CallerWorld α} {spent : List Nat} {dead : Nat → Prop}
    {vals : CallerValues α} {es : List (TEntry α)} (h : OwnInv w spent dead vals es) :
    w.refs.map w.store.read = vals.refs := by
  rw [h.refs, h.ideals, List.map_map]
  exact List.map_congr_left fun e he => h.tracked.read e he

/-! ## Methods that keep the slice -/

/-- The method keeps the slice or panics, and decides this by the elements. -/
def Keeps (takes : Takes α) (method : List α → List α → Go (List α)) : Prop :=
  ∀ st b args,
    (∃ p q, takes st b args = .error p ∧ method (st.read b) (st.read args) = .error q) ∨
    (takes st b args = .ok (st, args) ∧
      method (st.read b) (st.read args) = .ok (st.read args))

/-- Builders and variables have what they should, and no variable that can be written to has its
array in common with a builder. -/
structure KeepInv (w : CallerWorld α) (given : Nat → Prop) (vals : CallerValues α) : Prop where
  vars : VarInv w (fun _ => False) vals
  valid : ∀ r ∈ w.refs, r.Valid w.store
  ideals : vals.refs = w.refs.map w.store.read
  foreign : Foreign w given

namespace KeepInv
variable {w : CallerWorld α} {given : Nat → Prop} {vals : CallerValues α}

theorem var (h : KeepInv w given vals) {v : Nat} {s : Slice} (hv : w.vars[v]? = some s) :
    s.Valid w.store ∧ s.Full w.store ∧ vals.vars[v]? = some (w.store.read s) :=
  h.vars.var v s hv fun x => x

theorem weaken (h : KeepInv w given vals) {given' : Nat → Prop} (hd : ∀ v, given v → given' v) :
    KeepInv w given' vals :=
  ⟨h.vars, h.valid, h.ideals, fun v s hv hn => h.foreign v s hv fun x => hn (hd v x)⟩

theorem vals_none (h : KeepInv w given vals) {v : Nat} (hv : w.vars[v]? = none) :
    vals.vars[v]? = none := by
  rw [List.getElem?_eq_none_iff, ← h.vars.len]
  exact List.getElem?_eq_none_iff.1 hv

/-- The memory changes, but not for the slices there are. -/
theorem reads (h : KeepInv w given vals) {st' : Store α}
    (hs : ∀ r ∈ w.refs, st'.read r = w.store.read r) :
    vals.refs = w.refs.map st'.read := by
  rw [h.ideals]
  exact (List.map_congr_left hs).symm

end KeepInv

theorem set_same {β : Type} {l : List β} {v : Nat} {x : β} (h : l[v]? = some x) :
    l.set v x = l := by
  apply List.ext_getElem?
  intro u
  by_cases huv : v = u
  · subst huv
    rw [List.getElem?_set_self (List.getElem?_eq_some_iff.1 h).1, h]
  · rw [List.getElem?_set_ne huv]

theorem keepInv_step (g : Growth) {takes : Takes α} {method : List α → List α → Go (List α)}
    (ht : Keeps takes method) {w : CallerWorld α} {given : Nat → Prop} {vals : CallerValues α}
    (h : KeepInv w given vals) (op : CallerAct α) (hd : ∀ v, given v → op.assigns v = false) :
    KeepInv (w.step g takes op) (fun v => given v ∨ op.given = some v) (vals.step method op) := by
  cases op with
  | make xs spare =>
    obtain ⟨h1, h2, h3, h4, h5⟩ := Store.make_spec w.store xs spare
    refine KeepInv.weaken (given := given) ?_ fun _ => .inl
    refine ⟨h.vars.push xs spare, fun r hr => (h5 r (h.valid r hr)).2.1,
      h.reads fun r hr => (h5 r (h.valid r hr)).1, ?_⟩
    intro v s hv hn ha r hr
    by_cases hlt : v < w.vars.length
    · refine h.foreign v s ?_ hn ha r hr
      rw [← List.getElem?_append_left hlt]
      exact hv
    · have hlt2 := (List.getElem?_eq_some_iff.1 hv).1
      simp only [CallerWorld.step, List.length_append, List.length_singleton] at hlt2
      have : v = w.vars.length := by omega
      subst this
      have hv' : (w.vars ++ [(w.store.make xs spare).2])[w.vars.length]? = some s := hv
      rw [List.getElem?_concat_length] at hv'
      cases hv'
      rw [h4]
      intro heq
      have := Store.valid_lt (h.valid r hr) heq
      omega
  | assign v i x =>
    refine KeepInv.weaken (given := given) ?_ fun _ => .inl
    have hnd : ¬ given v := fun hv => by simpa [CallerAct.assigns] using hd v hv
    simp only [CallerWorld.step, CallerValues.step]
    cases hv : w.vars[v]? with
    | none => simp only [h.vals_none hv]; exact h
    | some s =>
      obtain ⟨h1, h2, h3⟩ := h.var hv
      simp only [h3]
      rcases Store.assign_spec i x h1 h2 with ⟨_, h4, h5⟩ | ⟨a, st', h4, h5, h6, h7, h8, h9⟩
      · rw [h4, h5]
        simp only
        rw [set_same h3]
        exact h
      · rw [h5]
        simp only
        have ho : ∀ t : Slice, t.Valid w.store → t.arr = none ∨ t.arr ≠ s.arr →
            st'.read t = w.store.read t ∧ t.Valid st' ∧ (t.Full w.store → t.Full st') := by
          intro t htv hta
          subst h9
          refine Store.write_other htv ?_
          rcases hta with hta | hta
          · rw [hta]; exact fun e => by cases e
          · rw [← h4]; exact hta
        have := h.vars.update hv (fun x => x) (.inl rfl) h7 h8 ho
        rw [set_same hv, h6] at this
        have hr : ∀ r ∈ w.refs, st'.read r = w.store.read r ∧ r.Valid st' := by
          intro r hr
          have := ho r (h.valid r hr) (.inr (h.foreign v s hv hnd
            (by rw [h4]; exact fun e => by cases e) r hr))
          exact ⟨this.1, this.2.1⟩
        exact ⟨this, fun r hr' => (hr r hr').2, h.reads fun r hr' => (hr r hr').1, h.foreign⟩
  | grow v xs =>
    refine KeepInv.weaken (given := given) ?_ fun _ => .inl
    simp only [CallerWorld.step, CallerValues.step]
    cases hv : w.vars[v]? with
    | none => simp only [h.vals_none hv]; exact h
    | some s =>
      obtain ⟨h1, h2, h3⟩ := h.var hv
      have hx := Ext.append g xs h1 h2
      have hread := (Store.append_spec g (xs := xs) h1 h2).1
      simp only [h3]
      have := h.vars.update hv (fun x => x) hx.arr hx.valid hx.full
        fun t htv hta => ⟨(hx.other t htv).1, (hx.other t htv).2.1, (hx.other t htv).2.2 hta⟩
      rw [hread] at this
      refine ⟨this, fun r hr => (hx.other r (h.valid r hr)).2.1,
        h.reads fun r hr => (hx.other r (h.valid r hr)).1, ?_⟩
      intro u t hu hn ha r hr
      have hr' : r ∈ w.refs := hr
      have hu' : (w.vars.set v (w.store.append g s xs).2)[u]? = some t := hu
      by_cases huv : v = u
      · subst huv
        rw [List.getElem?_set_self (List.getElem?_eq_some_iff.1 hv).1] at hu'
        cases hu'
        rcases hx.arr with h4 | ⟨a, hle, h4⟩
        · rw [h4] at ha ⊢
          exact h.foreign v s hv hn ha r hr'
        · intro heq
          have := Store.valid_lt (h.valid r hr') (heq.trans h4)
          omega
      · rw [List.getElem?_set_ne huv] at hu'
        exact h.foreign u t hu' hn ha r hr
  | new =>
    refine KeepInv.weaken (given := given) ?_ fun _ => .inl
    refine ⟨⟨h.vars.len, h.vars.var, h.vars.apart⟩, ?_, ?_, ?_⟩
    · intro r hr
      rcases List.mem_append.1 hr with hr | hr
      · exact h.valid r hr
      · simp only [List.mem_singleton] at hr; subst hr; exact .inl ⟨rfl, rfl⟩
    · simp only [CallerWorld.step, CallerValues.step, h.ideals, List.map_append, List.map_cons,
        List.map_nil]
      rfl
    · intro v s hv hn ha r hr
      rcases List.mem_append.1 hr with hr | hr
      · exact h.foreign v s hv hn ha r hr
      · simp only [List.mem_singleton] at hr; subst hr
        exact fun e => ha e.symm
  | give b v =>
    simp only [CallerWorld.step, CallerValues.step, h.ideals, List.getElem?_map]
    cases hb : w.refs[b]? with
    | none => exact h.weaken fun _ => .inl
    | some r =>
      cases hv : w.vars[v]? with
      | none => simp only [h.vals_none hv, Option.map_some]; exact h.weaken fun _ => .inl
      | some s =>
        obtain ⟨h1, h2, h3⟩ := h.var hv
        simp only [h3, Option.map_some]
        rcases ht w.store r s with ⟨p, q, h4, h5⟩ | ⟨h4, h5⟩
        · rw [h4, h5]; exact h.weaken fun _ => .inl
        · rw [h4, h5]
          refine ⟨⟨h.vars.len, h.vars.var, h.vars.apart⟩, ?_, ?_, ?_⟩
          · intro r hr
            rcases List.mem_append.1 hr with hr | hr
            · exact h.valid r hr
            · simp only [List.mem_singleton] at hr; subst hr; exact h1
          · simp
          · intro u t hu hn ha r hr
            rcases List.mem_append.1 hr with hr | hr
            · exact h.foreign u t hu (fun x => hn (.inl x)) ha r hr
            · simp only [List.mem_singleton] at hr; subst hr
              have huv : u ≠ v := fun e => hn (.inr (by subst e; rfl))
              exact fun e => h.vars.apart u v t r hu hv (fun x => x) (fun x => x) huv ha e.symm
  | pass b xs =>
    refine KeepInv.weaken (given := given) ?_ fun _ => .inl
    simp only [CallerWorld.step, CallerValues.step, h.ideals, List.getElem?_map]
    cases hb : w.refs[b]? with
    | none => exact h
    | some r =>
      obtain ⟨h1, h2, h3, h4, h5⟩ := Store.alloc_spec w.store xs
      have hrb := (h5 r (h.valid r (List.mem_of_getElem? hb))).1
      simp only [Option.map_some]
      have h6 := ht (w.store.alloc xs).1 r (w.store.alloc xs).2
      rw [h1, hrb] at h6
      rcases h6 with ⟨p, q, h6, h7⟩ | ⟨h6, h7⟩
      · rw [h6, h7]; exact h
      · rw [h6, h7]
        refine ⟨?_, ?_, ?_, ?_⟩
        · exact h.vars.move (fun _ h => h) fun v s hv hn => h5 s (h.vars.var v s hv hn).1
        · intro r hr
          rcases List.mem_append.1 hr with hr | hr
          · exact (h5 r (h.valid r hr)).2.1
          · simp only [List.mem_singleton] at hr; subst hr; exact h2
        · simp only [List.map_append, List.map_cons, List.map_nil, h1]
          rw [List.map_congr_left fun r hr => (h5 r (h.valid r hr)).1]
        · intro u t hu hn ha r hr
          rcases List.mem_append.1 hr with hr | hr
          · exact h.foreign u t hu hn ha r hr
          · simp only [List.mem_singleton] at hr; subst hr
            intro heq
            have := Store.valid_lt (h.var (v := u) hu).1 (heq.symm.trans h4)
            omega

theorem keepInv_run (g : Growth) {takes : Takes α} {method : List α → List α → Go (List α)}
    (ht : Keeps takes method) (ops : List (CallerAct α)) : ∀ {w : CallerWorld α}
    {given : Nat → Prop} {vals : CallerValues α}, KeepInv w given vals →
    (∀ v, given v → ∀ c ∈ ops, c.assigns v = false) → ReadOnlyOnceGiven ops →
    ∃ given', KeepInv (ops.foldl (CallerWorld.step g takes) w) given'
      (ops.foldl (CallerValues.step method) vals) := by
  induction ops with
  | nil => exact fun h _ _ => ⟨_, h⟩
  | cons op l ih =>
    intro w given vals h hd hh
    refine ih (keepInv_step g ht h op fun v hv => hd v hv op List.mem_cons_self) ?_ hh.2
    rintro v (hv | hv) c hc
    · exact hd v hv c (List.mem_cons_of_mem _ hc)
    · exact hh.1 v hv c hc

theorem keepInv_start : KeepInv (⟨[], [], []⟩ : CallerWorld α) (fun _ => False) ⟨[], []⟩ :=
  ⟨varInv_start _, by simp, rfl, fun v s hv => by simp at hv⟩

end Verif
