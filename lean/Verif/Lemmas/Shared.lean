import Verif.Lemmas.Caller
import Verif.Lemmas.Fork
import Verif.Spec.Shared

/-!
# Methods that keep the slice: what all programs do
-/

namespace Verif
open Spec
variable {α : Type}

/-- How memory and the description with attached builders hang together. -/
structure SharedInv (w : CallerWorld α) (vals : SharedValues α) : Prop where
  vars : VarInv w (fun _ => False) vals.values
  room : ∀ (v : Nat) (s : Slice), w.vars[v]? = some s →
    s.arr ≠ none ∧ (vals.vars[v]?).map SharedVar.room = some (w.store.cap s)
  arrays : vals.arrays = w.store.length
  len : w.refs.length = vals.refs.length
  ref : ∀ (k : Nat) (r : Slice) (e : SharedRef α), w.refs[k]? = some r → vals.refs[k]? = some e →
    r.Valid w.store ∧ w.store.read r = e.elems ∧
      ∀ v s, w.vars[v]? = some s → (r.arr = s.arr ↔ e.to = some v)
  bound : ∀ e ∈ vals.refs, ∀ v, e.to = some v → v < w.vars.length

theorem cap_write {st : Store α} {a pos : Nat} {xs : List α} (s : Slice) :
    (st.write a pos xs).cap s = st.cap s := by
  unfold Store.cap
  cases s.arr with
  | none => rfl
  | some b =>
    simp only [Store.write, List.getElem?_modify]
    cases st[b]? with
    | none => rfl
    | some z => by_cases h : a = b <;> simp [h]

theorem cap_snoc {st : Store α} {y : Arr α} {s : Slice} (hv : s.Valid st) :
    Store.cap (st ++ [y]) s = st.cap s := by
  rcases hv with ⟨hn, _⟩ | ⟨b, z, hb, hz, _⟩
  · unfold Store.cap; rw [hn]
  · rw [Store.cap_some hb hz, Store.cap_some hb (Store.get_snoc hz)]

namespace SharedInv
variable {w : CallerWorld α} {vals : SharedValues α}

theorem var (h : SharedInv w vals) {v : Nat} {s : Slice} (hv : w.vars[v]? = some s) :
    ∃ a, s.arr = some a ∧ vals.vars[v]? = some ⟨w.store.read s, w.store.cap s⟩ ∧
      s.Valid w.store ∧ s.Full w.store ∧ (w.store.read s).length = s.len := by
  obtain ⟨h1, h2, h3⟩ := h.vars.var v s hv fun x => x
  obtain ⟨h4, h5⟩ := h.room v s hv
  cases ha : s.arr with
  | none => exact absurd ha h4
  | some a =>
    refine ⟨a, rfl, ?_, h1, h2, ?_⟩
    · simp only [SharedValues.values, List.getElem?_map] at h3
      cases hx : vals.vars[v]? with
      | none => rw [hx] at h3; simp at h3
      | some x =>
        rw [hx] at h3 h5
        cases x
        simp only [Option.map_some, Option.some.injEq] at h3 h5
        rw [h3, h5]
    · rcases h1 with ⟨hn, _⟩ | ⟨b, z, hb, hz, h6, h7⟩
      · rw [hn] at ha; cases ha
      · rw [Store.read_some hb hz, List.length_take]; omega

theorem vals_none (h : SharedInv w vals) {v : Nat} (hv : w.vars[v]? = none) :
    vals.vars[v]? = none := by
  have := h.vars.len
  simp only [SharedValues.values, List.length_map] at this
  rw [List.getElem?_eq_none_iff, ← this]
  exact List.getElem?_eq_none_iff.1 hv

theorem refs_none (h : SharedInv w vals) {k : Nat} (hk : w.refs[k]? = none) :
    vals.refs[k]? = none := by
  rw [List.getElem?_eq_none_iff, ← h.len]
  exact List.getElem?_eq_none_iff.1 hk

theorem refs_some (h : SharedInv w vals) {k : Nat} {r : Slice} (hk : w.refs[k]? = some r) :
    ∃ e, vals.refs[k]? = some e := by
  have := (List.getElem?_eq_some_iff.1 hk).1
  rw [h.len] at this
  exact ⟨_, List.getElem?_eq_getElem this⟩

/-- A new builder. -/
theorem pushRef (h : SharedInv w vals) {st' : Store α} {n : Nat} {r : Slice} {e : SharedRef α}
    (hs : ∀ t : Slice, t.Valid w.store → st'.read t = w.store.read t ∧ t.Valid st' ∧
      (t.Full w.store → t.Full st') ∧ st'.cap t = w.store.cap t)
    (hn : n = st'.length) (hr : r.Valid st') (he : st'.read r = e.elems)
    (ht : ∀ v s, w.vars[v]? = some s → (r.arr = s.arr ↔ e.to = some v))
    (hb : ∀ v, e.to = some v → v < w.vars.length) :
    SharedInv ⟨st', w.vars, w.refs ++ [r]⟩ ⟨vals.vars, vals.refs ++ [e], n⟩ := by
  refine ⟨?_, ?_, hn, by simp [h.len], ?_, ?_⟩
  · exact h.vars.move (fun _ h => h) fun v s hv _ =>
      have := hs s (h.vars.var v s hv fun x => x).1
      ⟨this.1, this.2.1, this.2.2.1⟩
  · intro v s hv
    obtain ⟨h1, h2⟩ := h.room v s hv
    exact ⟨h1, by rw [(hs s (h.vars.var v s hv fun x => x).1).2.2.2]; exact h2⟩
  · intro k t f hk hf
    simp only at hk hf
    by_cases hlt : k < w.refs.length
    · rw [List.getElem?_append_left hlt] at hk
      rw [List.getElem?_append_left (by rw [← h.len]; exact hlt)] at hf
      obtain ⟨h1, h2, h3⟩ := h.ref k t f hk hf
      obtain ⟨h4, h5, _⟩ := hs t h1
      exact ⟨h5, h4.trans h2, h3⟩
    · have hlt2 := (List.getElem?_eq_some_iff.1 hk).1
      simp only [List.length_append, List.length_singleton] at hlt2
      have : k = w.refs.length := by omega
      subst this
      rw [List.getElem?_concat_length] at hk
      rw [h.len, List.getElem?_concat_length] at hf
      cases hk; cases hf
      exact ⟨hr, he, ht⟩
  · intro f hf
    rcases List.mem_append.1 hf with hf | hf
    · exact h.bound f hf
    · simp only [List.mem_singleton] at hf; subst hf; exact hb

end SharedInv

theorem sharedInv_step (g : Growth) {takes : Takes α} {method : List α → List α → Go (List α)}
    (ht : Keeps takes method) {w : CallerWorld α} {vals : SharedValues α}
    (h : SharedInv w vals) (op : CallerAct α) :
    SharedInv (w.step g takes op) (vals.step g method op) := by
  cases op with
  | make xs spare =>
    obtain ⟨h1, h2, h3, h4, h5⟩ := Store.make_spec w.store xs spare
    have hsplit : ∀ (v : Nat) (s : Slice), (w.vars ++ [(w.store.make xs spare).2])[v]? = some s →
        w.vars[v]? = some s ∨ (v = w.vars.length ∧ s = (w.store.make xs spare).2) := by
      intro v s hv
      by_cases hlt : v < w.vars.length
      · rw [List.getElem?_append_left hlt] at hv; exact .inl hv
      · have hlt2 := (List.getElem?_eq_some_iff.1 hv).1
        simp only [List.length_append, List.length_singleton] at hlt2
        have : v = w.vars.length := by omega
        subst this
        rw [List.getElem?_concat_length] at hv
        cases hv; exact .inr ⟨rfl, rfl⟩
    have hlen : w.vars.length = vals.vars.length := by
      simpa [SharedValues.values] using h.vars.len
    refine ⟨?_, ?_, ?_, h.len, ?_, ?_⟩
    · have := h.vars.push xs spare
      simp only [SharedValues.values, CallerWorld.step, SharedValues.step, List.map_append] at this ⊢
      exact this
    · intro v s hv
      simp only [CallerWorld.step, SharedValues.step] at hv ⊢
      rcases hsplit v s hv with hv | ⟨rfl, rfl⟩
      · obtain ⟨a, ha, hx, hval, _⟩ := h.var hv
        refine ⟨by rw [ha]; simp, ?_⟩
        rw [getElem?_snoc hx, Store.make, cap_snoc hval]
        rfl
      · refine ⟨by rw [h4]; simp, ?_⟩
        rw [hlen, List.getElem?_concat_length, Store.make, Store.cap_some rfl Store.get_last]
        rfl
    · simp [CallerWorld.step, SharedValues.step, Store.make, h.arrays]
    · intro k r e hr he
      obtain ⟨h6, h7, h8⟩ := h.ref k r e hr he
      refine ⟨(h5 r h6).2.1, (h5 r h6).1.trans h7, fun v s hv => ?_⟩
      rcases hsplit v s hv with hv | ⟨rfl, rfl⟩
      · exact h8 v s hv
      · constructor
        · intro heq
          have := Store.valid_lt h6 (heq.trans h4)
          omega
        · intro heq
          have := h.bound e (List.mem_of_getElem? he) _ heq
          omega
    · intro e he v hv
      have := h.bound e he v hv
      simp only [CallerWorld.step, List.length_append]
      omega
  | assign v i x =>
    simp only [CallerWorld.step, SharedValues.step]
    cases hv : w.vars[v]? with
    | none => simp only [h.vals_none hv]; exact h
    | some s =>
      obtain ⟨a, ha, hx, hval, hful, hlen⟩ := h.var hv
      simp only [hx, hlen]
      rcases Store.assign_spec i x hval hful with ⟨h3, h4, h5⟩ | ⟨a', st', h4, h5, h6, h7, h8, h9⟩
      · rw [h4, if_neg (by omega)]
        exact h
      · have hi : i < s.len := by
          unfold Store.assign at h5
          by_cases hi : i < s.len
          · exact hi
          · rw [if_neg hi] at h5; cases h5
        rw [h5, if_pos hi]
        rw [ha] at h4; cases h4
        subst h9
        simp only
        have ho : ∀ t : Slice, t.Valid w.store → t.arr = none ∨ t.arr ≠ s.arr →
            (w.store.write a i [x]).read t = w.store.read t ∧ t.Valid (w.store.write a i [x]) ∧
              (t.Full w.store → t.Full (w.store.write a i [x])) := by
          intro t htv hta
          refine Store.write_other htv ?_
          rcases hta with hta | hta
          · rw [hta]; exact fun e => by cases e
          · rw [← ha]; exact hta
        refine ⟨?_, ?_, ?_, by simp [h.len], ?_, ?_⟩
        · have := h.vars.update hv (fun x => x) (.inl rfl) h7 h8 ho
          rw [set_same hv, h6] at this
          exact ⟨by simpa [SharedValues.values] using this.len,
            fun u t hu hn => by
              simpa [SharedValues.values, List.getElem?_map, List.map_set] using this.var u t hu hn,
            this.apart⟩
        · intro u t hu
          obtain ⟨h10, h11⟩ := h.room u t hu
          refine ⟨h10, ?_⟩
          simp only [cap_write]
          rw [← h11, List.getElem?_set]
          by_cases huv : v = u
          · subst huv
            have hlt := (List.getElem?_eq_some_iff.1 hx).1
            rw [if_pos rfl, if_pos hlt, hx]
            rfl
          · simp [huv]
        · simp [Store.write, h.arrays]
        · intro k r e hr he
          simp only [List.getElem?_map] at he
          cases hf : vals.refs[k]? with
          | none => rw [hf] at he; cases he
          | some f =>
            rw [hf] at he; cases he
            obtain ⟨h10, h11, h12⟩ := h.ref k r f hr hf
            have hto : (SharedRef.assign v i x f).to = f.to := by
              unfold SharedRef.assign; split <;> rfl
            rw [hto]
            by_cases hrs : r.arr = s.arr
            · have hfv := (h12 v s hv).1 hrs
              rcases h10 with ⟨hn, _⟩ | ⟨b, z, hb, hz, h13, h14⟩
              · rw [hn, ha] at hrs; cases hrs
              · rw [hb, ha] at hrs
                cases hrs
                have hcl : s.len ≤ z.cells.length := by
                  rcases hval with ⟨hn, _⟩ | ⟨b, y, hb', hy, h15, h16⟩
                  · rw [hn] at ha; cases ha
                  · rw [ha] at hb'; cases hb'
                    rw [hz] at hy; cases hy
                    exact h15
                have hw := Store.get_write (a := a) (pos := i) (xs := [x]) hz
                rw [if_pos rfl] at hw
                have hc : z.cells.take i ++ [x] ++ z.cells.drop (i + [x].length) =
                    z.cells.set i x := by
                  rw [List.set_eq_take_append_cons_drop, if_pos (by omega)]; simp
                rw [hc] at hw
                refine ⟨.inr ⟨_, _, hb, hw, by simpa using h13, by simpa using h14⟩, ?_, h12⟩
                rw [Store.read_some hb hw]
                rw [Store.read_some hb hz] at h11
                simp only [SharedRef.assign, if_pos hfv, ← h11, List.take_set]
            · have hfv : f.to ≠ some v := fun e => hrs ((h12 v s hv).2 e)
              obtain ⟨h13, h14, _⟩ := ho r h10 (.inr hrs)
              refine ⟨h14, ?_, h12⟩
              rw [h13, h11]
              simp [SharedRef.assign, hfv]
        · intro e he u hu
          obtain ⟨f, hf, rfl⟩ := List.mem_map.1 he
          have hto : (SharedRef.assign v i x f).to = f.to := by
            unfold SharedRef.assign; split <;> rfl
          rw [hto] at hu
          exact h.bound f hf u hu
  | grow v xs =>
    simp only [CallerWorld.step, SharedValues.step]
    cases hv : w.vars[v]? with
    | none => simp only [h.vals_none hv]; exact h
    | some s =>
      obtain ⟨a, ha, hx, hval, hful, hlen⟩ := h.var hv
      have hlt := (List.getElem?_eq_some_iff.1 hx).1
      have hlt' := (List.getElem?_eq_some_iff.1 hv).1
      have hext := Ext.append g xs hval hful
      have hread := (Store.append_spec g (xs := xs) hval hful).1
      have hup := h.vars.update hv (fun x => x) hext.arr hext.valid hext.full
        fun t htv hta => ⟨(hext.other t htv).1, (hext.other t htv).2.1, (hext.other t htv).2.2 hta⟩
      rw [hread] at hup
      simp only [hx, hlen]
      by_cases hc : s.len + xs.length ≤ w.store.cap s
      · rw [if_pos hc]
        have hcase : (w.store.append g s xs).2.arr = some a ∧
            (∀ t, (w.store.append g s xs).1.cap t = w.store.cap t) ∧
            (w.store.append g s xs).1.length = w.store.length := by
          unfold Store.append
          by_cases he : xs.isEmpty = true
          · rw [if_pos he]; exact ⟨ha, fun _ => rfl, rfl⟩
          · rw [if_neg he, ha]
            simp only [if_pos hc]
            exact ⟨trivial, fun t => cap_write t, by simp [Store.write]⟩
        obtain ⟨hc1, hc2, hc3⟩ := hcase
        refine ⟨?_, ?_, h.arrays.trans hc3.symm, h.len, ?_, ?_⟩
        · exact ⟨by simpa [SharedValues.values] using hup.len,
            fun u t hu hn => by
              simpa [SharedValues.values, List.getElem?_map, List.map_set] using hup.var u t hu hn,
            hup.apart⟩
        · intro u t hu
          simp only [hc2]
          simp only at hu
          by_cases huv : v = u
          · subst huv
            rw [List.getElem?_set_self hlt'] at hu
            cases hu
            refine ⟨by rw [hc1]; simp, ?_⟩
            rw [List.getElem?_set_self hlt]
            simp only [Option.map_some, Store.cap, hc1, ha]
          · rw [List.getElem?_set_ne huv] at hu ⊢
            exact h.room u t hu
        · intro k r e hr he
          obtain ⟨h1, h2, h3⟩ := h.ref k r e hr he
          obtain ⟨h4, h5, _⟩ := hext.other r h1
          refine ⟨h5, h4.trans h2, fun u t hu => ?_⟩
          simp only at hu
          by_cases huv : v = u
          · subst huv
            rw [List.getElem?_set_self hlt'] at hu
            cases hu
            rw [hc1, ← ha]
            exact h3 v s hv
          · rw [List.getElem?_set_ne huv] at hu
            exact h3 u t hu
        · intro e he u hu
          simpa using h.bound e he u hu
      · rw [if_neg hc]
        have hne : xs.isEmpty = false := by
          cases xs with
          | cons => rfl
          | nil =>
            refine absurd ?_ hc
            rcases hval with ⟨hn, _⟩ | ⟨b, z, hb, hz, h1, h2⟩
            · rw [hn] at ha; cases ha
            · rw [Store.cap_some hb hz]; simp only [List.length_nil]; omega
        have he : w.store.append g s xs =
            (w.store ++ [⟨w.store.read s ++ xs, g.cap w.store.length (w.store.cap s)
              (s.len + xs.length)⟩], ⟨some w.store.length, s.len + xs.length⟩) := by
          unfold Store.append
          rw [hne, ha]
          simp only [if_neg hc]
          rfl
        refine ⟨?_, ?_, ?_, by simp [h.len], ?_, ?_⟩
        · exact ⟨by simpa [SharedValues.values] using hup.len,
            fun u t hu hn => by
              simpa [SharedValues.values, List.getElem?_map, List.map_set] using hup.var u t hu hn,
            hup.apart⟩
        · intro u t hu
          simp only at hu ⊢
          by_cases huv : v = u
          · subst huv
            rw [List.getElem?_set_self hlt'] at hu
            cases hu
            rw [List.getElem?_set_self hlt, he]
            refine ⟨by simp, ?_⟩
            rw [Store.cap_some rfl Store.get_last, h.arrays]
            rfl
          · rw [List.getElem?_set_ne huv] at hu
            rw [List.getElem?_set_ne huv, he]
            obtain ⟨h1, h2⟩ := h.room u t hu
            refine ⟨h1, ?_⟩
            rw [cap_snoc (h.vars.var u t hu fun x => x).1]
            exact h2
        · simp only [he, List.length_append, List.length_singleton, h.arrays]
        · intro k r e hr hek
          simp only [List.getElem?_map] at hek
          cases hf : vals.refs[k]? with
          | none => rw [hf] at hek; cases hek
          | some f =>
            rw [hf] at hek; cases hek
            obtain ⟨h1, h2, h3⟩ := h.ref k r f hr hf
            obtain ⟨h4, h5, _⟩ := hext.other r h1
            have hel : (SharedRef.detach v f).elems = f.elems := by
              unfold SharedRef.detach; split <;> rfl
            refine ⟨h5, by rw [hel]; exact h4.trans h2, fun u t hu => ?_⟩
            simp only at hu
            by_cases huv : v = u
            · subst huv
              rw [List.getElem?_set_self hlt'] at hu
              cases hu
              rw [he]
              constructor
              · intro heq
                have := Store.valid_lt h1 heq
                omega
              · intro heq
                unfold SharedRef.detach at heq
                split at heq
                · cases heq
                · rename_i hn; exact absurd heq hn
            · rw [List.getElem?_set_ne huv] at hu
              rw [h3 u t hu]
              unfold SharedRef.detach
              split
              · rename_i hfv
                rw [hfv]
                constructor
                · intro e; cases e; exact absurd rfl huv
                · intro e; cases e
              · exact Iff.rfl
        · intro e he u hu
          obtain ⟨f, hf, rfl⟩ := List.mem_map.1 he
          simp only [List.length_set]
          unfold SharedRef.detach at hu
          split at hu
          · cases hu
          · exact h.bound f hf u hu
  | new =>
    refine h.pushRef (r := .nil) (e := ⟨[], none⟩) (fun t ht => ⟨rfl, ht, fun h => h, rfl⟩) h.arrays
      (.inl ⟨rfl, rfl⟩) rfl (fun v s hv => ?_) (fun v hv => by cases hv)
    obtain ⟨a, ha, _⟩ := h.var hv
    rw [ha]
    exact ⟨fun e => (by cases e), fun e => (by cases e)⟩
  | give b v =>
    simp only [CallerWorld.step, SharedValues.step]
    cases hb : w.refs[b]? with
    | none => simp only [h.refs_none hb]; exact h
    | some r =>
      obtain ⟨e, he⟩ := h.refs_some hb
      obtain ⟨hr1, hr2, hr3⟩ := h.ref b r e hb he
      simp only [he]
      cases hv : w.vars[v]? with
      | none => simp only [h.vals_none hv]; exact h
      | some s =>
        obtain ⟨a, ha, hx, hval, hful, hlen⟩ := h.var hv
        simp only [hx, ← hr2]
        rcases ht w.store r s with ⟨p, q, h4, h5⟩ | ⟨h4, h5⟩
        · rw [h4, h5]; exact h
        · rw [h4, h5]
          refine h.pushRef (fun t ht => ⟨rfl, ht, fun h => h, rfl⟩) h.arrays hval rfl
            (fun u t hu => ?_) (fun u hu => ?_)
          · constructor
            · intro heq
              by_cases huv : v = u
              · rw [huv]
              · exact absurd heq (h.vars.apart v u s t hv hu (fun x => x) (fun x => x) huv
                  (by rw [ha]; simp))
            · intro heq
              cases heq
              rw [hv] at hu; cases hu
              rfl
          · cases hu
            exact (List.getElem?_eq_some_iff.1 hv).1
  | pass b xs =>
    simp only [CallerWorld.step, SharedValues.step]
    cases hb : w.refs[b]? with
    | none => simp only [h.refs_none hb]; exact h
    | some r =>
      obtain ⟨e, he⟩ := h.refs_some hb
      obtain ⟨hr1, hr2, hr3⟩ := h.ref b r e hb he
      obtain ⟨h1, h2, h3, h4, h5⟩ := Store.alloc_spec w.store xs
      have hrb := (h5 r hr1).1
      simp only [he]
      have h6 := ht (w.store.alloc xs).1 r (w.store.alloc xs).2
      rw [h1, hrb, hr2] at h6
      rcases h6 with ⟨p, q, h6, h7⟩ | ⟨h6, h7⟩
      · rw [h6, h7]; exact h
      · rw [h6, h7]
        refine h.pushRef (fun t ht => ?_) ?_ h2 h1 (fun u t hu => ?_) (fun v hv => by cases hv)
        · obtain ⟨h8, h9, h10⟩ := h5 t ht
          exact ⟨h8, h9, h10, cap_snoc ht⟩
        · simp [Store.alloc, h.arrays]
        · constructor
          · intro heq
            have := Store.valid_lt (h.vars.var u t hu fun x => x).1 (heq.symm.trans h4)
            omega
          · intro heq; cases heq

theorem sharedInv_run (g : Growth) {takes : Takes α} {method : List α → List α → Go (List α)}
    (ht : Keeps takes method) (ops : List (CallerAct α)) : ∀ {w : CallerWorld α}
    {vals : SharedValues α}, SharedInv w vals →
    SharedInv (ops.foldl (CallerWorld.step g takes) w)
      (ops.foldl (SharedValues.step g method) vals) := by
  induction ops with
  | nil => exact fun h => h
  | cons op l ih => exact fun h => ih (sharedInv_step g ht h op)

theorem sharedInv_start : SharedInv (⟨[], [], []⟩ : CallerWorld α) ⟨[], [], 0⟩ :=
  ⟨varInv_start _, fun v s hv => by simp at hv, rfl, rfl, fun k r e hr => by simp at hr, by simp⟩

/-- All programs. -/
theorem shared_run (g : Growth) {takes : Takes α} {method : List α → List α → Go (List α)}
    (ht : Keeps takes method) (ops : List (CallerAct α)) :
    (CallerWorld.run g takes ops).values = (SharedValues.run g method ops).values := by
  have h := sharedInv_run g ht ops sharedInv_start
  refine congr (congrArg CallerValues.mk (h.vars.reads fun _ h => h)) ?_
  apply List.ext_getElem?
  intro k
  simp only [List.getElem?_map]
  change ((CallerWorld.run g takes ops).refs[k]?).map _ = _
  cases hr : (CallerWorld.run g takes ops).refs[k]? with
  | none => rw [SharedValues.run, h.refs_none hr]; rfl
  | some r =>
    obtain ⟨e, he⟩ := h.refs_some hr
    have := (h.ref k r e hr he).2.1
    rw [SharedValues.run, he]
    simp only [Option.map_some]
    rw [← this]
    rfl

/-! ## Methods that append, in any program -/

/-- The method appends, but if `keep` a builder without elements keeps the slice. -/
def AppendsOrKeeps (g : Growth) (keep : Bool) (takes : Takes α) : Prop :=
  ∀ st b args, takes st b args =
    .ok (if keep = true ∧ st.read b = [] then (st, args) else st.append g b (st.read args))

/-- All slices are within their arrays. -/
def CallerWorld.AllValid (w : CallerWorld α) : Prop :=
  (∀ s ∈ w.vars, s.Valid w.store) ∧ ∀ r ∈ w.refs, r.Valid w.store

theorem write_one {st : Store α} {a i : Nat} {x : α} {t : Slice} (ht : t.Valid st)
    (hi : ∀ z, st[a]? = some z → i < z.cells.length) :
    t.Valid (st.write a i [x]) ∧
      ((st.write a i [x]).read t ≠ st.read t ↔
        t.arr = some a ∧ i < t.len ∧ (st.read t)[i]? ≠ some x) := by
  by_cases ha : t.arr = some a
  · rcases ht with ⟨hn, _⟩ | ⟨b, z, hb, hz, h1, h2⟩
    · rw [hn] at ha; cases ha
    · rw [hb] at ha; cases ha
      have hlt := hi z hz
      have hw := Store.get_write (a := a) (pos := i) (xs := [x]) hz
      rw [if_pos rfl] at hw
      have hc : z.cells.take i ++ [x] ++ z.cells.drop (i + [x].length) = z.cells.set i x := by
        rw [List.set_eq_take_append_cons_drop, if_pos (by omega)]; simp
      rw [hc] at hw
      refine ⟨.inr ⟨_, _, hb, hw, by simpa using h1, by simpa using h2⟩, ?_⟩
      rw [Store.read_some hb hw, Store.read_some hb hz]
      simp only [hb, true_and, List.take_set]
      by_cases hit : i < t.len
      · have hlen : i < (z.cells.take t.len).length := by rw [List.length_take]; omega
        simp only [hit, true_and, Ne]
        refine not_congr ⟨fun h => ?_, set_same⟩
        rw [← h]; exact List.getElem?_set_self hlen
      · rw [List.set_eq_of_length_le (by rw [List.length_take]; omega)]
        simp [hit]
  · obtain ⟨h1, h2, _⟩ := Store.write_other (pos := i) (xs := [x]) ht ha
    refine ⟨h2, ?_⟩
    rw [h1]
    simp [ha]

theorem clobbers_snoc {st : Store α} {y : Arr α} {s t : Slice} {xs : List α} (hs : s.Valid st)
    (ht : t.Valid st) : Store.Clobbers (st ++ [y]) s xs t ↔ st.Clobbers s xs t := by
  unfold Store.Clobbers
  rw [cap_snoc hs, (Store.snoc_other ht).1]

theorem alters_step (g : Growth) {keep : Bool} {takes : Takes α} (hm : AppendsOrKeeps g keep takes)
    {w : CallerWorld α} (h : w.AllValid) (op : CallerAct α) :
    (w.step g takes op).AllValid ∧
    ∀ t : Slice, t.Valid w.store →
      ((w.step g takes op).store.read t ≠ w.store.read t ↔ w.Alters keep t op) := by
  suffices hs : (∀ t : Slice, t.Valid w.store → t.Valid (w.step g takes op).store ∧
      ((w.step g takes op).store.read t ≠ w.store.read t ↔ w.Alters keep t op)) ∧
      (∀ s ∈ (w.step g takes op).vars, s ∈ w.vars ∨ s.Valid (w.step g takes op).store) ∧
      (∀ r ∈ (w.step g takes op).refs, r ∈ w.refs ∨ r.Valid (w.step g takes op).store) by
    obtain ⟨h1, h2, h3⟩ := hs
    refine ⟨⟨fun s hs => ?_, fun r hr => ?_⟩, fun t ht => (h1 t ht).2⟩
    · rcases h2 s hs with h4 | h4
      · exact (h1 s (h.1 s h4)).1
      · exact h4
    · rcases h3 r hr with h4 | h4
      · exact (h1 r (h.2 r h4)).1
      · exact h4
  have hid : ∀ {P : Slice → Prop}, (∀ t, ¬ P t) → ∀ t : Slice, t.Valid w.store →
      t.Valid w.store ∧ (w.store.read t ≠ w.store.read t ↔ P t) :=
    fun hP t ht => ⟨ht, iff_of_false (fun h => h rfl) (hP t)⟩
  cases op with
  | make xs spare =>
    obtain ⟨h1, h2, h3, h4, h5⟩ := Store.make_spec w.store xs spare
    refine ⟨fun t ht => ⟨(h5 t ht).2.1, iff_of_false (fun h => h (h5 t ht).1) id⟩,
      fun s hs => ?_, fun r hr => .inl hr⟩
    rcases List.mem_append.1 hs with hs | hs
    · exact .inl hs
    · simp only [List.mem_singleton] at hs; subst hs; exact .inr h2
  | assign v i x =>
    simp only [CallerWorld.step, CallerWorld.Alters]
    cases hv : w.vars[v]? with
    | none =>
      refine ⟨hid ?_, fun _ => .inl, fun _ => .inl⟩
      rintro t ⟨s, hs, _⟩
      cases hs
    | some s =>
      have hval := h.1 s (List.mem_of_getElem? hv)
      simp only [Store.assign]
      by_cases hi : i < s.len
      · rw [if_pos hi]
        rcases hval with ⟨hn, hl⟩ | ⟨a, z, ha, hz, h1, h2⟩
        · omega
        · rw [ha]
          refine ⟨fun t ht => ?_, fun _ => .inl, fun _ => .inl⟩
          obtain ⟨h3, h4⟩ := write_one (x := x) (i := i) (a := a) ht
            (fun y hy => by rw [hz] at hy; cases hy; omega)
          refine ⟨h3, h4.trans ⟨?_, ?_⟩⟩
          · rintro ⟨h5, h6, h7⟩
            exact ⟨s, rfl, ha.trans h5.symm, hi, h6, h7⟩
          · rintro ⟨_, hs, h5, _, h6, h7⟩
            cases hs
            exact ⟨h5.symm.trans ha, h6, h7⟩
      · rw [if_neg hi]
        refine ⟨hid ?_, fun _ => .inl, fun _ => .inl⟩
        rintro t ⟨_, hs, _, h1, _⟩
        cases hs
        exact hi h1
  | grow v xs =>
    simp only [CallerWorld.step, CallerWorld.Alters]
    cases hv : w.vars[v]? with
    | none =>
      refine ⟨hid ?_, fun _ => .inl, fun _ => .inl⟩
      rintro t ⟨s, hs, _⟩
      cases hs
    | some s =>
      obtain ⟨h1, h2, h3⟩ := Store.append_any g (xs := xs) (h.1 s (List.mem_of_getElem? hv))
      refine ⟨fun t ht => ⟨(h3 t ht).1, (h3 t ht).2.trans ⟨fun h => ⟨s, rfl, h⟩, ?_⟩⟩,
        fun u hu => ?_, fun _ => .inl⟩
      · rintro ⟨_, hs, h4⟩
        cases hs
        exact h4
      · rcases List.mem_or_eq_of_mem_set hu with hu | hu
        · exact .inl hu
        · subst hu; exact .inr h2
  | new =>
    refine ⟨hid fun _ => id, fun _ => .inl, fun r hr => ?_⟩
    rcases List.mem_append.1 hr with hr | hr
    · exact .inl hr
    · simp only [List.mem_singleton] at hr; subst hr; exact .inr (.inl ⟨rfl, rfl⟩)
  | give b v =>
    simp only [CallerWorld.step, CallerWorld.Alters]
    cases hb : w.refs[b]? with
    | none =>
      refine ⟨hid ?_, fun _ => .inl, fun _ => .inl⟩
      rintro t ⟨r, s, hr, _⟩
      cases hr
    | some r =>
      cases hv : w.vars[v]? with
      | none =>
        refine ⟨hid ?_, fun _ => .inl, fun _ => .inl⟩
        rintro t ⟨r, s, _, hs, _⟩
        cases hs
      | some s =>
        have hsv := h.1 s (List.mem_of_getElem? hv)
        simp only [hm w.store r s]
        by_cases hk : keep = true ∧ w.store.read r = []
        · rw [if_pos hk]
          refine ⟨hid ?_, fun _ => .inl, fun q hq => ?_⟩
          · rintro t ⟨_, _, hr, _, h1, _⟩
            cases hr
            exact h1 hk.1 hk.2
          · rcases List.mem_append.1 hq with hq | hq
            · exact .inl hq
            · simp only [List.mem_singleton] at hq; subst hq; exact .inr hsv
        · rw [if_neg hk]
          obtain ⟨h1, h2, h3⟩ := Store.append_any g (xs := w.store.read s)
            (h.2 r (List.mem_of_getElem? hb))
          refine ⟨fun t ht => ⟨(h3 t ht).1, (h3 t ht).2.trans ⟨fun h => ?_, ?_⟩⟩,
            fun _ => .inl, fun q hq => ?_⟩
          · exact ⟨r, s, rfl, rfl, fun h4 h5 => hk ⟨h4, h5⟩, h⟩
          · rintro ⟨_, _, hr, hs, _, h4⟩
            cases hr; cases hs
            exact h4
          · rcases List.mem_append.1 hq with hq | hq
            · exact .inl hq
            · simp only [List.mem_singleton] at hq; subst hq; exact .inr h2
  | pass b xs =>
    simp only [CallerWorld.step, CallerWorld.Alters]
    cases hb : w.refs[b]? with
    | none =>
      refine ⟨hid ?_, fun _ => .inl, fun _ => .inl⟩
      rintro t ⟨r, hr, _⟩
      cases hr
    | some r =>
      have hrv := h.2 r (List.mem_of_getElem? hb)
      obtain ⟨a1, a2, a3, a4, a5⟩ := Store.alloc_spec w.store xs
      simp only [hm (w.store.alloc xs).1 r (w.store.alloc xs).2]
      rw [(a5 r hrv).1, a1]
      by_cases hk : keep = true ∧ w.store.read r = []
      · rw [if_pos hk]
        refine ⟨fun t ht => ⟨(a5 t ht).2.1, iff_of_false (fun h => h (a5 t ht).1) ?_⟩,
          fun _ => .inl, fun q hq => ?_⟩
        · rintro ⟨_, hr, h1, _⟩
          cases hr
          exact h1 hk.1 hk.2
        · rcases List.mem_append.1 hq with hq | hq
          · exact .inl hq
          · simp only [List.mem_singleton] at hq; subst hq; exact .inr a2
      · rw [if_neg hk]
        obtain ⟨h1, h2, h3⟩ := Store.append_any g (xs := xs) (a5 r hrv).2.1
        refine ⟨fun t ht => ⟨(h3 t (a5 t ht).2.1).1, ?_⟩, fun _ => .inl, fun q hq => ?_⟩
        · have h4 := (h3 t (a5 t ht).2.1).2
          rw [(a5 t ht).1] at h4
          refine h4.trans ⟨fun h => ?_, ?_⟩
          · exact ⟨r, rfl, fun h5 h6 => hk ⟨h5, h6⟩, (clobbers_snoc hrv ht).1 h⟩
          · rintro ⟨_, hr, _, h5⟩
            cases hr
            exact (clobbers_snoc hrv ht).2 h5
        · rcases List.mem_append.1 hq with hq | hq
          · exact .inl hq
          · simp only [List.mem_singleton] at hq; subst hq; exact .inr h2

theorem allValid_run (g : Growth) {keep : Bool} {takes : Takes α}
    (hm : AppendsOrKeeps g keep takes) (ops : List (CallerAct α)) :
    (CallerWorld.run g takes ops).AllValid := by
  suffices h : ∀ w : CallerWorld α, w.AllValid →
      (ops.foldl (CallerWorld.step g takes) w).AllValid from
    h ⟨[], [], []⟩ ⟨by simp, by simp⟩
  induction ops with
  | nil => exact fun _ h => h
  | cons op l ih => exact fun w h => ih _ (alters_step g hm h op).1

/-- Builders are not replaced. -/
theorem step_refs (g : Growth) (takes : Takes α) (w : CallerWorld α) (op : CallerAct α) {k : Nat}
    {t : Slice} (h : w.refs[k]? = some t) : (w.step g takes op).refs[k]? = some t := by
  cases op with
  | make | new => first | exact h | exact getElem?_snoc h
  | assign v i x =>
    simp only [CallerWorld.step]
    cases w.vars[v]? with
    | none => exact h
    | some s => simp only; cases w.store.assign s i x <;> exact h
  | grow v xs =>
    simp only [CallerWorld.step]
    cases w.vars[v]? <;> exact h
  | give b v =>
    simp only [CallerWorld.step]
    cases w.refs[b]? with
    | none => exact h
    | some r =>
      cases w.vars[v]? with
      | none => exact h
      | some s => simp only; cases takes w.store r s <;> first | exact h | exact getElem?_snoc h
  | pass b xs =>
    simp only [CallerWorld.step]
    cases w.refs[b]? with
    | none => exact h
    | some r =>
      simp only
      cases takes (w.store.alloc xs).1 r (w.store.alloc xs).2 <;>
        first | exact h | exact getElem?_snoc h

/-- Variables are only replaced by appending to them. -/
theorem step_vars (g : Growth) (takes : Takes α) (w : CallerWorld α) (op : CallerAct α) {v : Nat}
    {t : Slice} (h : w.vars[v]? = some t) (hop : ∀ xs, op ≠ .grow v xs) :
    (w.step g takes op).vars[v]? = some t := by
  cases op with
  | make | new => first | exact h | exact getElem?_snoc h
  | assign u i x =>
    simp only [CallerWorld.step]
    cases w.vars[u]? with
    | none => exact h
    | some s => simp only; cases w.store.assign s i x <;> exact h
  | grow u xs =>
    have hne : u ≠ v := fun e => hop xs (by rw [e])
    simp only [CallerWorld.step]
    cases w.vars[u]? with
    | none => exact h
    | some s => simp only; rw [List.getElem?_set_ne hne]; exact h
  | give b u =>
    simp only [CallerWorld.step]
    cases w.refs[b]? with
    | none => exact h
    | some r =>
      cases w.vars[u]? with
      | none => exact h
      | some s => simp only; cases takes w.store r s <;> exact h
  | pass b xs =>
    simp only [CallerWorld.step]
    cases w.refs[b]? with
    | none => exact h
    | some r =>
      simp only
      cases takes (w.store.alloc xs).1 r (w.store.alloc xs).2 <;> exact h

end Verif
