import Verif.Lemmas.Slices

/-!
# The columns of SET: slices that rendering sorts in place
-/

namespace Verif

variable {α : Type}

/-- Equal, or with `b` up to the order. -/
def Same (b : Bool) (l l' : List α) : Prop := if b then l.Perm l' else l = l'

namespace Same

theorem refl (b : Bool) (l : List α) : Same b l l := by
  unfold Same; split
  · exact .refl _
  · rfl

theorem perm {b : Bool} {l l' : List α} (h : Same b l l') : l.Perm l' := by
  unfold Same at h; split at h
  · exact h
  · rw [h]

theorem eq {l l' : List α} (h : Same false l l') : l = l' := h

theorem append {b : Bool} {l l' : List α} (h : Same b l l') (x : List α) :
    Same b (l ++ x) (l' ++ x) := by
  unfold Same at *; split
  · rename_i hb; rw [if_pos hb] at h; exact h.append_right _
  · rename_i hb; rw [if_neg hb] at h; rw [h]

end Same

namespace Store

theorem cells_length {st : Store α} {s : Slice} {a : Nat} {x : Arr α} (hx : st[a]? = some x)
    (ha : s.arr = some a) (hl : s.len ≤ x.cells.length) : (st.read s).length = s.len := by
  rw [read_some ha hx, List.length_take]; omega

/-- Sorting a slice in place: lengths stay, and slices at least as long are permuted. -/
theorem sortInPlace_spec [GoRuntime] {st : Store Column} {s : Slice} (hs : s.Valid st) (t : Slice)
    (ht : t.Valid st) :
    t.Valid (st.sortInPlace s) ∧ (t.Full st → t.Full (st.sortInPlace s)) ∧
    (t.arr ≠ s.arr → (st.sortInPlace s).read t = st.read t) ∧
    (t.arr = s.arr → s.len ≤ t.len → ((st.sortInPlace s).read t).Perm (st.read t)) := by
  unfold sortInPlace
  rcases hs with ⟨ha, hl⟩ | ⟨a, x, ha, hx, h1, h2⟩
  · rw [ha]
    exact ⟨ht, id, fun _ => rfl, fun _ _ => .refl _⟩
  · rw [ha]
    simp only
    have hlen : (GoRuntime.sortSlice columnLess (st.read s)).length = s.len := by
      rw [(GoRuntime.sortSlice_perm columnLess _).length_eq, cells_length hx ha h1]
    have hcells : x.cells.take 0 ++ GoRuntime.sortSlice columnLess (st.read s) ++
        x.cells.drop (0 + (GoRuntime.sortSlice columnLess (st.read s)).length) =
        GoRuntime.sortSlice columnLess (st.read s) ++ x.cells.drop s.len := by
      rw [hlen]; simp
    have hw : (st.write a 0 (GoRuntime.sortSlice columnLess (st.read s)))[a]? =
        some { x with cells := GoRuntime.sortSlice columnLess (st.read s) ++ x.cells.drop s.len } := by
      rw [get_write hx, if_pos rfl, hcells]
    have hcl : (GoRuntime.sortSlice columnLess (st.read s) ++ x.cells.drop s.len).length =
        x.cells.length := by
      rw [List.length_append, hlen, List.length_drop]; omega
    rcases ht with ⟨hta, htl⟩ | ⟨b, z, hta, hz, h3, h4⟩
    · refine ⟨.inl ⟨hta, htl⟩, ?_, ?_, ?_⟩
      · intro _ b z hb; rw [hta] at hb; cases hb
      · intro _; rw [read_none hta, read_none hta]
      · intro h; rw [hta] at h; cases h
    · by_cases hab : a = b
      · subst hab
        rw [hx] at hz; cases hz
        refine ⟨.inr ⟨_, _, hta, hw, by simp only [hcl]; exact h3, by simp only [hcl]; exact h4⟩,
          ?_, ?_, ?_⟩
        · intro hf c y hc hy
          rw [hta] at hc; cases hc
          rw [hw] at hy; cases hy
          simp only [hcl]
          exact hf _ _ hta hx
        · intro hne; exact absurd hta hne
        · intro _ hle
          rw [read_some hta hw, read_some hta hx]
          simp only
          rw [List.take_append, hlen, List.take_of_length_le (by omega)]
          have hp : (GoRuntime.sortSlice columnLess (st.read s)).Perm (x.cells.take s.len) := by
            rw [← read_some ha hx]; exact GoRuntime.sortSlice_perm _ _
          have : x.cells.take t.len = x.cells.take s.len ++ (x.cells.drop s.len).take (t.len - s.len) := by
            rw [← List.take_add]; congr 1; omega
          rw [this]
          exact hp.append_right _
      · have hb : (st.write a 0 (GoRuntime.sortSlice columnLess (st.read s)))[b]? = some z := by
          rw [get_write hz, if_neg hab]
        refine ⟨.inr ⟨_, _, hta, hb, h3, h4⟩, ?_, ?_, ?_⟩
        · intro hf c y hc hy
          rw [hta] at hc; cases hc
          rw [hb] at hy; cases hy
          exact hf _ _ hta hz
        · intro _; rw [read_some hta hb, read_some hta hz]
        · intro h; rw [hta] at h; cases h; exact absurd rfl hab

end Store

/-- The columns of a SET clause: the slice, when it was last extended, the syntax, and what it
should contain. -/
structure CEntry where
  slice : Slice
  ver : Nat
  mode : PairMode
  content : List Column

/-- The columns of clauses that have not been extended are what they should be, up to their order
if `r` and the syntax is key-value. -/
structure CTracked (r : Bool) (st : Store Column) (spent : List Nat) (es : List CEntry) : Prop where
  read : ∀ e ∈ es, e.ver ∉ spent → Same (r && e.mode == .associative) (st.read e.slice) e.content
  valid : ∀ e ∈ es, e.slice.Valid st
  full : ∀ e ∈ es, e.ver ∉ spent → e.slice.Full st
  same : ∀ e ∈ es, ∀ f ∈ es, e.ver = f.ver → e.slice = f.slice
  excl : ∀ e ∈ es, ∀ f ∈ es, e.ver ∉ spent → f.ver ∉ spent → e.slice.arr = f.slice.arr →
    e.slice.arr ≠ none → e.ver = f.ver
  modes : ∀ e ∈ es, ∀ f ∈ es, e.slice.arr = f.slice.arr → e.slice.arr ≠ none → e.mode = f.mode
  fresh : ∀ e ∈ es, e.ver < es.length

namespace CTracked
variable {r : Bool} {st : Store Column} {spent : List Nat} {es : List CEntry}

theorem start : CTracked r [] [] [] :=
  ⟨by simp, by simp, by simp, by simp, by simp, by simp, by simp⟩

theorem weaken (h : CTracked r st spent es) {spent' : List Nat}
    (hs : ∀ v, v ∈ spent → v ∈ spent') : CTracked r st spent' es :=
  ⟨fun e he hv => h.read e he fun x => hv (hs _ x), h.valid,
    fun e he hv => h.full e he fun x => hv (hs _ x), h.same,
    fun e he f hf h1 h2 => h.excl e he f hf (fun x => h1 (hs _ x)) (fun x => h2 (hs _ x)),
    h.modes, h.fresh⟩

theorem copy (h : CTracked r st spent es) {e : CEntry} (he : e ∈ es) :
    CTracked r st spent (es ++ [e]) := by
  have key : ∀ f, f ∈ es ++ [e] → f ∈ es := by
    intro f hf
    rcases List.mem_append.1 hf with hf | hf
    · exact hf
    · simp only [List.mem_singleton] at hf; subst hf; exact he
  refine ⟨fun f hf => h.read f (key f hf), fun f hf => h.valid f (key f hf),
    fun f hf => h.full f (key f hf), fun f hf k hk => h.same f (key f hf) k (key k hk),
    fun f hf k hk => h.excl f (key f hf) k (key k hk),
    fun f hf k hk => h.modes f (key f hf) k (key k hk), fun f hf => ?_⟩
  have := h.fresh f (key f hf)
  simp only [List.length_append, List.length_singleton]; omega

/-- A new slice. -/
theorem push (h : CTracked r st spent es) {st' : Store Column} {spent' : List Nat} {s : Slice}
    {m : PairMode} {c : List Column} (hs : ∀ v, v ∈ spent → v ∈ spent')
    (hr : Same (r && m == .associative) (st'.read s) c) (hv : s.Valid st') (hf : s.Full st')
    (hold : ∀ e ∈ es, st'.read e.slice = st.read e.slice ∧ e.slice.Valid st' ∧
      (e.ver ∉ spent' → e.slice.Full st'))
    (hex : ∀ e ∈ es, e.ver ∉ spent' → s.arr = e.slice.arr → s.arr = none)
    (hmd : ∀ e ∈ es, s.arr = e.slice.arr → s.arr ≠ none → e.mode = m) :
    CTracked r st' spent' (es ++ [⟨s, es.length, m, c⟩]) := by
  refine ⟨?_, ?_, ?_, ?_, ?_, ?_, ?_⟩
  · intro e he hn
    rcases List.mem_append.1 he with he | he
    · rw [(hold e he).1]; exact h.read e he fun x => hn (hs _ x)
    · simp only [List.mem_singleton] at he; subst he; exact hr
  · intro e he
    rcases List.mem_append.1 he with he | he
    · exact (hold e he).2.1
    · simp only [List.mem_singleton] at he; subst he; exact hv
  · intro e he hn
    rcases List.mem_append.1 he with he | he
    · exact (hold e he).2.2 hn
    · simp only [List.mem_singleton] at he; subst he; exact hf
  · intro e he f hf' hef
    rcases List.mem_append.1 he with he | he <;> rcases List.mem_append.1 hf' with hf' | hf'
    · exact h.same e he f hf' hef
    · simp only [List.mem_singleton] at hf'; subst hf'
      have := h.fresh e he
      simp only at hef; omega
    · simp only [List.mem_singleton] at he; subst he
      have := h.fresh f hf'
      simp only at hef; omega
    · simp only [List.mem_singleton] at he hf'; rw [he, hf']
  · intro e he f hf' h1 h2 ha hn
    rcases List.mem_append.1 he with he | he <;> rcases List.mem_append.1 hf' with hf' | hf'
    · exact h.excl e he f hf' (fun x => h1 (hs _ x)) (fun x => h2 (hs _ x)) ha hn
    · simp only [List.mem_singleton] at hf'; subst hf'
      exact absurd (ha.trans (hex e he h1 ha.symm)) hn
    · simp only [List.mem_singleton] at he; subst he
      exact absurd (hex f hf' h2 ha) hn
    · simp only [List.mem_singleton] at he hf'; rw [he, hf']
  · intro e he f hf' ha hn
    rcases List.mem_append.1 he with he | he <;> rcases List.mem_append.1 hf' with hf' | hf'
    · exact h.modes e he f hf' ha hn
    · simp only [List.mem_singleton] at hf'; subst hf'
      exact hmd e he ha.symm (by rw [← ha]; exact hn)
    · simp only [List.mem_singleton] at he; subst he
      exact (hmd f hf' ha hn).symm
    · simp only [List.mem_singleton] at he hf'; rw [he, hf']
  · intro e he
    rcases List.mem_append.1 he with he | he
    · have := h.fresh e he; simp only [List.length_append, List.length_singleton]; omega
    · simp only [List.mem_singleton] at he; subst he; simp

theorem new (h : CTracked r st spent es) :
    CTracked r st spent (es ++ [⟨.nil, es.length, .unknown, []⟩]) :=
  h.push (fun _ h => h) (Same.refl _ _) (.inl ⟨rfl, rfl⟩) (fun _ _ ha => by cases ha)
    (fun e he => ⟨rfl, h.valid e he, h.full e he⟩) (fun _ _ _ _ => rfl)
    fun _ _ _ hn => absurd rfl hn

/-- Extended, once. -/
theorem ext (h : CTracked r st spent es) {e : CEntry} (he : e ∈ es) (hs : e.ver ∉ spent)
    {st' : Store Column} {s : Slice} {m : PairMode} {c : List Column}
    (hx : Ext st st' e.slice s) (hr : Same (r && m == .associative) (st'.read s) c)
    (hm : e.slice.arr ≠ none → m = e.mode) :
    CTracked r st' (e.ver :: spent) (es ++ [⟨s, es.length, m, c⟩]) := by
  refine h.push (fun v hv => List.mem_cons_of_mem _ hv) hr hx.valid hx.full ?_ ?_ ?_
  · intro f hf
    obtain ⟨h6, h7, h8⟩ := hx.other f.slice (h.valid f hf)
    refine ⟨h6, h7, fun hn => h8 ?_ (h.full f hf fun x => hn (List.mem_cons_of_mem _ x))⟩
    by_cases ha : f.slice.arr = none
    · exact .inl ha
    · refine .inr fun heq => hn ?_
      rw [h.excl f hf e he (fun x => hn (List.mem_cons_of_mem _ x)) hs heq ha]
      exact List.mem_cons_self
  · intro f hf hn ha
    rcases hx.arr with h4 | ⟨a, hle, h4⟩
    · cases hxa : s.arr with
      | none => rfl
      | some a =>
        exfalso
        apply hn
        rw [h.excl f hf e he (fun x => hn (List.mem_cons_of_mem _ x)) hs (by rw [← ha, h4])
          (by rw [← ha, hxa]; exact fun h => by cases h)]
        exact List.mem_cons_self
    · have := Store.valid_lt (h.valid f hf) (ha.symm.trans h4)
      omega
  · intro f hf ha hn
    rcases hx.arr with h4 | ⟨a, hle, h4⟩
    · rw [h4] at hn ha
      rw [hm hn, h.modes e he f hf ha hn]
    · have := Store.valid_lt (h.valid f hf) (ha.symm.trans h4)
      omega

/-- Forget the last slice. -/
theorem drop {f : CEntry} (h : CTracked r st spent (es ++ [f]))
    (hf : ∀ e ∈ es, e.ver < es.length) : CTracked r st spent es :=
  have k : ∀ e, e ∈ es → e ∈ es ++ [f] := fun _ h => List.mem_append.2 (.inl h)
  ⟨fun e he => h.read e (k e he), fun e he => h.valid e (k e he), fun e he => h.full e (k e he),
    fun e he f hf => h.same e (k e he) f (k f hf), fun e he f hf => h.excl e (k e he) f (k f hf),
    fun e he f hf => h.modes e (k e he) f (k f hf), hf⟩

/-- Sorted in place. -/
theorem sort [GoRuntime] (h : CTracked true st spent es) {e : CEntry} (he : e ∈ es)
    (hm : e.mode = .associative) : CTracked true (st.sortInPlace e.slice) spent es := by
  have key := fun f hf => Store.sortInPlace_spec (h.valid e he) (CEntry.slice f) (h.valid f hf)
  refine ⟨?_, fun f hf => (key f hf).1, fun f hf hn => (key f hf).2.1 (h.full f hf hn), h.same,
    h.excl, h.modes, h.fresh⟩
  intro f hf hn
  have hr := h.read f hf hn
  by_cases ha : f.slice.arr = e.slice.arr
  · by_cases ha' : f.slice.arr = none
    · have h0 : f.slice.arr = none := ha'
      rw [Store.read_none h0] at hr ⊢
      exact hr
    · have hmode : f.mode = .associative := by rw [h.modes f hf e he ha ha', hm]
      have hle : e.slice.len ≤ f.slice.len := by
        rcases h.valid e he with ⟨h1, h2⟩ | ⟨a, x, h1, h2, h3, _⟩
        · rw [ha, h1] at ha'; exact absurd rfl ha'
        · rw [h.full f hf hn a x (by rw [ha, h1]) h2]; exact h3
      have hp := (key f hf).2.2.2 ha hle
      simp only [hmode, Same] at hr ⊢
      exact hp.trans hr
  · rw [(key f hf).2.2.1 ha]; exact hr

end CTracked

end Verif
