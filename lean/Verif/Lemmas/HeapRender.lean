import Verif.Lemmas.HeapInsert
import Verif.Lemmas.HeapSelect
import Verif.Lemmas.HeapUpdate
import Verif.Lemmas.Pairs

/-!
# The order of columns in memory is of no importance for the text
-/

set_option linter.unusedSectionVars false

namespace Verif
open Spec

/-! ## Sorting -/

section
variable [GoRuntime]

theorem str_lt_asymm {s t : Str} (h : s < t) : ¬ t < s :=
  fun h' => str_lt_irrefl _ (str_lt_trans h h')

private theorem str_le {s t : Str} (h : ¬ t < s) : s < t ∨ s = t := by
  rcases str_trichotomy s t with h' | h' | h'
  · exact .inl h'
  · exact .inr h'
  · exact absurd h' h

private theorem less_iff {l : List Column} (h : Agree l) {a b : Column} (ha : a ∈ l) (hb : b ∈ l) :
    columnLess a b = true ↔ (a.name < b.name ∧ (a.alias < b.alias ∨ a.alias = b.alias)) ∨
      (a.name = b.name ∧ a.alias < b.alias) := by
  unfold columnLess
  simp only [Bool.or_eq_true, strLt_iff]
  constructor
  · rintro (h1 | h1)
    · exact .inl ⟨h1, str_le (h a ha b hb h1)⟩
    · rcases str_trichotomy a.name b.name with h2 | h2 | h2
      · exact .inl ⟨h2, .inl h1⟩
      · exact .inr ⟨h2, h1⟩
      · exact absurd h1 (h b hb a ha h2)
  · rintro (h1 | h1)
    · exact .inl h1.1
    · exact .inr h1.2

private theorem less_trans {l : List Column} (h : Agree l) {a b c : Column} (ha : a ∈ l)
    (hb : b ∈ l) (hc : c ∈ l) (h1 : columnLess a b = true) (h2 : columnLess b c = true) :
    columnLess a c = true := by
  rw [less_iff h ha hb] at h1
  rw [less_iff h hb hc] at h2
  rw [less_iff h ha hc]
  rcases h1 with ⟨h1, h1'⟩ | ⟨h1, h1'⟩ <;> rcases h2 with ⟨h2, h2'⟩ | ⟨h2, h2'⟩
  · refine .inl ⟨str_lt_trans h1 h2, ?_⟩
    rcases h1' with h1' | h1'
    · rcases h2' with h2' | h2'
      · exact .inl (str_lt_trans h1' h2')
      · exact .inl (h2' ▸ h1')
    · rw [h1']; exact h2'
  · refine .inl ⟨h2 ▸ h1, ?_⟩
    rcases h1' with h1' | h1'
    · exact .inl (str_lt_trans h1' h2')
    · rw [h1']; exact .inl h2'
  · refine .inl ⟨h1 ▸ h2, ?_⟩
    rcases h2' with h2' | h2'
    · exact .inl (str_lt_trans h1' h2')
    · exact .inl (h2' ▸ h1')
  · exact .inr ⟨h1.trans h2, str_lt_trans h1' h2'⟩

theorem columnLess_eq {a b : Column} (h1 : columnLess a b = false) (h2 : columnLess b a = false) :
    a = b := by
  have k1 : ¬ (a.name < b.name) ∧ ¬ (a.alias < b.alias) := by
    simpa [columnLess, ← strLt_iff] using h1
  have k2 : ¬ (b.name < a.name) ∧ ¬ (b.alias < a.alias) := by
    simpa [columnLess, ← strLt_iff] using h2
  obtain ⟨n, al⟩ := a
  obtain ⟨n', al'⟩ := b
  simp only [Column.mk.injEq]
  constructor
  · rcases str_trichotomy n n' with h | h | h
    · exact absurd h k1.1
    · exact h
    · exact absurd h k2.1
  · rcases str_trichotomy al al' with h | h | h
    · exact absurd h k1.2
    · exact h
    · exact absurd h k2.2

private theorem less_irrefl (a : Column) : columnLess a a = false := by
  have : ¬ (columnLess a a = true) := by
    simp only [columnLess, Bool.or_eq_true, strLt_iff, not_or]
    exact ⟨str_lt_irrefl _, str_lt_irrefl _⟩
  simpa using this

theorem sort_agree_sorted {l : List Column} (h : Agree l) :
    (GoRuntime.sortSlice columnLess l).Pairwise (fun a b => columnLess b a = false) := by
  refine GoRuntime.sortSlice_sorted columnLess l (fun a _ => less_irrefl a)
    (fun a ha b hb c hc => less_trans h ha hb hc) ?_
  intro a _ b _ c _ h1 h2 h3 h4
  rw [columnLess_eq h1 h2, columnLess_eq h3 h4]
  exact ⟨less_irrefl _, less_irrefl _⟩

theorem Spec.Agree.perm {l l' : List Column} (h : Agree l) (hp : l.Perm l') : Agree l' :=
  fun c hc d hd => h c (hp.mem_iff.2 hc) d (hp.mem_iff.2 hd)

/-- The order before sorting does not matter. -/
theorem sort_agree {l l' : List Column} (h : Agree l) (hp : l.Perm l') :
    GoRuntime.sortSlice columnLess l = GoRuntime.sortSlice columnLess l' := by
  refine List.Perm.eq_of_pairwise ?_ (sort_agree_sorted h) (sort_agree_sorted (h.perm hp))
    ((GoRuntime.sortSlice_perm _ _).trans (hp.trans (GoRuntime.sortSlice_perm _ _).symm))
  intro a b _ _ h1 h2
  exact columnLess_eq h2 h1

/-! ## Writing -/

theorem Spec.SetOrder.refl (p : PairContainer) : SetOrder p p := ⟨rfl, .refl _, fun _ => rfl⟩

theorem Spec.SetOrder.mode {p q : PairContainer} (h : SetOrder p q) : p.mode = q.mode := by
  rw [h.1]

theorem Spec.SetOrder.symm {p q : PairContainer} (h : SetOrder p q) : SetOrder q p := by
  refine ⟨?_, h.2.1.symm, fun hm => (h.2.2 (h.mode ▸ hm)).symm⟩
  have := h.1
  cases p; cases q
  simp only [PairContainer.mk.injEq] at this ⊢
  simp [this]

theorem Spec.SetOrder.trans {p q r : PairContainer} (h : SetOrder p q) (h' : SetOrder q r) :
    SetOrder p r := by
  refine ⟨?_, h.2.1.trans h'.2.1, fun hm => (h.2.2 (h'.mode ▸ hm)).trans (h'.2.2 hm)⟩
  have h1 := h.1
  have h2 := h'.1
  cases p; cases q; cases r
  simp only [PairContainer.mk.injEq] at h1 h2 ⊢
  simp [h1, h2]

theorem Spec.SetOrder.values {p q : PairContainer} (h : SetOrder p q) (ha : Agree q.columns) :
    p.values = q.values := by
  by_cases hm : q.mode = .associative
  · have hm' : p.mode = .associative := h.mode.trans hm
    have hmap : p.map = q.map := by rw [h.1]
    unfold PairContainer.values
    rw [if_neg (by simp [hm']), if_neg (by simp [hm]), hmap,
      sort_agree (ha.perm h.2.1.symm) h.2.1]
  · rw [h.1, h.2.2 hm]

theorem Spec.SetOrder.write {p q : PairContainer} (h : SetOrder p q) (ha : Agree q.columns) :
    p.write = q.write := by
  by_cases hm : q.mode = .associative
  · have hm' : p.mode = .associative := h.mode.trans hm
    have he : p.isEmpty = q.isEmpty := by rw [h.1]; rfl
    unfold PairContainer.write
    simp only [he, hm, hm', if_true, PairContainer.writeAssociative, h.values ha, reduceCtorEq,
      if_false]
  · rw [h.1, h.2.2 hm]

theorem Spec.SetOrder.isEmpty {p q : PairContainer} (h : SetOrder p q) : p.isEmpty = q.isEmpty := by
  rw [h.1]; rfl

theorem Spec.UpdOrder.symm {s t : UpdateStmt} (h : UpdOrder s t) : UpdOrder t s := by
  refine ⟨?_, h.2.symm⟩
  have := h.1
  cases s; cases t
  simp only [UpdateStmt.mk.injEq] at this ⊢
  simp [this]

theorem Spec.UpdOrder.trans {s t u : UpdateStmt} (h : UpdOrder s t) (h' : UpdOrder t u) :
    UpdOrder s u := by
  refine ⟨?_, h.2.trans h'.2⟩
  have h1 := h.1
  have h2 := h'.1
  cases s; cases t; cases u
  simp only [UpdateStmt.mk.injEq] at h1 h2 ⊢
  simp [h1, h2]

theorem Spec.UpdOrder.renderings {s t : UpdateStmt} (h : UpdOrder s t) (ha : Agree t.set.columns) :
    SameRenderings (.update s) (.update t) := by
  have hw : (Stmt.update s).write = (Stmt.update t).write := by
    simp only [Stmt.write]
    rw [h.1]
    unfold UpdateStmt.write
    simp only [h.2.isEmpty, h.2.write ha]
  exact ⟨by rw [hw], by rw [hw], by rw [hw]⟩

theorem Spec.ActionOrder.isEmpty {a b : ConflictAction} (h : ActionOrder a b) :
    a.isEmpty = b.isEmpty := by
  cases a <;> cases b <;> simp only [ActionOrder, reduceCtorEq] at h <;> first | rfl | skip
  exact h.isEmpty

theorem Spec.ActionOrder.write {a b : ConflictAction} (h : ActionOrder a b)
    (ha : Agree (actionColumns b)) : a.write = b.write := by
  cases a <;> cases b <;> simp only [ActionOrder, reduceCtorEq] at h <;> first | rfl | skip
  simp only [ConflictAction.write, h.write ha]

theorem Spec.InsOrder.renderings {s t : InsertStmt} (h : InsOrder s t)
    (ha : Agree (actionColumns t.action)) : SameRenderings (.insert s) (.insert t) := by
  have hw : (Stmt.insert s).write = (Stmt.insert t).write := by
    simp only [Stmt.write]
    rw [h.1]
    unfold InsertStmt.write
    simp only [writeOnConflict, h.2.isEmpty, h.2.write ha]
  exact ⟨by rw [hw], by rw [hw], by rw [hw]⟩

/-! ## What the invariants say of the builders -/

theorem UpdInv.order {r : Bool} {w : UpdWorld} {h : Hist UpdClause UpdateStmt} {rows : List UpdRow}
    (hi : UpdInv r w h rows) {x : UpdRow} (hx : x ∈ rows)
    (hs : (UpdClause.set, x.entry.since .set) ∉ h.spent) :
    UpdOrder (x.ref.stmt w.heap) x.entry.stmt ∧
      (r = false → x.ref.stmt w.heap = x.entry.stmt) := by
  have hrep := hi.rep hx hs
  have hf := hi.fits x hx
  have hwith : w.heap.withs.read x.ref.withs = x.entry.stmt.withs :=
    hi.withs.read _ (List.mem_map_of_mem hx)
  have hset : x.ref.set.value w.heap =
      { x.entry.stmt.set with columns := (x.ref.set.value w.heap).columns } := by
    simp only [PairRef.value, hrep.mode, UpdHeap.mapOf, hrep.map, hrep.exprs]
  have hcols : (x.ref.set.value w.heap).columns = w.heap.columns.read x.ref.set.columns := rfl
  have hst : x.ref.stmt w.heap = { x.entry.stmt with set := x.ref.set.value w.heap } := by
    simp only [UpdRef.Fits] at hf
    simp only [UpdRef.stmt, hwith]
    rw [← hf]
  refine ⟨⟨?_, ?_⟩, ?_⟩
  · rw [hst]
  · rw [hst]
    refine ⟨hset, ?_, ?_⟩
    · exact hrep.cols.perm
    · intro hm
      have := hrep.cols
      have hb : (x.entry.stmt.set.mode == PairMode.associative) = false := by
        cases hh : x.entry.stmt.set.mode <;> first | rfl | exact absurd hh hm
      rw [hb, Bool.and_false] at this
      exact this
  · intro hr
    subst hr
    have := hrep.cols.eq
    rw [hst, hset, hcols, this]

theorem InsInv.order {r n : Bool} {spent : List Nat} {w : InsWorld}
    {h : Hist InsClause InsertStmt} {rows : List InsRow} (hi : InsInv r n spent w h rows)
    {x : InsRow} (hx : x ∈ rows) :
    InsOrder (x.ref.stmt w.heap) x.entry.stmt ∧
      (r = false → x.ref.stmt w.heap = x.entry.stmt) := by
  have hf := hi.fits x hx
  have htg : w.heap.targets.read x.ref.target = x.entry.stmt.target :=
    hi.target.read _ (List.mem_map_of_mem hx)
  have hset := hi.set.read _ (List.mem_map_of_mem hx) (by simp)
  have hst : x.ref.stmt w.heap =
      { x.entry.stmt with action := w.heap.action x.ref.set x.ref.base.action } := by
    have := hf.1
    simp only [InsRef.stmt, htg]
    rw [← this]
  have hact : ActionOrder (w.heap.action x.ref.set x.ref.base.action) x.entry.stmt.action ∧
      (r = false → w.heap.action x.ref.set x.ref.base.action = x.entry.stmt.action) := by
    have hb := hf.2
    simp only [InsRow.set] at hset
    cases h1 : x.ref.base.action <;> cases h2 : x.entry.stmt.action <;> rw [h1, h2] at hb <;>
      simp only [bare, reduceCtorEq, ConflictAction.update.injEq] at hb <;>
      simp only [InsHeap.action, ActionOrder, implies_true, and_self]
    rename_i p q
    rw [h2] at hset
    simp only [actionSet] at hset
    have hq : ∀ c, { p with columns := c } = { q with columns := c } := by
      intro c
      cases p; cases q
      simp only [PairContainer.mk.injEq, true_and] at hb ⊢
      simp [hb]
    refine ⟨⟨?_, hset.perm, ?_⟩, ?_⟩
    · exact hq _
    · intro hm
      have hb : (q.mode == PairMode.associative) = false := by
        cases hh : q.mode <;> first | rfl | exact absurd hh hm
      rw [hb, Bool.and_false] at hset
      exact hset
    · intro hr
      subst hr
      rw [hset.eq, hq]
  refine ⟨⟨?_, ?_⟩, ?_⟩
  · rw [hst]
  · rw [hst]; exact hact.1
  · intro hr; rw [hst, hact.2 hr]

/-- Reading what has been sorted in place. -/
theorem Store.read_sortInPlace {st : Store Column} {s : Slice} (h : s.Valid st) :
    (st.sortInPlace s).read s = GoRuntime.sortSlice columnLess (st.read s) ∧
      s.Valid (st.sortInPlace s) := by
  refine ⟨?_, (Store.sortInPlace_spec h s h).1⟩
  rcases h with ⟨ha, hl⟩ | ⟨a, x, ha, hx, h1, h2⟩
  · have : GoRuntime.sortSlice columnLess (st.read s) = [] := by
      rw [Store.read_none ha]
      exact List.Perm.eq_nil (GoRuntime.sortSlice_perm columnLess [])
    rw [this, Store.read_none ha]
  · unfold Store.sortInPlace
    rw [ha]
    simp only
    have hlen : (GoRuntime.sortSlice columnLess (st.read s)).length = s.len := by
      rw [(GoRuntime.sortSlice_perm columnLess _).length_eq, Store.cells_length hx ha h1]
    rw [Store.read_some ha (by rw [Store.get_write hx, if_pos rfl])]
    simp only [List.take_zero, List.nil_append]
    rw [List.take_append_of_le_length (by omega), List.take_of_length_le (by omega)]

end

/-! ## Programs that use every builder once -/

theorem ownClauses_run {K N S C : Type} [DecidableEq K] (init : N → S) (apply : C → S → Go S)
    (clause : C → K) (ops : List (Act N C)) : ∀ (used : List Nat) (h : Hist K S),
      OwnClauses used h → (receivers ops).Nodup → (∀ i, i ∈ receivers ops → i ∉ used) →
      ∃ used', OwnClauses used' (ops.foldl (Hist.step init apply clause) h) ∧
        ∀ i, i ∈ used' → i ∈ used ∨ i ∈ receivers ops := by
  induction ops with
  | nil => exact fun used h ho _ _ => ⟨used, ho, fun i hi => .inl hi⟩
  | cons op l ih =>
    intro used h ho hn hu
    rw [receivers_cons] at hn hu
    have hn' := List.nodup_append.1 hn
    have hop : ∀ i c, op = .call i c → i ∉ used := by
      intro i c he
      apply hu
      subst he
      exact List.mem_append.2 (.inl List.mem_cons_self)
    obtain ⟨used', h1, h2⟩ := ih _ _ (ownClauses_step init apply clause ho op hop) hn'.2.1 (by
      intro i hi hm
      rcases List.mem_append.1 hm with hm | hm
      · exact hn'.2.2 i hm i hi rfl
      · exact hu i (List.mem_append.2 (.inr hi)) hm)
    refine ⟨used', h1, fun i hi => ?_⟩
    rw [receivers_cons]
    rcases h2 i hi with h3 | h3
    · rcases List.mem_append.1 h3 with h3 | h3
      · exact .inr (List.mem_append.2 (.inl h3))
      · exact .inl h3
    · exact .inr (List.mem_append.2 (.inr h3))

/-- The clauses of a builder that has not been used further are live. -/
theorem live_of_linear {K N S C : Type} [DecidableEq K] (init : N → S) (apply : C → S → Go S)
    (clause : C → K) {ops : List (Act N C)} (h : Linear ops) {i : Nat} (hi : i ∉ receivers ops)
    (k : K) : (history init apply clause ops).Live k i := by
  obtain ⟨used, h1, h2⟩ := ownClauses_run init apply clause ops [] ⟨[], []⟩
    ⟨by simp, by simp, by simp, by simp⟩ h (fun _ _ => by simp)
  intro e he
  refine h1.fresh i e he (fun hu => ?_) k
  rcases h2 i hu with h3 | h3
  · simp at h3
  · exact hi h3

theorem history_ideal {K N S C : Type} [DecidableEq K] (init : N → S) (apply : C → S → Go S)
    (clause : C → K) (ops : List (Act N C)) :
    (history init apply clause ops).entries.map (·.stmt) = ideal init apply ops := by
  have key : ∀ (h : Hist K S), (ops.foldl (Hist.step init apply clause) h).entries.map (·.stmt) =
      ops.foldl (idealStep init apply) (h.entries.map (·.stmt)) := by
    induction ops with
    | nil => intro h; rfl
    | cons op l ih =>
      intro h
      simp only [List.foldl_cons]
      rw [ih, step_ideal]
  exact key _

/-- Builders that are there stay the same, if builders are values. -/
theorem ideal_prefix {N S C : Type} (init : N → S) (apply : C → S → Go S)
    (ops ops' : List (Act N C)) : ∃ l, ideal init apply (ops ++ ops') = ideal init apply ops ++ l := by
  unfold ideal
  rw [List.foldl_append]
  generalize ops.foldl (idealStep init apply) [] = bs
  induction ops' generalizing bs with
  | nil => exact ⟨[], by simp⟩
  | cons op l ih =>
    have h1 : ∃ m, idealStep init apply bs op = bs ++ m := by
      cases op with
      | new n => exact ⟨_, rfl⟩
      | render i b => exact ⟨[], by simp [idealStep]⟩
      | call i c =>
        simp only [idealStep]
        cases bs[i]? with
        | none => exact ⟨[], by simp⟩
        | some b =>
          simp only
          cases apply c b with
          | error p => exact ⟨[], by simp⟩
          | ok b' => exact ⟨_, rfl⟩
    obtain ⟨m, h1⟩ := h1
    obtain ⟨m', h2⟩ := ih (bs ++ m)
    refine ⟨m ++ m', ?_⟩
    rw [List.foldl_cons, h1, h2, List.append_assoc]

theorem receivers_mapIdx {N C : Type} (cs : List C) (n : Nat) :
    receivers (cs.mapIdx fun i c => (.call (n + i) c : Act N C)) = List.range' n cs.length := by
  induction cs generalizing n with
  | nil => rfl
  | cons c cs ih =>
    simp only [List.mapIdx_cons, receivers, List.length_cons, List.range'_succ, Nat.add_zero]
    have h2 : (fun i c => (.call (n + (i + 1)) c : Act N C)) = fun i c => .call (n + 1 + i) c := by
      funext i c; congr 1; omega
    rw [h2, ih]

theorem receivers_chain {N C : Type} (n : N) (cs : List C) :
    receivers (chain n cs) = List.range cs.length := by
  have := receivers_mapIdx (N := N) cs 0
  simp only [Nat.zero_add] at this
  rw [List.range_eq_range', ← this]
  rfl

theorem chain_linear {N C : Type} (n : N) (cs : List C) : Linear (chain n cs) := by
  unfold Linear
  rw [receivers_chain]
  exact List.nodup_range

/-- If no call panics, the last builder of a chain is the result of the calls. -/
theorem chain_ideal {N S C : Type} (init : N → S) (apply : C → S → Go S) (n : N) (cs : List C)
    {s : S} (h : runAll apply cs (init n) = .ok s) :
    (ideal init apply (chain n cs)).length = cs.length + 1 ∧
      (ideal init apply (chain n cs))[cs.length]? = some s := by
  have key : ∀ (cs : List C) (m : Nat) (bs : List S) (b : S), bs.length = m + 1 → bs[m]? = some b →
      runAll apply cs b = .ok s →
      ((cs.mapIdx fun i c => (.call (m + i) c : Act N C)).foldl (idealStep init apply) bs).length =
        m + cs.length + 1 ∧
      ((cs.mapIdx fun i c => (.call (m + i) c : Act N C)).foldl (idealStep init apply) bs)[m + cs.length]? =
        some s := by
    intro cs
    induction cs with
    | nil =>
      intro m bs b h1 h2 h3
      cases h3
      exact ⟨h1, h2⟩
    | cons c cs ih =>
      intro m bs b h1 h2 h3
      simp only [runAll] at h3
      cases hc : apply c b with
      | error p => rw [hc] at h3; cases h3
      | ok b' =>
        rw [hc] at h3
        have hstep : idealStep init apply bs (.call (m + 0) c : Act N C) = bs ++ [b'] := by
          simp only [idealStep, Nat.add_zero, h2, hc]
        have := ih (m + 1) (bs ++ [b']) b' (by simp [h1]) (by simp [h1]) h3
        have h2' : (fun i c => (.call (m + (i + 1)) c : Act N C)) = fun i c => .call (m + 1 + i) c := by
          funext i c; congr 1; omega
        simp only [List.mapIdx_cons, List.foldl_cons, List.length_cons]
        rw [hstep, h2']
        rw [show m + (cs.length + 1) = m + 1 + cs.length by omega]
        exact this
  have := key cs 0 [init n] (init n) rfl rfl h
  simp only [Nat.zero_add] at this
  exact this

end Verif
