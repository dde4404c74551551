import Verif.Lemmas.Calls
import Verif.Lemmas.Columns
import Verif.Lemmas.History
import Verif.Spec.Heap

/-!
# INSERT builders on shared memory
-/

namespace Verif
open Spec

/-- The action without the columns of its SET clause. -/
def bare : ConflictAction → ConflictAction
  | .update p => .update { p with columns := [] }
  | a => a

/-- The syntax and the columns of the SET clause of DO UPDATE. -/
def actionSet : ConflictAction → PairMode × List Column
  | .update p => (p.mode, p.columns)
  | _ => (.unknown, [])

theorem bare_action (h : InsHeap) (s : Slice) (a : ConflictAction) :
    bare (h.action s a) = bare a := by cases a <;> rfl

theorem bare_isEmpty {a b : ConflictAction} (h : bare a = bare b) : a.isEmpty = b.isEmpty := by
  cases a <;> cases b <;> simp only [bare, ConflictAction.update.injEq, reduceCtorEq] at h <;>
    first | rfl | skip
  rename_i p q
  cases p; cases q
  simp only [PairContainer.mk.injEq, true_and] at h
  simp [ConflictAction.isEmpty, PairContainer.isEmpty, h]

/-- A builder, the statement it should be, and where its clauses come from. -/
structure InsRow where
  ref : InsRef
  entry : Entry InsClause InsertStmt

def InsRow.target (x : InsRow) : TEntry Column :=
  ⟨x.ref.target, x.entry.since .onConflict, x.entry.stmt.target⟩

def InsRow.set (x : InsRow) : CEntry :=
  ⟨x.ref.set, x.entry.since .onConflict, (actionSet x.entry.stmt.action).1,
    (actionSet x.entry.stmt.action).2⟩

/-- The other fields of the statement are in the builder itself, and the action but for the columns
of its SET clause. -/
def InsRef.Fits (r : InsRef) (s : InsertStmt) : Prop :=
  { r.base with target := s.target, action := s.action } = s ∧ bare r.base.action = bare s.action

/-- Memory and the account of builders agree. With `n`, no action is an empty DO UPDATE. -/
structure InsInv (r n : Bool) (spent : List Nat) (w : InsWorld) (h : Hist InsClause InsertStmt)
    (rows : List InsRow) : Prop where
  refs : w.refs = rows.map (·.ref)
  entries : h.entries = rows.map (·.entry)
  fits : ∀ x ∈ rows, x.ref.Fits x.entry.stmt
  target : Tracked w.heap.targets spent (rows.map InsRow.target)
  set : CTracked r w.heap.sets [] (rows.map InsRow.set)
  spent : ∀ v ∈ spent, (InsClause.onConflict, v) ∈ h.spent
  none : n = true → ∀ x ∈ rows, x.entry.stmt.action.isEmpty = true → x.ref.target.arr = none

/-- What the loop of `OnConflict` does to memory, if it ends and if it panics. -/
theorem conflictLoop_sim (g : Growth) (args : List Any) : ∀ (h : InsHeap) (r : InsRef)
    (b : InsertStmt), r.target.Valid h.targets → r.target.Full h.targets →
    h.targets.read r.target = b.target →
    (∃ h' p, r.conflictLoop g h args = (h', .error p) ∧ b.onConflictLoop args = .error p ∧
      h'.sets = h.sets ∧ ∃ t, Ext h.targets h'.targets r.target t) ∨
    (∃ h' t s a, r.conflictLoop g h args = (h', .ok ⟨{ r.base with action := a }, t, s⟩) ∧
      b.onConflictLoop args = .ok { b with target := h'.targets.read t, action := a } ∧
      Ext h.targets h'.targets r.target t ∧
      ((a = .nothing ∧ s = .nil ∧ h'.sets = h.sets) ∨
        ∃ p, a = .update p ∧ .conflictUpdate p ∈ args ∧ (h'.sets, s) = h.sets.alloc p.columns)) := by
  induction args with
  | nil =>
    intro h r b hv hf hr
    exact .inl ⟨h, _, rfl, rfl, rfl, r.target, Ext.refl hv hf⟩
  | cons a l ih =>
    intro h r b hv hf hr
    have hpanic : ∀ p, r.conflictLoop g h (a :: l) = (h, .error p) →
        b.onConflictLoop (a :: l) = .error p → _ := fun p h1 h2 =>
      (Or.inl ⟨h, p, h1, h2, rfl, r.target, Ext.refl hv hf⟩ :
        (∃ h' p, r.conflictLoop g h (a :: l) = (h', .error p) ∧
          b.onConflictLoop (a :: l) = .error p ∧
          h'.sets = h.sets ∧ ∃ t, Ext h.targets h'.targets r.target t) ∨
        (∃ h' t s a', r.conflictLoop g h (a :: l) = (h', .ok ⟨{ r.base with action := a' }, t, s⟩) ∧
          b.onConflictLoop (a :: l) = .ok { b with target := h'.targets.read t, action := a' } ∧
          Ext h.targets h'.targets r.target t ∧
          ((a' = .nothing ∧ s = .nil ∧ h'.sets = h.sets) ∨
            ∃ p, a' = .update p ∧ .conflictUpdate p ∈ a :: l ∧
              (h'.sets, s) = h.sets.alloc p.columns)))
    have hcol : ∀ c, r.conflictLoop g h (a :: l) =
          InsRef.conflictLoop g { h with targets := (h.targets.append g r.target [c]).1 }
            { r with target := (h.targets.append g r.target [c]).2 } l →
        b.onConflictLoop (a :: l) =
          InsertStmt.onConflictLoop { b with target := b.target ++ [c] } l →
        (∃ h' p, r.conflictLoop g h (a :: l) = (h', .error p) ∧
          b.onConflictLoop (a :: l) = .error p ∧
          h'.sets = h.sets ∧ ∃ t, Ext h.targets h'.targets r.target t) ∨
        (∃ h' t s a', r.conflictLoop g h (a :: l) = (h', .ok ⟨{ r.base with action := a' }, t, s⟩) ∧
          b.onConflictLoop (a :: l) = .ok { b with target := h'.targets.read t, action := a' } ∧
          Ext h.targets h'.targets r.target t ∧
          ((a' = .nothing ∧ s = .nil ∧ h'.sets = h.sets) ∨
            ∃ p, a' = .update p ∧ .conflictUpdate p ∈ a :: l ∧
              (h'.sets, s) = h.sets.alloc p.columns)) := by
      intro c h1 h2
      have hx := Ext.append g [c] hv hf
      have hrd := (Store.append_spec g (xs := [c]) hv hf).1
      rw [h1, h2]
      rcases ih { h with targets := (h.targets.append g r.target [c]).1 }
          { r with target := (h.targets.append g r.target [c]).2 }
          { b with target := b.target ++ [c] } hx.valid hx.full (by rw [← hr]; exact hrd) with
        ⟨h', p, e1, e2, e3, t, e4⟩ | ⟨h', t, s, a', e1, e2, e3, e4⟩
      · exact .inl ⟨h', p, e1, e2, e3, t, hx.trans e4⟩
      · refine .inr ⟨h', t, s, a', e1, e2, hx.trans e3, ?_⟩
        rcases e4 with e4 | ⟨p, f1, f2, f3⟩
        · exact .inl e4
        · exact .inr ⟨p, f1, List.mem_cons_of_mem _ f2, f3⟩
    cases a with
    | conflictNothing =>
      refine .inr ⟨h, r.target, .nil, .nothing, rfl, ?_, Ext.refl hv hf, .inl ⟨rfl, rfl, rfl⟩⟩
      simp only [InsertStmt.onConflictLoop, hr]
    | conflictUpdate set =>
      by_cases he : b.target.isEmpty = true
      · exact hpanic _ (by simp only [InsRef.conflictLoop, hr, if_pos he]; rfl)
          (by simp only [InsertStmt.onConflictLoop, if_pos he]; rfl)
      · refine .inr ⟨{ h with sets := (h.sets.alloc set.columns).1 }, r.target,
          (h.sets.alloc set.columns).2, .update set, ?_, ?_, Ext.refl hv hf,
          .inr ⟨set, rfl, List.mem_cons_self, rfl⟩⟩
        · simp only [InsRef.conflictLoop, hr, if_neg he]
        · simp only [InsertStmt.onConflictLoop, if_neg he, hr]
    | val v =>
      cases v with
      | str s =>
        cases hc : toColumn (.val (.str s)) with
        | error p =>
          exact hpanic p (by simp only [InsRef.conflictLoop, hc])
            (by simp only [InsertStmt.onConflictLoop, hc])
        | ok c =>
          exact hcol c (by simp only [InsRef.conflictLoop, hc])
            (by simp only [InsertStmt.onConflictLoop, hc])
      | _ => exact hpanic _ rfl rfl
    | selExpr e =>
      cases e with
      | column col =>
        cases hc : toColumn (.selExpr (.column col)) with
        | error p =>
          exact hpanic p (by simp only [InsRef.conflictLoop, hc])
            (by simp only [InsertStmt.onConflictLoop, hc])
        | ok c =>
          exact hcol c (by simp only [InsRef.conflictLoop, hc])
            (by simp only [InsertStmt.onConflictLoop, hc])
      | _ => exact hpanic _ rfl rfl
    | _ => exact hpanic _ rfl rfl

theorem ins_pure [GoRuntime] {c : InsCall} (hc : c.clause ≠ .onConflict) {s t : InsertStmt}
    (ht : { s with target := t.target, action := t.action } = t) :
    (∃ s' t', c.apply s = .ok s' ∧ c.apply t = .ok t' ∧ t'.target = t.target ∧
      t'.action = t.action ∧ s'.action = s.action ∧
      { s' with target := t.target, action := t.action } = t') ∨
    ((∃ p, c.apply s = .error p) ∧ ∃ q, c.apply t = .error q) := by
  have hg : ∀ k : InsGroup, k ≠ .onConflict → insFields.get k s = insFields.get k t := by
    intro k hk
    rw [← ht]
    cases k <;> first | rfl | exact absurd rfl hk
  have hk : insGroup c ≠ .onConflict := by
    intro he
    apply hc
    cases c <;> first | rfl | (simp [insGroup] at he)
  rcases ins_local c s t (hg _ hk) (hg _ hk) with ⟨x, h1, h2⟩ | h
  · refine .inl ⟨_, _, h1, h2, ?_, ?_, ?_, ?_⟩ <;> revert x <;>
      cases hh : insGroup c <;> rw [hh] at hk <;> intro x _ _ <;>
      first | rfl | exact absurd rfl hk |
        (simp only [insFields]; cases s; cases t; simp only [InsertStmt.mk.injEq] at ht ⊢; simp [ht])
  · exact .inr h

theorem InsRef.call_pure [GoRuntime] {g : Growth} {h : InsHeap} {r : InsRef} {c : InsCall}
    (hc : c.clause ≠ .onConflict) : r.call g h c = r.pure h c.apply := by
  cases c <;> first | rfl | exact absurd rfl hc

section
variable {r n : Bool} {spent : List Nat} {w : InsWorld} {h : Hist InsClause InsertStmt}
  {rows : List InsRow}

theorem insInv_pure [GoRuntime] {x : InsRow} (g : Growth) (hi : InsInv r n spent w h rows) {i : Nat}
    (hx : rows[i]? = some x) {c : InsCall} (hc : c.clause ≠ .onConflict) :
    ∃ rows', InsInv r n spent (w.step g (.call i c))
      (h.step (fun _ : Unit => InsertStmt.zero) InsCall.apply InsCall.clause (.call i c)) rows' := by
  have hm : x ∈ rows := List.mem_of_getElem? hx
  have he : h.entries[i]? = some x.entry := by rw [hi.entries, List.getElem?_map, hx]; rfl
  have hr : w.refs[i]? = some x.ref := by rw [hi.refs, List.getElem?_map, hx]; rfl
  have hfit := hi.fits x hm
  simp only [InsWorld.step, Hist.step, hr, he, InsRef.call_pure hc, InsRef.pure]
  rcases ins_pure hc (s := x.ref.stmt w.heap) (t := x.entry.stmt) hfit.1 with
    ⟨s', t', a1, a2, a3, a4, a5, a6⟩ | ⟨⟨p, a1⟩, q, a2⟩
  · rw [a1, a2]
    refine ⟨rows ++ [⟨{ x.ref with base := s' },
      ⟨t', fun k => if k = c.clause then rows.length else x.entry.since k⟩⟩],
      ?_, ?_, ?_, ?_, ?_, ?_, ?_⟩
    · simp [hi.refs]
    · simp [hi.entries]
    · intro y hy
      rcases List.mem_append.1 hy with hy | hy
      · exact hi.fits y hy
      · simp only [List.mem_singleton] at hy; subst hy
        refine ⟨?_, ?_⟩
        · simp only [a3, a4]; exact a6
        · simp only [a4, a5, InsRef.stmt, bare_action]; exact hfit.2
    · have := hi.target.copy (List.mem_map_of_mem hm)
      simpa [InsRow.target, Ne.symm hc, a3] using this
    · have := hi.set.copy (List.mem_map_of_mem hm)
      simpa [InsRow.set, Ne.symm hc, a4] using this
    · intro v hv
      exact List.mem_cons_of_mem _ (hi.spent v hv)
    · intro hn y hy hy'
      rcases List.mem_append.1 hy with hy | hy
      · exact hi.none hn y hy hy'
      · simp only [List.mem_singleton] at hy; subst hy
        simp only [a4] at hy'
        exact hi.none hn x hm hy'
  · rw [a1, a2]
    exact ⟨rows, hi.refs, hi.entries, hi.fits, hi.target, hi.set,
      fun v hv => List.mem_cons_of_mem _ (hi.spent v hv), hi.none⟩

/-- Extending a slice that has no array. -/
theorem Tracked.ext_none {α : Type} {st st' : Store α} {spent : List Nat} {es : List (TEntry α)}
    (h : Tracked st spent es) {e : TEntry α} (ha : e.slice.arr = none) {s : Slice}
    {c : List α} (hx : Ext st st' e.slice s) (hr : st'.read s = c) :
    Tracked st' spent (es ++ [⟨s, es.length, c⟩]) := by
  refine h.push (fun _ hv => hv) hr hx.valid hx.full ?_ ?_
  · intro f hf
    obtain ⟨h6, h7, h8⟩ := hx.other f.slice (h.valid f hf)
    refine ⟨h6, h7, fun hn => h8 ?_ (h.full f hf hn)⟩
    by_cases hf : f.slice.arr = none
    · exact .inl hf
    · exact .inr (by rw [ha]; exact hf)
  · intro f hf _ hsf
    rcases hx.arr with h4 | ⟨a, hle, h4⟩
    · rw [h4]; exact ha
    · have := Store.valid_lt (h.valid f hf) (hsf.symm.trans h4)
      omega

/-- A call of `OnConflict`, on a builder that may have it. -/
theorem insInv_conflict [GoRuntime] {x : InsRow} (g : Growth) (hi : InsInv r n spent w h rows)
    {i : Nat} (hx : rows[i]? = some x) (args : List Any)
    (hok : x.ref.target.arr = none ∨ x.entry.since .onConflict ∉ spent)
    (hn : n = true → ∀ p, Any.conflictUpdate p ∈ args → p.isEmpty = false) :
    ∃ spent' rows', InsInv r n spent' (w.step g (.call i (.onConflict args)))
      (h.step (fun _ : Unit => InsertStmt.zero) InsCall.apply InsCall.clause (.call i (.onConflict args)))
      rows' ∧ ∀ v, v ∈ spent' → v ∈ spent ∨
        (InsClause.onConflict, v) = (.onConflict, x.entry.since .onConflict) := by
  have hm : x ∈ rows := List.mem_of_getElem? hx
  have he : h.entries[i]? = some x.entry := by rw [hi.entries, List.getElem?_map, hx]; rfl
  have hr : w.refs[i]? = some x.ref := by rw [hi.refs, List.getElem?_map, hx]; rfl
  have hfit := hi.fits x hm
  have hemp : (x.ref.stmt w.heap).action.isEmpty = x.entry.stmt.action.isEmpty :=
    bare_isEmpty (by simp only [InsRef.stmt, bare_action]; exact hfit.2)
  have hmt : x.target ∈ rows.map InsRow.target := List.mem_map_of_mem hm
  have hpanic : ∀ p q, x.ref.OnConflict g w.heap args = (w.heap, .error p) →
      x.entry.stmt.OnConflict args = .error q →
      ∃ spent' rows', InsInv r n spent' (w.step g (.call i (.onConflict args)))
      (h.step (fun _ : Unit => InsertStmt.zero) InsCall.apply InsCall.clause (.call i (.onConflict args)))
      rows' ∧ ∀ v, v ∈ spent' → v ∈ spent ∨
        (InsClause.onConflict, v) = (.onConflict, x.entry.since .onConflict) := by
    intro p q h1 h2
    simp only [InsWorld.step, Hist.step, hr, he, InsRef.call, InsCall.apply, h1, h2]
    exact ⟨spent, rows, ⟨hi.refs, hi.entries, hi.fits, hi.target, hi.set,
      fun v hv => List.mem_cons_of_mem _ (hi.spent v hv), hi.none⟩, fun v hv => .inl hv⟩
  by_cases hg : (!x.entry.stmt.action.isEmpty) = true
  · exact hpanic _ _ (by simp only [InsRef.OnConflict, hemp, if_pos hg]; rfl)
      (by simp only [InsertStmt.OnConflict, if_pos hg]; rfl)
  by_cases ha : args.isEmpty = true
  · exact hpanic _ _ (by simp only [InsRef.OnConflict, hemp, if_neg hg, if_pos ha]; rfl)
      (by simp only [InsertStmt.OnConflict, if_neg hg, if_pos ha]; rfl)
  have hfull : x.ref.target.Full w.heap.targets := by
    rcases hok with h0 | h0
    · intro a y hy; rw [h0] at hy; cases hy
    · exact hi.target.full _ hmt h0
  have hext : ∀ {st' : Store Column} {t : Slice} {c : List Column},
      Ext w.heap.targets st' x.ref.target t → st'.read t = c →
      ∃ spent', Tracked st' spent' (rows.map InsRow.target ++ [⟨t, rows.length, c⟩]) ∧
        ∀ v, v ∈ spent' → v ∈ spent ∨
          (InsClause.onConflict, v) = (.onConflict, x.entry.since .onConflict) := by
    intro st' t c h1 h2
    rcases hok with h0 | h0
    · have h3 := hi.target.ext_none (e := x.target) h0 h1 h2
      exact ⟨spent, by simpa using h3, fun v hv => .inl hv⟩
    · have h3 := hi.target.ext hmt h0 h1 h2
      refine ⟨x.entry.since .onConflict :: spent, by simpa [InsRow.target] using h3,
        fun v hv => ?_⟩
      rcases List.mem_cons.1 hv with hv | hv
      · exact .inr (by rw [hv])
      · exact .inl hv
  simp only [InsWorld.step, Hist.step, hr, he, InsRef.call, InsCall.apply, InsRef.OnConflict,
    InsertStmt.OnConflict, hemp, if_neg hg, if_neg ha, InsCall.clause]
  rcases conflictLoop_sim g args w.heap x.ref x.entry.stmt (hi.target.valid _ hmt) hfull
      (hi.target.read _ hmt) with ⟨h', p, e1, e2, e3, t, e4⟩ | ⟨h', t, s, a, e1, e2, e3, e4⟩
  · rw [e1, e2]
    obtain ⟨spent', f1, f2⟩ := hext e4 rfl
    refine ⟨spent', rows, ⟨hi.refs, hi.entries, hi.fits, f1.drop hi.target.fresh,
      by simp only [e3]; exact hi.set, ?_, hi.none⟩, f2⟩
    intro v hv
    rcases f2 v hv with hv | hv
    · exact List.mem_cons_of_mem _ (hi.spent v hv)
    · simp only [hv]; exact List.mem_cons_self
  · rw [e1, e2]
    obtain ⟨spent', f1, f2⟩ := hext e3 rfl
    refine ⟨spent', rows ++ [⟨⟨{ x.ref.base with action := a }, t, s⟩,
      ⟨{ x.entry.stmt with target := h'.targets.read t, action := a },
        fun k => if k = .onConflict then rows.length else x.entry.since k⟩⟩],
      ⟨?_, ?_, ?_, ?_, ?_, ?_, ?_⟩, f2⟩
    · simp [hi.refs]
    · simp [hi.entries]
    · intro y hy
      rcases List.mem_append.1 hy with hy | hy
      · exact hi.fits y hy
      · simp only [List.mem_singleton] at hy; subst hy
        refine ⟨?_, rfl⟩
        have := hfit.1
        simp only
        rw [← this]
    · simpa [InsRow.target] using f1
    · rcases e4 with ⟨g1, g2, g3⟩ | ⟨p, g1, _, g3⟩
      · subst g1 g2
        simp only [g3]
        simpa [InsRow.set, actionSet] using hi.set.new
      · subst g1
        have k1 : h'.sets = (w.heap.sets.alloc p.columns).1 := by rw [← g3]
        have k2 : s = (w.heap.sets.alloc p.columns).2 := by rw [← g3]
        simp only [k1, k2]
        obtain ⟨l1, l2, l3, l4, l5⟩ := Store.alloc_spec w.heap.sets p.columns
        have hnew : ∀ e ∈ rows.map InsRow.set,
            (w.heap.sets.alloc p.columns).2.arr = e.slice.arr → False := by
          intro e he hh
          have := Store.valid_lt (hi.set.valid e he) (hh.symm.trans l4)
          omega
        have := hi.set.push (m := p.mode) (c := p.columns) (fun _ hv => hv)
          (by rw [l1]; exact Same.refl _ _) l2 l3
          (fun e he => ⟨(l5 _ (hi.set.valid e he)).1, (l5 _ (hi.set.valid e he)).2.1,
            fun hv => (l5 _ (hi.set.valid e he)).2.2 (hi.set.full e he hv)⟩)
          (fun e he _ hh => (hnew e he hh).elim) (fun e he hh _ => (hnew e he hh).elim)
        simpa [InsRow.set, actionSet] using this
    · intro v hv
      rcases f2 v hv with hv | hv
      · exact List.mem_cons_of_mem _ (hi.spent v hv)
      · simp only [hv]; exact List.mem_cons_self
    · intro hn' y hy hy'
      rcases List.mem_append.1 hy with hy | hy
      · exact hi.none hn' y hy hy'
      · simp only [List.mem_singleton] at hy; subst hy
        exfalso
        simp only at hy'
        rcases e4 with ⟨g1, _⟩ | ⟨p, g1, g2, _⟩
        · subst g1; cases hy'
        · subst g1
          simp only [ConflictAction.isEmpty, hn hn' p g2] at hy'
          cases hy'

theorem insInv_step [GoRuntime] (g : Growth) (hi : InsInv r n spent w h rows) (op : Act Unit InsCall)
    (ha : h.Allows InsCall.clause InsClause.accumulates op ∨ n = true)
    (hn : n = true → ∀ i args p, op = .call i (.onConflict args) → Any.conflictUpdate p ∈ args →
      p.isEmpty = false)
    (hrender : ∀ i b, op = .render i b → r = true) :
    ∃ spent' rows', InsInv r n spent' (w.step g op)
      (h.step (fun _ : Unit => InsertStmt.zero) InsCall.apply InsCall.clause op) rows' := by
  cases op with
  | render i b =>
    have hr : r = true := hrender i b rfl
    subst hr
    simp only [InsWorld.step, Hist.step]
    cases hx : rows[i]? with
    | none =>
      rw [hi.refs, List.getElem?_map, hx]
      exact ⟨spent, rows, hi⟩
    | some x =>
      have hm : x ∈ rows := List.mem_of_getElem? hx
      have hr : w.refs[i]? = some x.ref := by rw [hi.refs, List.getElem?_map, hx]; rfl
      have hfit := (hi.fits x hm).2
      rw [hr]
      simp only
      cases hact : x.ref.base.action with
      | update p =>
        simp only [InsRef.rendered, hact]
        split
        · rename_i hc
          simp only [Bool.and_eq_true, beq_iff_eq] at hc
          refine ⟨spent, rows, hi.refs, hi.entries, hi.fits, hi.target, ?_, hi.spent, hi.none⟩
          refine hi.set.sort (e := x.set) (List.mem_map_of_mem hm) ?_
          rw [hact] at hfit
          simp only [InsRow.set]
          cases hs : x.entry.stmt.action with
          | update q =>
            rw [hs] at hfit
            simp only [bare, ConflictAction.update.injEq, PairContainer.mk.injEq] at hfit
            simp only [actionSet]
            rw [← hfit.1]; exact hc.2
          | _ => rw [hs] at hfit; simp [bare] at hfit
        · exact ⟨spent, rows, hi⟩
      | _ => simp only [InsRef.rendered, hact]; exact ⟨spent, rows, hi⟩
  | new t =>
    have hl : h.entries.length = rows.length := by rw [hi.entries, List.length_map]
    refine ⟨spent, rows ++ [⟨⟨InsertStmt.zero, .nil, .nil⟩,
      ⟨InsertStmt.zero, fun _ => rows.length⟩⟩], ?_, ?_, ?_, ?_, ?_, ?_, ?_⟩
    · simp [InsWorld.step, hi.refs]
    · simp [Hist.step, hi.entries]
    · intro x hx
      rcases List.mem_append.1 hx with hx | hx
      · exact hi.fits x hx
      · simp only [List.mem_singleton] at hx; subst hx; exact ⟨rfl, rfl⟩
    · have := hi.target.new
      simpa [InsRow.target, Hist.step, InsWorld.step, InsertStmt.zero] using this
    · have := hi.set.new
      simpa [InsRow.set, Hist.step, InsWorld.step, InsertStmt.zero, actionSet] using this
    · exact hi.spent
    · intro hn' x hx hx'
      rcases List.mem_append.1 hx with hx | hx
      · exact hi.none hn' x hx hx'
      · simp only [List.mem_singleton] at hx; subst hx; rfl
  | call i c =>
    cases hx : rows[i]? with
    | none =>
      refine ⟨spent, rows, ?_⟩
      simp only [InsWorld.step, Hist.step, hi.refs, hi.entries, List.getElem?_map, hx,
        Option.map_none]
      exact hi
    | some x =>
      have hm : x ∈ rows := List.mem_of_getElem? hx
      have he : h.entries[i]? = some x.entry := by rw [hi.entries, List.getElem?_map, hx]; rfl
      by_cases hc : c.clause = .onConflict
      · cases c with
        | onConflict args =>
          by_cases hemp : x.entry.stmt.action.isEmpty = true
          · have hok : x.ref.target.arr = none ∨ x.entry.since .onConflict ∉ spent := by
              rcases ha with ha | ha
              · exact .inr fun hv => ha x.entry he rfl (hi.spent _ hv)
              · exact .inl (hi.none ha x hm hemp)
            obtain ⟨s', r', h1, _⟩ := insInv_conflict g hi hx args hok fun hn' p hp =>
              hn hn' i args p rfl hp
            exact ⟨s', r', h1⟩
          · have hr : w.refs[i]? = some x.ref := by rw [hi.refs, List.getElem?_map, hx]; rfl
            have hfit := hi.fits x hm
            have hemp' : (x.ref.stmt w.heap).action.isEmpty = x.entry.stmt.action.isEmpty :=
              bare_isEmpty (by simp only [InsRef.stmt, bare_action]; exact hfit.2)
            have hg : (!x.entry.stmt.action.isEmpty) = true := by simpa using hemp
            simp only [InsWorld.step, Hist.step, hr, he, InsRef.call, InsCall.apply,
              InsRef.OnConflict, InsertStmt.OnConflict, hemp', if_pos hg, Go.panic]
            exact ⟨spent, rows, hi.refs, hi.entries, hi.fits, hi.target, hi.set,
              fun v hv => List.mem_cons_of_mem _ (hi.spent v hv), hi.none⟩
        | _ => simp [InsCall.clause] at hc
      · obtain ⟨r', h1⟩ := insInv_pure g hi hx hc
        exact ⟨spent, r', h1⟩

theorem insInv_run [GoRuntime] (g : Growth) (ops : List (Act Unit InsCall)) :
    ∀ {spent : List Nat} {w : InsWorld} {h : Hist InsClause InsertStmt} {rows : List InsRow},
    InsInv r n spent w h rows →
    (ExtendsOnce (fun _ : Unit => InsertStmt.zero) InsCall.apply InsCall.clause InsClause.accumulates h ops
      ∨ n = true) →
    (n = true → ∀ i args p, Act.call i (.onConflict args) ∈ ops → Any.conflictUpdate p ∈ args →
      p.isEmpty = false) →
    (∀ i b, Act.render i b ∈ ops → r = true) →
    ∃ spent' rows', InsInv r n spent' (ops.foldl (InsWorld.step g) w)
      (ops.foldl (Hist.step (fun _ : Unit => InsertStmt.zero) InsCall.apply InsCall.clause) h) rows' := by
  induction ops with
  | nil => exact fun hi _ _ _ => ⟨_, _, hi⟩
  | cons op l ih =>
    intro spent w h rows hi he hn hr
    obtain ⟨spent', rows', hi'⟩ := insInv_step g hi op
      (he.imp (·.1) id)
      (fun hn' i args p e hp => hn hn' i args p (by rw [e]; exact List.mem_cons_self) hp)
      fun i b e => hr i b (by rw [e]; exact List.mem_cons_self)
    exact ih hi' (he.imp (·.2) id)
      (fun hn' i args p e hp => hn hn' i args p (List.mem_cons_of_mem _ e) hp)
      fun i b hm => hr i b (List.mem_cons_of_mem _ hm)

theorem insInv_start : InsInv r n [] ⟨⟨[], []⟩, []⟩ ⟨[], []⟩ [] :=
  ⟨rfl, rfl, by simp, Tracked.start, CTracked.start, by simp, by simp⟩

end

end Verif
