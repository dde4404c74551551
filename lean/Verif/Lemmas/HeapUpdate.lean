import Verif.Lemmas.Calls
import Verif.Lemmas.HeapPairs
import Verif.Lemmas.History
import Verif.Spec.Heap

/-!
# UPDATE builders on shared memory
-/

namespace Verif
open Spec

/-- The other fields of the statement are in the builder itself. -/
def UpdRef.Fits (r : UpdRef) (s : UpdateStmt) : Prop :=
  { r.base with withs := s.withs, set := s.set } = s

/-- A builder, the statement it should be, and where its clauses come from. -/
structure UpdRow where
  ref : UpdRef
  entry : Entry UpdClause UpdateStmt

def UpdRow.withs (x : UpdRow) : TEntry WithQuery :=
  ⟨x.ref.withs, x.entry.since .with, x.entry.stmt.withs⟩
def UpdRow.exprs (x : UpdRow) : TEntry Expr :=
  ⟨x.ref.set.exprs, x.entry.since .set, x.entry.stmt.set.expressions⟩
def UpdRow.columns (x : UpdRow) : CEntry :=
  ⟨x.ref.set.columns, x.entry.since .set, x.entry.stmt.set.mode, x.entry.stmt.set.columns⟩

/-- Memory and the account of builders agree. -/
structure UpdInv (r : Bool) (w : UpdWorld) (h : Hist UpdClause UpdateStmt) (rows : List UpdRow) :
    Prop where
  refs : w.refs = rows.map (·.ref)
  entries : h.entries = rows.map (·.entry)
  fits : ∀ x ∈ rows, x.ref.Fits x.entry.stmt
  withs : Tracked w.heap.withs (spentOf h.spent .with) (rows.map UpdRow.withs)
  exprs : Tracked w.heap.exprs (spentOf h.spent .set) (rows.map UpdRow.exprs)
  columns : CTracked r w.heap.columns (spentOf h.spent .set) (rows.map UpdRow.columns)
  modes : ∀ x ∈ rows, x.ref.set.mode = x.entry.stmt.set.mode
  known : ∀ x ∈ rows, x.ref.set.columns.arr ≠ none → x.ref.set.mode ≠ .unknown
  maps : ∀ x ∈ rows, (UpdClause.set, x.entry.since .set) ∉ h.spent →
    w.heap.maps[x.ref.set.map]? = some x.entry.stmt.set.map
  inside : ∀ x ∈ rows, x.ref.set.map < w.heap.maps.length
  own : ∀ x ∈ rows, ∀ y ∈ rows, (UpdClause.set, x.entry.since .set) ∉ h.spent →
    (UpdClause.set, y.entry.since .set) ∉ h.spent → x.ref.set.map = y.ref.set.map →
    x.entry.since .set = y.entry.since .set

section
variable {r : Bool} {w : UpdWorld} {h : Hist UpdClause UpdateStmt} {rows : List UpdRow}

theorem UpdInv.rep (hi : UpdInv r w h rows) {x : UpdRow} (hx : x ∈ rows)
    (hs : (UpdClause.set, x.entry.since .set) ∉ h.spent) :
    Rep r w.heap x.ref.set x.entry.stmt.set := by
  have hs' : x.entry.since .set ∉ spentOf h.spent UpdClause.set := fun hv => hs (mem_spentOf.1 hv)
  have hm : x.columns ∈ rows.map UpdRow.columns := List.mem_map_of_mem hx
  have hm' : x.exprs ∈ rows.map UpdRow.exprs := List.mem_map_of_mem hx
  exact ⟨hi.modes x hx, hi.maps x hx hs, hi.columns.read _ hm hs', hi.exprs.read _ hm',
    hi.columns.valid _ hm, hi.columns.full _ hm hs', hi.exprs.valid _ hm', hi.exprs.full _ hm' hs',
    hi.known x hx⟩

theorem UpdRef.call_pure {g : Growth} {h : UpdHeap} {r : UpdRef} {c : UpdCall}
    (hc : c.clause.accumulates = false) : r.call g h c = r.pure h c.apply := by
  cases c <;> first | rfl | (simp [UpdCall.clause, UpdClause.accumulates] at hc)

theorem upd_pure {c : UpdCall} (hc : c.clause.accumulates = false) {s t : UpdateStmt}
    (ht : { s with withs := t.withs, set := t.set } = t) :
    (∃ s' t', c.apply s = .ok s' ∧ c.apply t = .ok t' ∧ t'.withs = t.withs ∧ t'.set = t.set ∧
      { s' with withs := t.withs, set := t.set } = t') ∨
    ((∃ p, c.apply s = .error p) ∧ ∃ q, c.apply t = .error q) := by
  have hg : ∀ k : UpdClause, k.accumulates = false → k.get s = k.get t := by
    intro k hk
    rw [← ht]
    cases k <;> first | rfl | (simp [UpdClause.accumulates] at hk)
  rcases upd_local c s t (hg _ hc) (hg _ hc) with ⟨x, h1, h2⟩ | h
  · refine .inl ⟨_, _, h1, h2, ?_, ?_, ?_⟩
    · revert x
      cases hk : c.clause <;> rw [hk] at hc <;> intro x _ _ <;>
        first | rfl | (simp [UpdClause.accumulates] at hc)
    · revert x
      cases hk : c.clause <;> rw [hk] at hc <;> intro x _ _ <;>
        first | rfl | (simp [UpdClause.accumulates] at hc)
    · revert x
      cases hk : c.clause <;> rw [hk] at hc <;> intro x _ _ <;>
        first | (simp [UpdClause.accumulates] at hc; done) |
          (simp only [updFields]; cases s; cases t; simp only [UpdateStmt.mk.injEq] at ht ⊢; simp [ht])
  · exact .inr h

/-- A SET clause is extended, or the attempt panics after some of it. -/
theorem updInv_set {x : UpdRow} (hi : UpdInv r w h rows) (hx : x ∈ rows)
    (hs : (UpdClause.set, x.entry.since .set) ∉ h.spent) {heap : UpdHeap} {p : PairRef}
    (hf : PFrame w.heap heap x.ref.set p) :
    UpdInv r ⟨heap, w.refs⟩ ⟨h.entries, (.set, x.entry.since .set) :: h.spent⟩ rows ∧
    ∀ q, Rep r heap p q →
      UpdInv r ⟨heap, w.refs ++ [{ x.ref with set := p }]⟩
        ⟨h.entries ++ [⟨{ x.entry.stmt with set := q },
          fun k => if k = .set then h.entries.length else x.entry.since k⟩],
          (.set, x.entry.since .set) :: h.spent⟩
        (rows ++ [⟨{ x.ref with set := p }, ⟨{ x.entry.stmt with set := q },
          fun k => if k = .set then rows.length else x.entry.since k⟩⟩]) := by
  have hs' : x.entry.since .set ∉ spentOf h.spent UpdClause.set := fun hv => hs (mem_spentOf.1 hv)
  have hm : x.columns ∈ rows.map UpdRow.columns := List.mem_map_of_mem hx
  have hm' : x.exprs ∈ rows.map UpdRow.exprs := List.mem_map_of_mem hx
  have hcm : x.ref.set.columns.arr ≠ none → p.mode = x.entry.stmt.set.mode := fun hn => by
    rw [← hi.modes x hx]; exact hf.mode (hi.known x hx hn)
  have hexc := hi.exprs.ext hm' hs' hf.exprs rfl
  have hcol := hi.columns.ext (m := p.mode) (c := heap.columns.read p.columns) hm hs' hf.cols
    (Same.refl _ _) hcm
  have hmaps : ∀ y ∈ rows,
      (UpdClause.set, y.entry.since .set) ∉ (UpdClause.set, x.entry.since .set) :: h.spent →
      heap.maps[y.ref.set.map]? = some y.entry.stmt.set.map := by
    intro y hy hn
    have hn' : (UpdClause.set, y.entry.since .set) ∉ h.spent :=
      fun hh => hn (List.mem_cons_of_mem _ hh)
    rw [hf.maps _ ?_, hi.maps y hy hn']
    intro he
    apply hn
    rw [hi.own y hy x hx hn' hs he]
    exact List.mem_cons_self
  have hown : ∀ y ∈ rows, ∀ z ∈ rows,
      (UpdClause.set, y.entry.since .set) ∉ (UpdClause.set, x.entry.since .set) :: h.spent →
      (UpdClause.set, z.entry.since .set) ∉ (UpdClause.set, x.entry.since .set) :: h.spent →
      y.ref.set.map = z.ref.set.map → y.entry.since .set = z.entry.since .set :=
    fun y hy z hz h1 h2 => hi.own y hy z hz (fun hh => h1 (List.mem_cons_of_mem _ hh))
      (fun hh => h2 (List.mem_cons_of_mem _ hh))
  constructor
  · refine ⟨hi.refs, hi.entries, hi.fits, ?_, ?_, ?_, hi.modes, hi.known, hmaps, ?_, hown⟩
    · simp only [hf.withs]
      rw [spentOf_cons_ne (by simp)]
      exact hi.withs
    · rw [spentOf_cons_self]
      exact hexc.drop hi.exprs.fresh
    · rw [spentOf_cons_self]
      exact hcol.drop hi.columns.fresh
    · intro y hy
      simp only [hf.maplen]
      exact hi.inside y hy
  · intro q hr
    have hlen : h.entries.length = rows.length := by rw [hi.entries, List.length_map]
    refine ⟨?_, ?_, ?_, ?_, ?_, ?_, ?_, ?_, ?_, ?_, ?_⟩
    · simp [hi.refs]
    · simp [hi.entries]
    · intro y hy
      rcases List.mem_append.1 hy with hy | hy
      · exact hi.fits y hy
      · simp only [List.mem_singleton] at hy; subst hy
        have := hi.fits x hx
        simp only [UpdRef.Fits] at this ⊢
        rw [← this]
    · simp only [hf.withs]
      rw [spentOf_cons_ne (by simp)]
      have := hi.withs.copy (List.mem_map_of_mem hx)
      simpa [UpdRow.withs] using this
    · rw [spentOf_cons_self]
      have := hi.exprs.ext hm' hs' hf.exprs hr.exprs
      simpa [UpdRow.exprs] using this
    · rw [spentOf_cons_self]
      have := hi.columns.ext (m := q.mode) (c := q.columns) hm hs' hf.cols hr.cols
        (by rw [← hr.mode]; exact hcm)
      simpa [UpdRow.columns] using this
    · intro y hy
      rcases List.mem_append.1 hy with hy | hy
      · exact hi.modes y hy
      · simp only [List.mem_singleton] at hy; subst hy; exact hr.mode
    · intro y hy
      rcases List.mem_append.1 hy with hy | hy
      · exact hi.known y hy
      · simp only [List.mem_singleton] at hy; subst hy; exact hr.known
    · intro y hy hn
      rcases List.mem_append.1 hy with hy | hy
      · exact hmaps y hy hn
      · simp only [List.mem_singleton] at hy; subst hy; exact hr.map
    · intro y hy
      simp only [hf.maplen]
      rcases List.mem_append.1 hy with hy | hy
      · exact hi.inside y hy
      · simp only [List.mem_singleton] at hy; subst hy
        simp only [hf.map]
        exact hi.inside x hx
    · have hno : ∀ y ∈ rows,
          (UpdClause.set, y.entry.since .set) ∉ (UpdClause.set, x.entry.since .set) :: h.spent →
          p.map = y.ref.set.map → False := by
        intro y hy hn he
        have hn' : (UpdClause.set, y.entry.since .set) ∉ h.spent :=
          fun hh => hn (List.mem_cons_of_mem _ hh)
        rw [hf.map] at he
        rw [hi.own x hx y hy hs hn' he] at hn
        exact hn List.mem_cons_self
      intro y hy z hz h1 h2 he
      rcases List.mem_append.1 hy with hy | hy <;> rcases List.mem_append.1 hz with hz | hz
      · exact hown y hy z hz h1 h2 he
      · simp only [List.mem_singleton] at hz; subst hz
        exact (hno y hy h1 he.symm).elim
      · simp only [List.mem_singleton] at hy; subst hy
        exact (hno z hz h2 he).elim
      · simp only [List.mem_singleton] at hy hz; rw [hy, hz]

/-- A call that only reads the shared memory. -/
theorem updInv_pure {x : UpdRow} (g : Growth) (hi : UpdInv r w h rows) {i : Nat}
    (hx : rows[i]? = some x) {c : UpdCall} (hc : c.clause.accumulates = false) [GoRuntime] :
    ∃ rows', UpdInv r (w.step g (.call i c))
      (h.step UpdateStmt.init UpdCall.apply UpdCall.clause (.call i c)) rows' := by
  have hm : x ∈ rows := List.mem_of_getElem? hx
  have he : h.entries[i]? = some x.entry := by rw [hi.entries, List.getElem?_map, hx]; rfl
  have hr : w.refs[i]? = some x.ref := by rw [hi.refs, List.getElem?_map, hx]; rfl
  have h2 : c.clause ≠ .with := fun e => by rw [e] at hc; cases hc
  have h3 : c.clause ≠ .set := fun e => by rw [e] at hc; cases hc
  have hfit := hi.fits x hm
  have hspent : ∀ v, (UpdClause.set, v) ∈ (c.clause, x.entry.since c.clause) :: h.spent ↔
      (UpdClause.set, v) ∈ h.spent := by
    intro v
    simp [Ne.symm h3]
  simp only [UpdWorld.step, Hist.step, hr, he, UpdRef.call_pure hc, UpdRef.pure]
  rcases upd_pure hc (s := x.ref.stmt w.heap) (t := x.entry.stmt) hfit with
    ⟨s', t', a1, a2, a3, a4, a5⟩ | ⟨⟨p, a1⟩, q, a2⟩
  · rw [a1, a2]
    refine ⟨rows ++ [⟨{ x.ref with base := s' },
      ⟨t', fun k => if k = c.clause then rows.length else x.entry.since k⟩⟩],
      ?_, ?_, ?_, ?_, ?_, ?_, ?_, ?_, ?_, ?_, ?_⟩
    · simp [hi.refs]
    · simp [hi.entries]
    · intro y hy
      rcases List.mem_append.1 hy with hy | hy
      · exact hi.fits y hy
      · simp only [List.mem_singleton] at hy; subst hy
        simp only [UpdRef.Fits, a3, a4]
        exact a5
    · rw [spentOf_cons_ne h2]
      have := hi.withs.copy (List.mem_map_of_mem hm)
      simpa [UpdRow.withs, Ne.symm h2, a3] using this
    · rw [spentOf_cons_ne h3]
      have := hi.exprs.copy (List.mem_map_of_mem hm)
      simpa [UpdRow.exprs, Ne.symm h3, a4] using this
    · rw [spentOf_cons_ne h3]
      have := hi.columns.copy (List.mem_map_of_mem hm)
      simpa [UpdRow.columns, Ne.symm h3, a4] using this
    · intro y hy
      rcases List.mem_append.1 hy with hy | hy
      · exact hi.modes y hy
      · simp only [List.mem_singleton] at hy; subst hy
        simp only [a4]; exact hi.modes x hm
    · intro y hy
      rcases List.mem_append.1 hy with hy | hy
      · exact hi.known y hy
      · simp only [List.mem_singleton] at hy; subst hy
        exact hi.known x hm
    · intro y hy hn
      rw [hspent] at hn
      rcases List.mem_append.1 hy with hy | hy
      · exact hi.maps y hy hn
      · simp only [List.mem_singleton] at hy; subst hy
        simp only [a4]
        simp only [if_neg (Ne.symm h3)] at hn
        exact hi.maps x hm hn
    · intro y hy
      rcases List.mem_append.1 hy with hy | hy
      · exact hi.inside y hy
      · simp only [List.mem_singleton] at hy; subst hy
        exact hi.inside x hm
    · intro y hy z hz hn1 hn2
      rw [hspent] at hn1 hn2
      have key : ∀ y, y ∈ rows ++ [(⟨{ x.ref with base := s' },
          ⟨t', fun k => if k = c.clause then rows.length else x.entry.since k⟩⟩ : UpdRow)] →
          ∃ y' ∈ rows, y'.ref.set = y.ref.set ∧ y'.entry.since .set = y.entry.since .set := by
        intro y hy
        rcases List.mem_append.1 hy with hy | hy
        · exact ⟨y, hy, rfl, rfl⟩
        · simp only [List.mem_singleton] at hy; subst hy
          exact ⟨x, hm, rfl, by simp [Ne.symm h3]⟩
      obtain ⟨y', b1, b2, b3⟩ := key y hy
      obtain ⟨z', c1, c2, c3⟩ := key z hz
      rw [← b2, ← c2, ← b3, ← c3]
      rw [← b3] at hn1
      rw [← c3] at hn2
      exact hi.own y' b1 z' c1 hn1 hn2
  · rw [a1, a2]
    refine ⟨rows, hi.refs, hi.entries, hi.fits, ?_, ?_, ?_, hi.modes, hi.known, ?_, hi.inside, ?_⟩
    · rw [spentOf_cons_ne h2]; exact hi.withs
    · rw [spentOf_cons_ne h3]; exact hi.exprs
    · rw [spentOf_cons_ne h3]; exact hi.columns
    · intro y hy hn
      rw [hspent] at hn
      exact hi.maps y hy hn
    · intro y hy z hz hn1 hn2
      rw [hspent] at hn1 hn2
      exact hi.own y hy z hz hn1 hn2

/-- A call of `With`. -/
theorem updInv_with {x : UpdRow} (g : Growth) (hi : UpdInv r w h rows) {i : Nat}
    (hx : rows[i]? = some x) (args : List WithQuery)
    (hns : (UpdClause.with, x.entry.since .with) ∉ h.spent) [GoRuntime] :
    ∃ rows', UpdInv r (w.step g (.call i (.with args)))
      (h.step UpdateStmt.init UpdCall.apply UpdCall.clause (.call i (.with args))) rows' := by
  have hm : x ∈ rows := List.mem_of_getElem? hx
  have he : h.entries[i]? = some x.entry := by rw [hi.entries, List.getElem?_map, hx]; rfl
  have hr : w.refs[i]? = some x.ref := by rw [hi.refs, List.getElem?_map, hx]; rfl
  have hspent : ∀ v, (UpdClause.set, v) ∈ (UpdClause.with, x.entry.since .with) :: h.spent ↔
      (UpdClause.set, v) ∈ h.spent := by
    intro v
    simp
  have hns' : (UpdRow.withs x).ver ∉ spentOf h.spent .with := fun hv => hns (mem_spentOf.1 hv)
  have hrd : w.heap.withs.read x.ref.withs = x.entry.stmt.withs :=
    hi.withs.read _ (List.mem_map_of_mem hm)
  have hap : x.entry.stmt.With args =
      .ok { x.entry.stmt with withs := x.entry.stmt.withs ++ args } := by
    simp only [UpdateStmt.With]
    by_cases hw : x.entry.stmt.withs.isEmpty = true
    · rw [if_pos hw, List.isEmpty_iff.1 hw]; rfl
    · rw [if_neg hw]
  have htr : ∃ st s, (if x.entry.stmt.withs.isEmpty then w.heap.withs.alloc args
      else w.heap.withs.append g x.ref.withs args) = (st, s) ∧
      Tracked st (spentOf ((UpdClause.with, x.entry.since .with) :: h.spent) .with)
        (rows.map UpdRow.withs ++ [⟨s, rows.length, x.entry.stmt.withs ++ args⟩]) := by
    rw [spentOf_cons_self]
    by_cases hw : x.entry.stmt.withs.isEmpty = true
    · rw [if_pos hw]
      refine ⟨_, _, (Prod.eta _).symm, ?_⟩
      have := (hi.withs.alloc args).weaken
        (spent' := x.entry.since .with :: spentOf h.spent .with)
        fun v hv => List.mem_cons_of_mem _ hv
      rw [List.isEmpty_iff.1 hw]
      simpa using this
    · rw [if_neg hw]
      refine ⟨_, _, (Prod.eta _).symm, ?_⟩
      have := hi.withs.append g (List.mem_map_of_mem hm) hns' args
      simpa [UpdRow.withs] using this
  obtain ⟨st, s, h1, h2⟩ := htr
  simp only [UpdWorld.step, Hist.step, hr, he, UpdRef.call, UpdRef.With, UpdCall.apply, hap, hrd, h1,
    UpdCall.clause]
  refine ⟨rows ++ [⟨{ x.ref with withs := s },
    ⟨{ x.entry.stmt with withs := x.entry.stmt.withs ++ args },
      fun k => if k = .with then rows.length else x.entry.since k⟩⟩],
    ?_, ?_, ?_, ?_, ?_, ?_, ?_, ?_, ?_, ?_, ?_⟩
  · simp [hi.refs]
  · simp [hi.entries]
  · intro y hy
    rcases List.mem_append.1 hy with hy | hy
    · exact hi.fits y hy
    · simp only [List.mem_singleton] at hy; subst hy
      have := hi.fits x hm
      simp only [UpdRef.Fits] at this ⊢
      rw [← this]
  · simpa [UpdRow.withs] using h2
  · rw [spentOf_cons_ne (by simp)]
    have := hi.exprs.copy (List.mem_map_of_mem hm)
    simpa [UpdRow.exprs] using this
  · rw [spentOf_cons_ne (by simp)]
    have := hi.columns.copy (List.mem_map_of_mem hm)
    simpa [UpdRow.columns] using this
  · intro y hy
    rcases List.mem_append.1 hy with hy | hy
    · exact hi.modes y hy
    · simp only [List.mem_singleton] at hy; subst hy; exact hi.modes x hm
  · intro y hy
    rcases List.mem_append.1 hy with hy | hy
    · exact hi.known y hy
    · simp only [List.mem_singleton] at hy; subst hy
      exact hi.known x hm
  · intro y hy hn
    rw [hspent] at hn
    rcases List.mem_append.1 hy with hy | hy
    · exact hi.maps y hy hn
    · simp only [List.mem_singleton] at hy; subst hy
      simp at hn
      exact hi.maps x hm hn
  · intro y hy
    rcases List.mem_append.1 hy with hy | hy
    · exact hi.inside y hy
    · simp only [List.mem_singleton] at hy; subst hy
      exact hi.inside x hm
  · intro y hy z hz hn1 hn2
    rw [hspent] at hn1 hn2
    have key : ∀ y, y ∈ rows ++ [(⟨{ x.ref with withs := s },
        ⟨{ x.entry.stmt with withs := x.entry.stmt.withs ++ args },
          fun k => if k = .with then rows.length else x.entry.since k⟩⟩ : UpdRow)] →
        ∃ y' ∈ rows, y'.ref.set = y.ref.set ∧ y'.entry.since .set = y.entry.since .set := by
      intro y hy
      rcases List.mem_append.1 hy with hy | hy
      · exact ⟨y, hy, rfl, rfl⟩
      · simp only [List.mem_singleton] at hy; subst hy
        exact ⟨x, hm, rfl, by simp⟩
    obtain ⟨y', b1, b2, b3⟩ := key y hy
    obtain ⟨z', c1, c2, c3⟩ := key z hz
    rw [← b2, ← c2, ← b3, ← c3]
    rw [← b3] at hn1
    rw [← c3] at hn2
    exact hi.own y' b1 z' c1 hn1 hn2

/-- A call of `Set` or `Using`. -/
theorem updInv_sim {x : UpdRow} (g : Growth) (hi : UpdInv r w h rows) {i : Nat}
    (hx : rows[i]? = some x) {c : UpdCall} (hc : c.clause = .set)
    (hns : (UpdClause.set, x.entry.since .set) ∉ h.spent) [GoRuntime]
    {res : UpdHeap × Go PairRef} {now : Go PairContainer}
    (hsim : Sim r w.heap x.ref.set res now)
    (h1 : x.ref.call g w.heap c = match (generalizing := false) res with
      | (h', .error p) => (h', .error p)
      | (h', .ok p) => (h', .ok { x.ref with set := p }))
    (h2 : c.apply x.entry.stmt = match (generalizing := false) now with
      | .error p => .error p
      | .ok s => .ok { x.entry.stmt with set := s }) :
    ∃ rows', UpdInv r (w.step g (.call i c))
      (h.step UpdateStmt.init UpdCall.apply UpdCall.clause (.call i c)) rows' := by
  have hm : x ∈ rows := List.mem_of_getElem? hx
  have he : h.entries[i]? = some x.entry := by rw [hi.entries, List.getElem?_map, hx]; rfl
  have hr : w.refs[i]? = some x.ref := by rw [hi.refs, List.getElem?_map, hx]; rfl
  obtain ⟨heap, res⟩ := res
  cases now with
  | error e =>
    obtain ⟨a1, p', a2⟩ := hsim
    simp only at a1 a2 h2
    subst a1
    simp only [UpdWorld.step, Hist.step, hr, he, h1, h2, hc]
    exact ⟨rows, (updInv_set hi hm hns a2).1⟩
  | ok q =>
    obtain ⟨p', a1, a2, a3⟩ := hsim
    simp only at a1 a2 a3 h2
    subst a1
    simp only [UpdWorld.step, Hist.step, hr, he, h1, h2, hc]
    exact ⟨_, (updInv_set hi hm hns a3).2 q a2⟩

/-- A call that panics without doing anything. -/
theorem updInv_panic {x : UpdRow} (g : Growth) (hi : UpdInv r w h rows) {i : Nat}
    (hx : rows[i]? = some x) {c : UpdCall} (hc : c.clause = .set)
    (hns : (UpdClause.set, x.entry.since .set) ∉ h.spent) [GoRuntime] {p q : Panic}
    (h1 : x.ref.call g w.heap c = (w.heap, .error p)) (h2 : c.apply x.entry.stmt = .error q) :
    ∃ rows', UpdInv r (w.step g (.call i c))
      (h.step UpdateStmt.init UpdCall.apply UpdCall.clause (.call i c)) rows' := by
  have hm : x ∈ rows := List.mem_of_getElem? hx
  have he : h.entries[i]? = some x.entry := by rw [hi.entries, List.getElem?_map, hx]; rfl
  have hr : w.refs[i]? = some x.ref := by rw [hi.refs, List.getElem?_map, hx]; rfl
  simp only [UpdWorld.step, Hist.step, hr, he, h1, h2, hc]
  exact ⟨rows, (updInv_set hi hm hns (hi.rep hm hns).frame).1⟩

theorem updInv_step [GoRuntime] (g : Growth) (hi : UpdInv r w h rows) (op : Act Table UpdCall)
    (ha : h.Allows UpdCall.clause UpdClause.accumulates op)
    (hrender : ∀ i b, op = .render i b → r = true) :
    ∃ rows', UpdInv r (w.step g op) (h.step UpdateStmt.init UpdCall.apply UpdCall.clause op)
      rows' := by
  cases op with
  | render i b =>
    have hr : r = true := hrender i b rfl
    subst hr
    simp only [UpdWorld.step, Hist.step]
    cases hx : rows[i]? with
    | none =>
      rw [hi.refs, List.getElem?_map, hx]
      exact ⟨rows, hi⟩
    | some x =>
      have hm : x ∈ rows := List.mem_of_getElem? hx
      have hr : w.refs[i]? = some x.ref := by rw [hi.refs, List.getElem?_map, hx]; rfl
      rw [hr]
      simp only [UpdRef.rendered]
      split
      · rename_i hc
        simp only [Bool.and_eq_true, beq_iff_eq] at hc
        refine ⟨rows, hi.refs, hi.entries, hi.fits, hi.withs, hi.exprs, ?_, hi.modes, hi.known,
          hi.maps, hi.inside, hi.own⟩
        exact hi.columns.sort (e := x.columns) (List.mem_map_of_mem hm)
          (by simp only [UpdRow.columns]; rw [← hi.modes x hm]; exact hc.2)
      · exact ⟨rows, hi⟩
  | new t =>
    have hl : h.entries.length = rows.length := by rw [hi.entries, List.length_map]
    refine ⟨rows ++ [⟨⟨UpdateStmt.init t, .nil, ⟨.unknown, w.heap.maps.length, .nil, .nil⟩⟩,
      ⟨UpdateStmt.init t, fun _ => rows.length⟩⟩], ?_, ?_, ?_, ?_, ?_, ?_, ?_, ?_, ?_, ?_, ?_⟩
    · simp [UpdWorld.step, UpdRef.new, PairRef.new, hi.refs]
    · simp [Hist.step, hi.entries]
    · intro x hx
      rcases List.mem_append.1 hx with hx | hx
      · exact hi.fits x hx
      · simp only [List.mem_singleton] at hx; subst hx; rfl
    · have := hi.withs.new
      simpa [UpdRow.withs, Hist.step, UpdWorld.step, UpdRef.new, PairRef.new, UpdateStmt.init] using this
    · have := hi.exprs.new
      simpa [UpdRow.exprs, Hist.step, UpdWorld.step, UpdRef.new, PairRef.new, UpdateStmt.init,
        PairContainer.new] using this
    · have := hi.columns.new
      simpa [UpdRow.columns, Hist.step, UpdWorld.step, UpdRef.new, PairRef.new, UpdateStmt.init,
        PairContainer.new] using this
    · intro x hx
      rcases List.mem_append.1 hx with hx | hx
      · exact hi.modes x hx
      · simp only [List.mem_singleton] at hx; subst hx; rfl
    · intro x hx
      rcases List.mem_append.1 hx with hx | hx
      · exact hi.known x hx
      · simp only [List.mem_singleton] at hx; subst hx; exact fun h0 => absurd rfl h0
    · intro x hx hn
      simp only [UpdWorld.step, UpdRef.new, PairRef.new]
      rcases List.mem_append.1 hx with hx | hx
      · rw [List.getElem?_append_left (hi.inside x hx)]
        exact hi.maps x hx hn
      · simp only [List.mem_singleton] at hx; subst hx
        simp [UpdateStmt.init, PairContainer.new]
    · intro x hx
      simp only [UpdWorld.step, UpdRef.new, PairRef.new, List.length_append, List.length_singleton]
      rcases List.mem_append.1 hx with hx | hx
      · have := hi.inside x hx; omega
      · simp only [List.mem_singleton] at hx; subst hx; simp
    · intro x hx y hy h1 h2 he
      rcases List.mem_append.1 hx with hx | hx <;> rcases List.mem_append.1 hy with hy | hy
      · exact hi.own x hx y hy h1 h2 he
      · simp only [List.mem_singleton] at hy; subst hy
        have := hi.inside x hx
        simp only at he; omega
      · simp only [List.mem_singleton] at hx; subst hx
        have := hi.inside y hy
        simp only at he; omega
      · simp only [List.mem_singleton] at hx hy; rw [hx, hy]
  | call i c =>
    cases hx : rows[i]? with
    | none =>
      refine ⟨rows, ?_⟩
      simp only [UpdWorld.step, Hist.step, hi.refs, hi.entries, List.getElem?_map, hx,
        Option.map_none]
      exact hi
    | some x =>
      have hm : x ∈ rows := List.mem_of_getElem? hx
      have he : h.entries[i]? = some x.entry := by rw [hi.entries, List.getElem?_map, hx]; rfl
      by_cases hc : c.clause.accumulates = false
      · exact updInv_pure g hi hx hc
      · have hc' : c.clause.accumulates = true := by simpa using hc
        have hns := ha x.entry he hc'
        cases c with
        | «with» args => exact updInv_with g hi hx args hns
        | set args =>
          have hrep := hi.rep hm hns
          by_cases hg : args.isEmpty = true
          · exact updInv_panic g hi hx rfl hns (by simp only [UpdRef.call, UpdRef.Set, if_pos hg]; rfl)
              (by simp only [UpdCall.apply, UpdateStmt.Set, if_pos hg]; rfl)
          · exact updInv_sim g hi hx rfl hns (sim_mergeSet g args hrep)
              (by simp only [UpdRef.call, UpdRef.Set, if_neg hg]; rfl)
              (by simp only [UpdCall.apply, UpdateStmt.Set, if_neg hg]; rfl)
        | «using» args =>
          have hrep := hi.rep hm hns
          by_cases hmode : x.entry.stmt.set.mode ≠ .array
          · exact updInv_panic g hi hx rfl hns
              (by simp only [UpdRef.call, UpdRef.Using, hrep.mode, if_pos hmode]; rfl)
              (by simp only [UpdCall.apply, UpdateStmt.Using, if_pos hmode]; rfl)
          · by_cases hg : args.isEmpty = true
            · exact updInv_panic g hi hx rfl hns
                (by simp only [UpdRef.call, UpdRef.Using, hrep.mode, if_neg hmode, if_pos hg]; rfl)
                (by simp only [UpdCall.apply, UpdateStmt.Using, if_neg hmode, if_pos hg]; rfl)
            · exact updInv_sim g hi hx rfl hns (sim_useAll g args hrep)
                (by simp only [UpdRef.call, UpdRef.Using, hrep.mode, if_neg hmode, if_neg hg]; rfl)
                (by simp only [UpdCall.apply, UpdateStmt.Using, if_neg hmode, if_neg hg]; rfl)
        | _ => exact absurd rfl hc

theorem updInv_run [GoRuntime] (g : Growth) (ops : List (Act Table UpdCall)) :
    ∀ {w : UpdWorld} {h : Hist UpdClause UpdateStmt} {rows : List UpdRow}, UpdInv r w h rows →
    ExtendsOnce UpdateStmt.init UpdCall.apply UpdCall.clause UpdClause.accumulates h ops →
    (∀ i b, Act.render i b ∈ ops → r = true) →
    ∃ rows', UpdInv r (ops.foldl (UpdWorld.step g) w)
      (ops.foldl (Hist.step UpdateStmt.init UpdCall.apply UpdCall.clause) h) rows' := by
  induction ops with
  | nil => exact fun hi _ _ => ⟨_, hi⟩
  | cons op l ih =>
    intro w h rows hi he hr
    obtain ⟨rows', hi'⟩ := updInv_step g hi op he.1
      fun i b e => hr i b (by rw [e]; exact List.mem_cons_self)
    exact ih hi' he.2 fun i b hm => hr i b (List.mem_cons_of_mem _ hm)

theorem updInv_start : UpdInv r ⟨⟨[], [], [], []⟩, []⟩ ⟨[], []⟩ [] :=
  ⟨rfl, rfl, by simp, Tracked.start, Tracked.start, CTracked.start, by simp, by simp, by simp,
    by simp, by simp⟩

end

end Verif
