import Verif.Spec.DeriveInsert
import Verif.Lemmas.Concurrent

/-!
# Lemmas for C80
-/

set_option linter.unusedSectionVars false

namespace Verif.DeriveInsert
open Spec
open Derive (View)
open Concurrent (Act Sorter Cells readCells renderingBy writeWithColumns keyValues)

variable {ρ α : Type}

/-- What is left to do gives `r`, reads only cells below `n` unless they are `mine`, and writes only if
they are `mine`, not below `n`. -/
inductive Safe (n : Nat) (mine : Prop) : Cells → Act ρ → ρ → Prop
  | done {m : Cells} {r : ρ} : Safe n mine m (.done r) r
  | read {m : Cells} {i : Nat} {next : Column → Act ρ} {r : ρ} :
      (i < n ∨ mine) → Safe n mine m (next (m i)) r → Safe n mine m (.read i next) r
  | write {m : Cells} {i : Nat} {x : Column} {next : Act ρ} {r : ρ} :
      mine → n ≤ i → Safe n mine (fun j => if j = i then x else m j) next r →
      Safe n mine m (.write i x next) r

theorem Safe.frame {n : Nat} {mine : Prop} {m : Cells} {a : Act ρ} {r : ρ}
    (h : Safe n mine m a r) : ∀ {m' : Cells}, (∀ i, i < n ∨ mine → m' i = m i) →
      Safe n mine m' a r := by
  induction h with
  | done => intros; exact .done
  | read h1 _ ih =>
    intro m' hm
    refine .read h1 ?_
    rw [hm _ h1]
    exact ih hm
  | write h1 h2 _ ih =>
    intro m' hm
    refine .write h1 h2 (ih ?_)
    intro j hj
    show (if _ then _ else _) = if _ then _ else _
    split
    · rfl
    · exact hm _ hj

/-- All goroutines are safe, and what is below `n` is as it was. -/
structure Inv (n : Nat) (mine : Nat → Prop) (res : Nat → ρ) (m0 : Cells) (len : Nat) (w : World ρ) :
    Prop where
  length : w.threads.length = len
  safe : ∀ t a, w.threads[t]? = some a → Safe n (mine t) w.cells a (res t)
  kept : ∀ i, i < n → w.cells i = m0 i

theorem Inv.step {n : Nat} {mine : Nat → Prop} {res : Nat → ρ} {m0 : Cells} {len : Nat}
    (hd : ∀ t t', mine t → mine t' → t = t') {v w : World ρ} (h : Step v w)
    (hi : Inv n mine res m0 len v) : Inv n mine res m0 len w := by
  cases h with
  | @read t i next ht =>
    refine ⟨by simpa using hi.length, ?_, hi.kept⟩
    intro t' a ha
    simp only [List.getElem?_set] at ha
    split at ha
    · next e =>
      subst e
      split at ha
      · cases ha
        cases hi.safe _ _ ht with
        | read _ h => exact h
      · cases ha
    · exact hi.safe _ _ ha
  | @write t i x next ht =>
    have hw := hi.safe _ _ ht
    cases hw with
    | write h1 h2 h3 =>
      refine ⟨by simpa using hi.length, ?_, ?_⟩
      · intro t' a ha
        simp only [List.getElem?_set] at ha
        split at ha
        · next e =>
          subst e
          split at ha
          · cases ha
            exact h3
          · cases ha
        · next e =>
          refine (hi.safe _ _ ha).frame ?_
          intro j hj
          refine if_neg ?_
          rintro rfl
          rcases hj with hj | hj
          · omega
          · exact e (hd _ _ h1 hj)
      · intro j hj
        rw [← hi.kept _ hj]
        exact if_neg (by omega)

theorem Inv.steps {n : Nat} {mine : Nat → Prop} {res : Nat → ρ} {m0 : Cells} {len : Nat}
    (hd : ∀ t t', mine t → mine t' → t = t') {v w : World ρ} (h : Steps v w)
    (hi : Inv n mine res m0 len v) : Inv n mine res m0 len w := by
  induction h with
  | refl => exact hi
  | tail _ s ih => exact ih.step hd s

theorem Safe.finish {n : Nat} {mine : Prop} {m : Cells} {a : Act ρ} {r : ρ}
    (h : Safe n mine m a r) : ∀ (ts : List (Act ρ)) (t : Nat), ts[t]? = some a →
      ∃ m', Steps ⟨m, ts⟩ ⟨m', ts.set t (.done r)⟩ := by
  induction h with
  | @done m r =>
    intro ts t ht
    refine ⟨m, ?_⟩
    obtain ⟨h1, h2⟩ := List.getElem?_eq_some_iff.1 ht
    rw [← h2, List.set_getElem_self]
    exact .refl
  | @read m i next r _ _ ih =>
    intro ts t ht
    have hl := (List.getElem?_eq_some_iff.1 ht).1
    obtain ⟨m', hm⟩ := ih (ts.set t (next (m i))) t (by simp [hl])
    rw [List.set_set] at hm
    exact ⟨m', Steps.trans (.tail .refl (.read ht)) hm⟩
  | @write m i x next r _ _ _ ih =>
    intro ts t ht
    have hl := (List.getElem?_eq_some_iff.1 ht).1
    obtain ⟨m', hm⟩ := ih (ts.set t next) t (by simp [hl])
    rw [List.set_set] at hm
    exact ⟨m', Steps.trans (.tail .refl (.write ht)) hm⟩

theorem Inv.finish {n : Nat} {mine : Nat → Prop} {res : Nat → ρ} {m0 : Cells} {len : Nat}
    (hd : ∀ t t', mine t → mine t' → t = t') {w : World ρ} (hi : Inv n mine res m0 len w) :
    ∃ m', Steps w ⟨m', (List.range len).map fun t => .done (res t)⟩ := by
  have step : ∀ j, j ≤ len → ∃ w', Steps w w' ∧ Inv n mine res m0 len w' ∧
      ∀ t, t < j → w'.threads[t]? = some (.done (res t)) := by
    intro j
    induction j with
    | zero => exact fun _ => ⟨w, .refl, hi, fun t ht => absurd ht (Nat.not_lt_zero t)⟩
    | succ j ih =>
      intro hj
      obtain ⟨w', h1, h2, h3⟩ := ih (by omega)
      have hl : j < w'.threads.length := by rw [h2.length]; omega
      obtain ⟨m', h4⟩ := (h2.safe j _ (List.getElem?_eq_getElem hl)).finish w'.threads j
        (List.getElem?_eq_getElem hl)
      refine ⟨_, h1.trans h4, h2.steps hd h4, ?_⟩
      intro t ht
      by_cases e : t = j
      · subst e
        simp [hl]
      · simp only [List.getElem?_set_ne (Ne.symm e)]
        exact h3 t (by omega)
  obtain ⟨w', h1, h2, h3⟩ := step len (Nat.le_refl _)
  refine ⟨w'.cells, ?_⟩
  have e : (List.range len).map (fun t => (Act.done (res t) : Act ρ)) = w'.threads := by
    apply List.ext_getElem?
    intro t
    by_cases ht : t < len
    · rw [h3 t ht]
      simp [ht]
    · have hl := h2.length
      rw [List.getElem?_eq_none (by simpa using ht), List.getElem?_eq_none (by omega)]
  rw [e]
  exact h1

/-! ## The accesses of a goroutine are safe -/

/-- The columns of a slice. -/
def value (m : Cells) : View Column → List Column
  | .shared n => (List.range n).map m
  | .own l => l

theorem value_length (m : Cells) (v : View Column) : (value m v).length = v.len := by
  cases v <;> simp [value, View.len]

/-- A slice that may be of this goroutine. -/
def GoodView (n : Nat) (mine : Prop) : View Column → Prop
  | .shared len => n ≤ len ∧ (n < len → mine)
  | .own _ => True

variable {n : Nat} {mine : Prop}

theorem safe_readCells {m : Cells} {next : List Column → Act ρ} {r : ρ} :
    ∀ {l : List Nat} {acc : List Column}, (∀ i ∈ l, i < n ∨ mine) →
      Safe n mine m (next (acc ++ l.map m)) r → Safe n mine m (readCells next acc l) r
  | [], acc, _, h => by simpa [readCells] using h
  | i :: l, acc, hl, h => by
    refine .read (hl i (List.mem_cons_self ..)) (safe_readCells (fun j hj =>
      hl j (List.mem_cons_of_mem _ hj)) ?_)
    rw [List.append_assoc]
    exact h

theorem good_below {len : Nat} (h : GoodView n mine (.shared len)) :
    ∀ i ∈ List.range len, i < n ∨ mine := by
  intro i hi
  by_cases hn : i < n
  · exact .inl hn
  · exact .inr (h.2 (by have := List.mem_range.1 hi; omega))

theorem safe_act {m : Cells} {a : Act ρ} {r : ρ} {cells : Cells}
    (hN : ∀ i, i < n → m i = cells i) (ha : Safe n mine m a r) :
    ∀ {s : Sorter}, s.Within n → s.Still cells → Safe n mine m (s.act a) r
  | .stop, _, _ => ha
  | .less i j next, hw, hs => by
    refine .read (.inl hw.1) (.read (.inl hw.2.1) ?_)
    refine safe_act hN ha (hw.2.2 _) ?_
    rw [hN i hw.1, hN j hw.2.1]
    exact hs
  | .swap _ _ _, _, hs => hs.elim

theorem value_put {m : Cells} {len : Nat} {x : Column} :
    value (fun j => if j = len then x else m j) (.shared (len + 1)) = value m (.shared len) ++ [x] := by
  simp only [value, List.range_succ, List.map_append, List.map_cons, List.map_nil, if_true]
  congr 1
  refine List.map_congr_left fun i hi => if_neg ?_
  have := List.mem_range.1 hi
  omega

theorem safe_append {cap : Nat} {m : Cells} {v : View Column} (hv : GoodView n mine v) {x : Column}
    (hc : ∀ len, v = .shared len → n < cap → mine) {next : View Column → Act ρ} {r : ρ}
    (h : ∀ (m' : Cells) (v' : View Column), GoodView n mine v' → value m' v' = value m v ++ [x] →
      Safe n mine m' (next v') r) :
    Safe n mine m (append cap v x next) r := by
  unfold append
  cases v with
  | own l => exact h m _ trivial rfl
  | shared len =>
    simp only
    split
    · next hl =>
      have hm : mine := hc len rfl (by have := hv.1; omega)
      exact .write hm hv.1 (h _ _ ⟨by have := hv.1; omega, fun _ => hm⟩ value_put)
    · exact safe_readCells (good_below hv) (h m _ trivial rfl)

/-- The statement that a copy is, with this memory. -/
def Copy.stmt (m : Cells) (b : Copy) : InsertStmt := { b.base with target := value m b.target }

/-- A copy whose action is that of the shared builder: the pairs are in order in the array. -/
def Fine (n : Nat) (sorter : Nat → Sorter) (m : Cells) (b : Copy) : Prop :=
  b.shared = true → b.base.action.isEmpty = false ∧
    ∀ p, b.base.action = .update p → p.mode = .associative → Ascending p.columns ∧
      n = p.columns.length ∧ (sorter p.columns.length).Within p.columns.length ∧
      (sorter p.columns.length).Still (arrayOf p.columns) ∧ ∀ i, i < n → m i = arrayOf p.columns i

section
variable [GoRuntime]

theorem other_apply {c : InsCall} (hc : ∀ args, c ≠ .onConflict args) (s : InsertStmt)
    (cs : List Column) : c.apply { s with target := cs } = (c.apply s).map ({ · with target := cs }) := by
  cases c with
  | onConflict args => exact absurd rfl (hc args)
  | _ =>
    simp only [InsCall.apply, InsertStmt.Into, InsertStmt.Columns, InsertStmt.Values, InsertStmt.Set,
      InsertStmt.Returning, InsertStmt.Comment]
    first
      | rfl
      | repeat' (split <;> try rfl)

theorem other_action {c : InsCall} (hc : ∀ args, c ≠ .onConflict args) {s s' : InsertStmt}
    (h : c.apply s = .ok s') : s'.action = s.action := by
  cases c with
  | onConflict args => exact absurd rfl (hc args)
  | _ =>
    simp only [InsCall.apply, InsertStmt.Into, InsertStmt.Columns, InsertStmt.Values, InsertStmt.Set,
      InsertStmt.Returning, InsertStmt.Comment] at h
    repeat' split at h
    all_goals first | (cases h; rfl) | cases h

theorem call_other {cap : Nat} {c : InsCall} (hc : ∀ args, c ≠ .onConflict args) (b : Copy)
    (next : Copy → Act (Go α)) : b.call cap next c = b.other c.apply next := by
  cases c with
  | onConflict args => exact absurd rfl (hc args)
  | _ => rfl

theorem safe_render {sorter : Nat → Sorter} {m : Cells} {b : Copy} (hb : GoodView n mine b.target)
    (hf : Fine n sorter m b) (render : W → Go α) :
    Safe n mine m (b.render sorter render) (render (Stmt.insert (b.stmt m)).write) := by
  have go : ∀ cs, Safe n mine m
      (match b.shared, b.base.action with
        | true, .update p =>
          renderingBy (sorter p.columns.length) render (Stmt.insert { b.base with target := cs })
        | _, _ => .done (render (Stmt.insert { b.base with target := cs }).write))
      (render (Stmt.insert { b.base with target := cs }).write) := by
    intro cs
    split
    · next p hs ha =>
      by_cases hm : p.mode = .associative
      · obtain ⟨h1, h2, h3, h4, h5⟩ := (hf hs).2 p ha hm
        have hk : keyValues (Stmt.insert { b.base with target := cs }) = some p := by
          simp only [keyValues, ha, if_pos hm]
        unfold renderingBy
        rw [hk]
        simp only
        refine safe_act h5 (safe_readCells ?_ ?_) (h2 ▸ h3) h4
        · intro i hi
          rw [h2]
          exact .inl (List.mem_range.1 hi)
        · have e : (List.range p.columns.length).map m = p.columns := by
            rw [← Concurrent.range_arrayOf p.columns, List.length_map, List.length_range]
            refine List.map_congr_left fun i hi => ?_
            exact h5 i (by rw [h2]; exact List.mem_range.1 hi)
          rw [List.nil_append, e, Concurrent.write_eq hk, Concurrent.ascending_sorted h1]
          exact .done
      · have hk : keyValues (Stmt.insert { b.base with target := cs }) = none := by
          simp only [keyValues, ha, if_neg hm]
        unfold renderingBy
        rw [hk]
        exact .done
    · exact .done
  unfold Copy.render Copy.stmt
  cases hv : b.target with
  | own cs => exact go cs
  | shared len =>
    rw [hv] at hb
    refine safe_readCells (good_below hb) ?_
    rw [List.nil_append]
    exact go _

theorem safe_loop {cap : Nat} {next : Copy → Act (Go α)} {f : InsertStmt → Go α} :
    ∀ (args : List Any) (m : Cells) (b : Copy), GoodView n mine b.target →
      (n < cap → mine) →
      (∀ (m' : Cells) (b' : Copy), GoodView n mine b'.target → b'.shared = false →
        Safe n mine m' (next b') (f (b'.stmt m'))) →
      Safe n mine m (b.onConflictLoop cap next args)
        (match (b.stmt m).onConflictLoop args with
          | .error p => .error p
          | .ok s => f s)
  | [], m, b, _, _, _ => .done
  | a :: l, m, b, hb, hc, hn => by
    have app : ∀ c : Column, Safe n mine m
        (append cap b.target c fun v => Copy.onConflictLoop cap next l { b with target := v })
        (match ({ b.stmt m with target := (b.stmt m).target ++ [c] } : InsertStmt).onConflictLoop l with
          | .error p => .error p
          | .ok s => f s) := by
      intro c
      refine safe_append hb (fun _ _ h => hc h) ?_
      intro m' v' h1 h2
      have := safe_loop l m' { b with target := v' } h1 hc hn
      simp only [Copy.stmt, h2] at this
      exact this
    unfold Copy.onConflictLoop InsertStmt.onConflictLoop
    split
    · exact hn m { b with base := { b.base with action := .nothing }, shared := false } hb rfl
    · next set =>
      have hl := value_length m b.target
      by_cases h0 : b.target.len = 0
      · have he : value m b.target = [] := List.length_eq_zero_iff.1 (hl.trans h0)
        simp only [if_pos h0, Copy.stmt, he, List.isEmpty_nil, if_true]
        exact .done
      · have he : (value m b.target).isEmpty = false := by
          cases hv : value m b.target with
          | nil => rw [hv] at hl; exact absurd hl.symm h0
          | cons => rfl
        simp only [if_neg h0, Copy.stmt, he, Bool.false_eq_true, if_false]
        exact hn m { b with base := { b.base with action := .update set }, shared := false } hb rfl
    · next s =>
      simp only
      cases hs : toColumn (.val (.str s)) with
      | error p => exact .done
      | ok c => exact app c
    · next col =>
      simp only
      cases hs : toColumn (.selExpr (.column col)) with
      | error p => exact .done
      | ok c => exact app c
    · next h1 h2 h3 h4 =>
      have : (b.stmt m).onConflictLoop (a :: l) =
          Go.panic "loukoum: cannot use value as on conflict clause" := by
        unfold InsertStmt.onConflictLoop
        split
        · exact absurd rfl h1
        · exact absurd rfl (h2 _)
        · exact absurd rfl (h3 _)
        · exact absurd rfl (h4 _)
        · rfl
      unfold InsertStmt.onConflictLoop at this
      rw [this]
      exact .done

theorem safe_goroutine {cap : Nat} {sorter : Nat → Sorter} (render : W → Go α) :
    ∀ (cs : List InsCall) (m : Cells) (b : Copy), GoodView n mine b.target → Fine n sorter m b →
    (∀ args, .onConflict args ∈ cs → b.base.action.isEmpty = true → n < cap → mine) →
    Safe n mine m (goroutine cap sorter render cs b) (Job.alone ⟨cs, render⟩ (b.stmt m))
  | [], m, b, hb, hf, _ => safe_render hb hf render
  | c :: cs, m, b, hb, hf, hc => by
    have ih := safe_goroutine (cap := cap) (sorter := sorter) render cs
    have alone_ok : ∀ {s s' : InsertStmt}, c.apply s = .ok s' →
        Job.alone ⟨c :: cs, render⟩ s = Job.alone ⟨cs, render⟩ s' := by
      intro s s' h
      simp only [Job.alone, runAll, h]
    have alone_error : ∀ {s : InsertStmt} {p : Panic}, c.apply s = .error p →
        Job.alone ⟨c :: cs, render⟩ s = .error p := by
      intro s p h
      simp only [Job.alone, runAll, h]
    rw [goroutine]
    by_cases ha : ∀ args, c ≠ .onConflict args
    · rw [call_other ha, Copy.other]
      have hap := other_apply ha b.base (value m b.target)
      cases hs : c.apply b.base with
      | error p =>
        rw [hs] at hap
        rw [alone_error (s := b.stmt m) hap]
        exact .done
      | ok s =>
        rw [hs] at hap
        rw [alone_ok (s := b.stmt m) hap]
        have hact := other_action ha hs
        refine ih m { b with base := s } hb ?_ ?_
        · intro h
          have := hf h
          rw [← hact] at this
          exact this
        · intro args h1 h2 h3
          rw [hact] at h2
          exact hc args (List.mem_cons_of_mem _ h1) h2 h3
    · obtain ⟨args, rfl⟩ : ∃ args, c = .onConflict args :=
        Classical.byContradiction fun h => ha fun args e => h ⟨args, e⟩
      simp only [Copy.call, Copy.OnConflict]
      have hact : (b.stmt m).action = b.base.action := rfl
      by_cases he : b.base.action.isEmpty = true
      · simp only [he, Bool.not_true, Bool.false_eq_true, if_false]
        by_cases h0 : args.isEmpty = true
        · have : InsCall.apply (.onConflict args) (b.stmt m) =
              Go.panic "loukoum: on conflict clause requires arguments" := by
            simp only [InsCall.apply, InsertStmt.OnConflict, hact, he, h0, Bool.not_true,
              Bool.false_eq_true, if_false, if_true]
          rw [alone_error this, if_pos h0]
          exact .done
        · have e : InsCall.apply (.onConflict args) (b.stmt m) = (b.stmt m).onConflictLoop args := by
            simp only [InsCall.apply, InsertStmt.OnConflict, hact, he, h0, Bool.not_true,
              Bool.false_eq_true, if_false]
          have hmine : n < cap → mine := hc args (List.mem_cons_self ..) he
          have key := safe_loop (cap := cap) (next := goroutine cap sorter render cs)
            (f := Job.alone ⟨cs, render⟩) args m b hb hmine
            (fun m' b' h1 h2 => ih m' b' h1 (fun h => by rw [h2] at h; cases h)
              fun _ _ _ h3 => hmine h3)
          rw [if_neg h0]
          cases hl : (b.stmt m).onConflictLoop args with
          | error p =>
            rw [hl] at key e
            rw [alone_error e]
            exact key
          | ok s =>
            rw [hl] at key e
            rw [alone_ok e]
            exact key
      · have : InsCall.apply (.onConflict args) (b.stmt m) =
            Go.panic "loukoum: insert builder has on conflict clause already defined" := by
          simp only [InsCall.apply, InsertStmt.OnConflict, hact, he, Bool.not_false, if_true]
        rw [alone_error this]
        simp only [he, Bool.not_false, if_true]
        exact .done

end

/-! ## Two goroutines that sort in the same place -/

section
variable [GoRuntime]

theorem lost_two {s : Sorter} {cols : List Column} (hw : s.Within cols.length) (hn : cols.Nodup)
    (hs : s.run (arrayOf cols) ≠ arrayOf cols) (f f' : List Column → ρ) :
    ∃ c ∈ cols, ∃ (m : Cells) (cs cs' : List Column),
      Steps ⟨arrayOf cols,
        [s.act (readCells (fun cs => .done (f cs)) [] (List.range cols.length)),
         s.act (readCells (fun cs => .done (f' cs)) [] (List.range cols.length))]⟩
        ⟨m, [.done (f cs), .done (f' cs')]⟩ ∧
      c ∉ cs ∧ c ∉ cs' ∧ cs.length = cols.length ∧ cs'.length = cols.length ∧
      c ∉ (List.range cols.length).map m := by
  let n := cols.length
  let next := fun f : List Column → ρ => readCells (fun cs => Act.done (f cs)) [] (List.range n)
  obtain ⟨i, j, s', hij, hi, hj, hw', h5⟩ := Concurrent.first_exchange (ρ := ρ) hw hs
  have s1 := h5 (next f) [s.act (next f), s.act (next f')] 0 (by simp)
  have s2 := h5 (next f') [Concurrent.swap i j (s'.act (next f)), s.act (next f')] 1 (by simp)
  have s3 := (s1.trans s2).trans (Concurrent.steps_lost_any hij)
  let c := cols[i]
  let m0 : Cells := fun k => if k = i ∨ k = j then arrayOf cols j else arrayOf cols k
  have hm0 : ∀ k, k < n → m0 k ≠ c := by
    have ne : ∀ k (hk : k < cols.length), k ≠ i → cols[k] ≠ c := by
      intro k hk hne he
      rcases Nat.lt_or_gt_of_ne hne with h | h
      · exact List.pairwise_iff_getElem.1 hn k i hk hi h he
      · exact List.pairwise_iff_getElem.1 hn i k hi hk h he.symm
    intro k hk
    simp only [m0]
    split
    · rw [Concurrent.arrayOf_lt hj]
      exact ne j _ hij.symm
    · next hne =>
      rw [Concurrent.arrayOf_lt hk]
      exact ne k hk (fun h => hne (.inl h))
  have fin : ∀ (f : List Column → ρ) (m : Cells), (∀ k, k < n → m k ≠ c) →
      ∃ m', (∀ k, k < n → m' k ≠ c) ∧
        Concurrent.finish (s'.act (next f)) m = (m', f ((List.range n).map m')) := by
    intro f m hm
    obtain ⟨m', h1, h2⟩ := Concurrent.finish_lost_any (next f) hw' hm
    exact ⟨m', h1, by rw [h2, Concurrent.finish_readCells]; rfl⟩
  obtain ⟨m1, h6, h7⟩ := fin f m0 hm0
  obtain ⟨m2, h8, h9⟩ := fin f' m1 h6
  have s4 := Concurrent.steps_finish (s'.act (next f)) (m := m0)
    (ts := [s'.act (next f), s'.act (next f')]) (t := 0) rfl
  rw [h7] at s4
  have s5 := Concurrent.steps_finish (s'.act (next f')) (m := m1)
    (ts := [.done (f ((List.range n).map m1)), s'.act (next f')]) (t := 1) rfl
  rw [h9] at s5
  have lost : ∀ m : Cells, (∀ k, k < n → m k ≠ c) → c ∉ (List.range n).map m := by
    intro m hm hc
    obtain ⟨k, hk, he⟩ := List.mem_map.1 hc
    exact hm k (List.mem_range.1 hk) he
  exact ⟨c, List.getElem_mem hi, m2, (List.range n).map m1, (List.range n).map m2,
    (s3.trans s4).trans s5, lost m1 h6, lost m2 h8, by simp [n], by simp [n], lost m2 h8⟩

/-- A goroutine that has gone through calls other than `OnConflict`. -/
theorem goroutine_pre {cap : Nat} {sorter : Nat → Sorter} {render : W → Go α} {cs : List InsCall} :
    ∀ {pre : List InsCall} {b : Copy} {s1 : InsertStmt}, (∀ c ∈ pre, ∀ args, c ≠ .onConflict args) →
      runAll InsCall.apply pre b.base = .ok s1 →
      goroutine cap sorter render (pre ++ cs) b = goroutine cap sorter render cs { b with base := s1 }
  | [], b, s1, _, h => by
    cases h
    rfl
  | c :: pre, b, s1, hp, h => by
    rw [List.cons_append, goroutine, call_other (hp c (List.mem_cons_self ..)), Copy.other]
    rw [runAll] at h
    cases hs : c.apply b.base with
    | error p => rw [hs] at h; cases h
    | ok s =>
      rw [hs] at h
      exact goroutine_pre (b := { b with base := s })
        (fun c hc => hp c (List.mem_cons_of_mem _ hc)) h

theorem other_target {c : InsCall} (hc : ∀ args, c ≠ .onConflict args) {s s' : InsertStmt}
    (h : c.apply s = .ok s') : s'.target = s.target := by
  have := other_apply hc s s.target
  rw [h] at this
  exact (congrArg InsertStmt.target (Except.ok.inj this)).trans rfl

theorem pre_kept : ∀ {pre : List InsCall} {s s1 : InsertStmt},
    (∀ c ∈ pre, ∀ args, c ≠ .onConflict args) → runAll InsCall.apply pre s = .ok s1 →
    s1.action = s.action ∧ s1.target = s.target
  | [], s, s1, _, h => by
    cases h
    exact ⟨rfl, rfl⟩
  | c :: pre, s, s1, hp, h => by
    rw [runAll] at h
    cases hs : c.apply s with
    | error p => rw [hs] at h; cases h
    | ok s' =>
      rw [hs] at h
      have h1 := pre_kept (fun c hc => hp c (List.mem_cons_of_mem _ hc)) h
      have hc := hp c (List.mem_cons_self ..)
      exact ⟨h1.1.trans (other_action hc hs), h1.2.trans (other_target hc hs)⟩

/-- On a builder with an action, calls that do not panic are others than `OnConflict`. -/
theorem no_conflict : ∀ {cs : List InsCall} {s s1 : InsertStmt}, s.action.isEmpty = false →
    runAll InsCall.apply cs s = .ok s1 → ∀ c ∈ cs, ∀ args, c ≠ .onConflict args
  | [], _, _, _, _ => fun _ h => by cases h
  | c :: cs, s, s1, ha, h => by
    rw [runAll] at h
    have hc : ∀ args, c ≠ .onConflict args := by
      rintro args rfl
      simp only [InsCall.apply, InsertStmt.OnConflict, ha, Bool.not_false, if_true] at h
      cases h
    cases hs : c.apply s with
    | error p => rw [hs] at h; cases h
    | ok s' =>
      rw [hs] at h
      intro d hd
      rcases List.mem_cons.1 hd with rfl | hd
      · exact hc
      · exact no_conflict (by rw [other_action hc hs]; exact ha) h d hd

end

end Verif.DeriveInsert
