import Verif.Spec.DeriveUpdate
import Verif.Lemmas.Concurrent

/-!
# Lemmas for C79
-/

set_option linter.unusedSectionVars false

namespace Verif.DeriveUpdate
open Spec
open Derive (View)
open Concurrent (Sorter writeUpdate writeRead)

variable {ρ α : Type}

theorem put_same (m : Memory) (k : Clause) (i : Nat) (x : k.Elem) (j : Nat) :
    (m.put k i x).cells k j = if j = i then x else m.cells k j := by
  simp [Memory.put]

theorem put_other (m : Memory) {k k' : Clause} (i : Nat) (x : k.Elem) (j : Nat) (h : k' ≠ k) :
    (m.put k i x).cells k' j = m.cells k' j := by
  simp [Memory.put, h]

theorem Steps.trans {u v w : World ρ} (h : Steps u v) (h' : Steps v w) : Steps u w := by
  induction h' with
  | refl => exact h
  | tail _ s ih => exact .tail ih s

/-- What is left to do gives `r`, reads only cells below `n` or of clauses that are `mine`, and writes
only cells of clauses that are `mine`, not below `n`; the map is not written. -/
inductive Safe (n : Clause → Nat) (mine : Clause → Prop) : Memory → Act ρ → ρ → Prop
  | done {m : Memory} {r : ρ} : Safe n mine m (.done r) r
  | read {m : Memory} {k : Clause} {i : Nat} {next : k.Elem → Act ρ} {r : ρ} :
      (i < n k ∨ mine k) → Safe n mine m (next (m.cells k i)) r → Safe n mine m (.read k i next) r
  | write {m : Memory} {k : Clause} {i : Nat} {x : k.Elem} {next : Act ρ} {r : ρ} :
      mine k → n k ≤ i → Safe n mine (m.put k i x) next r → Safe n mine m (.write k i x next) r
  | look {m : Memory} {next : List (Column × Expr) → Act ρ} {r : ρ} :
      Safe n mine m (next m.map) r → Safe n mine m (.look next) r

theorem Safe.frame {n : Clause → Nat} {mine : Clause → Prop} {m : Memory} {a : Act ρ} {r : ρ}
    (h : Safe n mine m a r) : ∀ {m' : Memory}, m'.map = m.map →
      (∀ k i, i < n k ∨ mine k → m'.cells k i = m.cells k i) → Safe n mine m' a r := by
  induction h with
  | done => intros; exact .done
  | read h1 _ ih =>
    intro m' he hm
    refine .read h1 ?_
    rw [hm _ _ h1]
    exact ih he hm
  | write h1 h2 _ ih =>
    intro m' he hm
    refine .write h1 h2 (ih he ?_)
    intro k' j hj
    simp only [Memory.put]
    split
    · split
      · rfl
      · exact hm _ _ hj
    · exact hm _ _ hj
  | look _ ih =>
    intro m' he hm
    refine .look ?_
    rw [he]
    exact ih he hm

/-- All goroutines are safe, and what is below `n` is as it was. -/
structure Inv (n : Clause → Nat) (mine : Nat → Clause → Prop) (res : Nat → ρ) (m0 : Memory)
    (len : Nat) (w : World ρ) : Prop where
  length : w.threads.length = len
  safe : ∀ t a, w.threads[t]? = some a → Safe n (mine t) w.memory a (res t)
  kept : ∀ k i, i < n k → w.memory.cells k i = m0.cells k i
  map : w.memory.map = m0.map

theorem Inv.step {n : Clause → Nat} {mine : Nat → Clause → Prop} {res : Nat → ρ} {m0 : Memory}
    {len : Nat} (hd : ∀ k t t', mine t k → mine t' k → t = t') {v w : World ρ} (h : Step v w)
    (hi : Inv n mine res m0 len v) : Inv n mine res m0 len w := by
  cases h with
  | @read t k i next ht =>
    refine ⟨by simpa using hi.length, ?_, hi.kept, hi.map⟩
    intro t' a ha
    simp only [List.getElem?_set] at ha
    split at ha
    · next e =>
      subst e
      split at ha
      · cases ha
        cases hi.safe _ _ ht with
        | read _ h => exact h
      · cases ha
    · exact hi.safe _ _ ha
  | @look t next ht =>
    refine ⟨by simpa using hi.length, ?_, hi.kept, hi.map⟩
    intro t' a ha
    simp only [List.getElem?_set] at ha
    split at ha
    · next e =>
      subst e
      split at ha
      · cases ha
        cases hi.safe _ _ ht with
        | look h => exact h
      · cases ha
    · exact hi.safe _ _ ha
  | @assign t c e next ht => cases hi.safe _ _ ht
  | @write t k i x next ht =>
    have hw := hi.safe _ _ ht
    cases hw with
    | write h1 h2 h3 =>
      refine ⟨by simpa using hi.length, ?_, ?_, hi.map⟩
      · intro t' a ha
        simp only [List.getElem?_set] at ha
        split at ha
        · next e =>
          subst e
          split at ha
          · cases ha
            exact h3
          · cases ha
        · next e =>
          refine (hi.safe _ _ ha).frame rfl ?_
          intro k' j hj
          show (v.memory.put k i x).cells k' j = v.memory.cells k' j
          by_cases hk : k' = k
          · subst hk
            rw [put_same, if_neg]
            rintro rfl
            rcases hj with hj | hj
            · omega
            · exact e (hd _ _ _ h1 hj)
          · exact put_other _ _ _ _ hk
      · intro k' j hj
        show (v.memory.put k i x).cells k' j = m0.cells k' j
        rw [← hi.kept _ _ hj]
        by_cases hk : k' = k
        · subst hk
          rw [put_same, if_neg (by omega)]
        · exact put_other _ _ _ _ hk

theorem Inv.steps {n : Clause → Nat} {mine : Nat → Clause → Prop} {res : Nat → ρ} {m0 : Memory}
    {len : Nat} (hd : ∀ k t t', mine t k → mine t' k → t = t') {v w : World ρ} (h : Steps v w)
    (hi : Inv n mine res m0 len v) : Inv n mine res m0 len w := by
  induction h with
  | refl => exact hi
  | tail _ s ih => exact ih.step hd s

theorem Safe.finish {n : Clause → Nat} {mine : Clause → Prop} {m : Memory} {a : Act ρ} {r : ρ}
    (h : Safe n mine m a r) : ∀ (ts : List (Act ρ)) (t : Nat), ts[t]? = some a →
      ∃ m', Steps ⟨m, ts⟩ ⟨m', ts.set t (.done r)⟩ := by
  induction h with
  | @done m r =>
    intro ts t ht
    refine ⟨m, ?_⟩
    obtain ⟨h1, h2⟩ := List.getElem?_eq_some_iff.1 ht
    rw [← h2, List.set_getElem_self]
    exact .refl
  | @read m k i next r _ _ ih =>
    intro ts t ht
    have hl := (List.getElem?_eq_some_iff.1 ht).1
    obtain ⟨m', hm⟩ := ih (ts.set t (next (m.cells k i))) t (by simp [hl])
    rw [List.set_set] at hm
    exact ⟨m', Steps.trans (.tail .refl (.read ht)) hm⟩
  | @write m k i x next r _ _ _ ih =>
    intro ts t ht
    have hl := (List.getElem?_eq_some_iff.1 ht).1
    obtain ⟨m', hm⟩ := ih (ts.set t next) t (by simp [hl])
    rw [List.set_set] at hm
    exact ⟨m', Steps.trans (.tail .refl (.write ht)) hm⟩
  | @look m next r _ ih =>
    intro ts t ht
    have hl := (List.getElem?_eq_some_iff.1 ht).1
    obtain ⟨m', hm⟩ := ih (ts.set t (next m.map)) t (by simp [hl])
    rw [List.set_set] at hm
    exact ⟨m', Steps.trans (.tail .refl (.look ht)) hm⟩

theorem Inv.finish {n : Clause → Nat} {mine : Nat → Clause → Prop} {res : Nat → ρ} {m0 : Memory}
    {len : Nat} (hd : ∀ k t t', mine t k → mine t' k → t = t') {w : World ρ}
    (hi : Inv n mine res m0 len w) :
    ∃ m', Steps w ⟨m', (List.range len).map fun t => .done (res t)⟩ := by
  have step : ∀ j, j ≤ len → ∃ w', Steps w w' ∧ Inv n mine res m0 len w' ∧
      ∀ t, t < j → w'.threads[t]? = some (.done (res t)) := by
    intro j
    induction j with
    | zero => exact fun _ => ⟨w, .refl, hi, fun t ht => absurd ht (Nat.not_lt_zero t)⟩
    | succ j ih =>
      intro hj
      obtain ⟨w', h1, h2, h3⟩ := ih (by omega)
      have hl : j < w'.threads.length := by rw [h2.length]; omega
      obtain ⟨m', h4⟩ := (h2.safe j _ (List.getElem?_eq_getElem hl)).finish w'.threads j
        (List.getElem?_eq_getElem hl)
      refine ⟨_, h1.trans h4, h2.steps hd h4, ?_⟩
      intro t ht
      by_cases e : t = j
      · subst e
        simp [hl]
      · simp only [List.getElem?_set_ne (Ne.symm e)]
        exact h3 t (by omega)
  obtain ⟨w', h1, h2, h3⟩ := step len (Nat.le_refl _)
  refine ⟨w'.memory, ?_⟩
  have e : (List.range len).map (fun t => (Act.done (res t) : Act ρ)) = w'.threads := by
    apply List.ext_getElem?
    intro t
    by_cases ht : t < len
    · rw [h3 t ht]
      simp [ht]
    · have hl := h2.length
      rw [List.getElem?_eq_none (by simpa using ht), List.getElem?_eq_none (by omega)]
  rw [e]
  exact h1

/-! ## The accesses of a goroutine are safe -/

/-- The elements of a slice. -/
def value (m : Memory) {k : Clause} : View k.Elem → List k.Elem
  | .shared n => (List.range n).map (m.cells k)
  | .own l => l

theorem value_length (m : Memory) {k : Clause} (v : View k.Elem) : (value m v).length = v.len := by
  cases v <;> simp [value, View.len]

/-- A slice that may be of this goroutine. -/
def VGood (n : Clause → Nat) (mine : Clause → Prop) {k : Clause} : View k.Elem → Prop
  | .shared len => n k ≤ len ∧ (n k < len → mine k)
  | .own _ => True

variable {n : Clause → Nat} {mine : Clause → Prop}

theorem safe_readAll {m : Memory} {k : Clause} {next : List k.Elem → Act ρ} {r : ρ} :
    ∀ {l : List Nat} {acc : List k.Elem}, (∀ i ∈ l, i < n k ∨ mine k) →
      Safe n mine m (next (acc ++ l.map (m.cells k))) r → Safe n mine m (readAll k next acc l) r
  | [], acc, _, h => by simpa [readAll] using h
  | i :: l, acc, hl, h => by
    refine .read (hl i (List.mem_cons_self ..)) (safe_readAll (fun j hj =>
      hl j (List.mem_cons_of_mem _ hj)) ?_)
    rw [List.append_assoc]
    exact h

theorem good_below {k : Clause} {len : Nat} (h : VGood n mine (k := k) (.shared len)) :
    ∀ i ∈ List.range len, i < n k ∨ mine k := by
  intro i hi
  by_cases hn : i < n k
  · exact .inl hn
  · exact .inr (h.2 (by have := List.mem_range.1 hi; omega))

theorem safe_readSlice {m : Memory} {k : Clause} {v : View k.Elem} (hv : VGood n mine v)
    {next : List k.Elem → Act ρ} {r : ρ} (h : Safe n mine m (next (value m v)) r) :
    Safe n mine m (readSlice k v next) r := by
  cases v with
  | own l => exact h
  | shared len => exact safe_readAll (good_below hv) h

/-- Several assignments. -/
def putAll (m : Memory) (k : Clause) : Nat → List k.Elem → Memory
  | _, [] => m
  | i, x :: l => putAll (m.put k i x) k (i + 1) l

theorem putAll_other {k k' : Clause} (h : k' ≠ k) : ∀ (l : List k.Elem) (m : Memory) (i : Nat),
    (putAll m k i l).cells k' = m.cells k'
  | [], _, _ => rfl
  | x :: l, m, i => by
    rw [putAll, putAll_other h l]
    funext j
    exact put_other _ _ _ _ h

theorem putAll_below {k : Clause} : ∀ (l : List k.Elem) (m : Memory) (i j : Nat), j < i →
    (putAll m k i l).cells k j = m.cells k j
  | [], _, _, _, _ => rfl
  | x :: l, m, i, j, h => by
    rw [putAll, putAll_below l _ _ _ (by omega), put_same, if_neg (by omega)]

theorem putAll_at {k : Clause} : ∀ (l : List k.Elem) (m : Memory) (i j : Nat) (h : j < l.length),
    (putAll m k i l).cells k (i + j) = l[j]
  | x :: l, m, i, 0, _ => by
    rw [putAll, putAll_below l _ _ _ (by omega), put_same, if_pos (Nat.add_zero i)]
    rfl
  | x :: l, m, i, j + 1, h => by
    rw [putAll, show i + (j + 1) = i + 1 + j by omega, putAll_at l _ _ _ (by simpa using h)]
    rfl

theorem value_putAll (m : Memory) (k : Clause) (len : Nat) (xs : List k.Elem) :
    value (putAll m k len xs) (k := k) (.shared (len + xs.length)) =
      value m (k := k) (.shared len) ++ xs := by
  simp only [value]
  apply List.ext_getElem
  · simp
  · intro j h1 h2
    simp only [List.length_map, List.length_range] at h1
    simp only [List.getElem_map, List.getElem_range]
    by_cases hj : j < len
    · rw [List.getElem_append_left (by simpa using hj), putAll_below _ _ _ _ hj]
      simp
    · rw [List.getElem_append_right (by simpa using hj)]
      have := putAll_at xs m len (j - len) (by omega)
      rw [show len + (j - len) = j by omega] at this
      rw [this]
      simp

theorem safe_writeAll {k : Clause} {next : Act ρ} {r : ρ} (hm : mine k) :
    ∀ {l : List k.Elem} {m : Memory} {i : Nat}, n k ≤ i → Safe n mine (putAll m k i l) next r →
      Safe n mine m (writeAll k next i l) r
  | [], _, _, _, h => h
  | _ :: _, _, _, hi, h => .write hm hi (safe_writeAll hm (by omega) h)

theorem putAll_map {k : Clause} : ∀ (l : List k.Elem) (m : Memory) (i : Nat),
    (putAll m k i l).map = m.map
  | [], _, _ => rfl
  | x :: l, m, i => by
    rw [putAll, putAll_map l]
    rfl

/-- What `append` leaves as it was. -/
structure Frame (n : Clause → Nat) (k : Clause) (m m' : Memory) : Prop where
  other : ∀ k', k' ≠ k → m'.cells k' = m.cells k'
  below : ∀ i, i < n k → m'.cells k i = m.cells k i
  map : m'.map = m.map

theorem Frame.refl {k : Clause} {m : Memory} : Frame n k m m := ⟨fun _ _ => rfl, fun _ _ => rfl, rfl⟩

theorem safe_append {cap : Clause → Nat} {m : Memory} {k : Clause} {v : View k.Elem}
    (hv : VGood n mine v) {xs : List k.Elem} (hc : ∀ len, v = .shared len → n k < cap k → mine k)
    {next : View k.Elem → Act ρ} {r : ρ}
    (h : ∀ (m' : Memory) (v' : View k.Elem), VGood n mine v' → value m' v' = value m v ++ xs →
      Frame n k m m' → Safe n mine m' (next v') r) :
    Safe n mine m (append cap k v xs next) r := by
  unfold append
  split
  · next he => exact h m v hv (by simp [List.isEmpty_iff.1 he]) .refl
  · next he =>
    have hpos : 0 < xs.length := by
      cases xs with
      | nil => exact absurd rfl he
      | cons => simp
    cases v with
    | own l => exact h m _ trivial rfl .refl
    | shared len =>
      simp only
      split
      · next hl =>
        have hm : mine k := hc len rfl (by have := hv.1; omega)
        refine safe_writeAll hm hv.1 (h _ _ ⟨by have := hv.1; omega, fun _ => hm⟩
          (value_putAll m k len xs) ⟨fun k' hk => putAll_other hk _ _ _, fun i hi => ?_,
            putAll_map _ _ _⟩)
        exact putAll_below _ _ _ _ (by have := hv.1; omega)
      · exact safe_readAll (good_below hv) (h m _ trivial rfl .refl)

/-- The statement that a copy is, with this memory. -/
def Copy.stmt (m : Memory) (b : Copy) : UpdateStmt :=
  fill b.base (value m (k := .withs) b.withs) (value m (k := .columns) b.columns)
    (value m (k := .exprs) b.exprs) m.map

theorem value_congr {m m' : Memory} {k : Clause} (h : m'.cells k = m.cells k) (v : View k.Elem) :
    value m' v = value m v := by
  cases v with
  | own l => rfl
  | shared len => simp only [value, h]

/-- A copy that may be of this goroutine, where the columns of the shared builder are `cols`. -/
structure Fine (n : Clause → Nat) (mine : Clause → Prop) (sorter : Nat → Sorter) (cols : List Column)
    (m : Memory) (b : Copy) : Prop where
  withs : VGood n mine (k := .withs) b.withs
  columns : VGood n mine (k := .columns) b.columns
  exprs : VGood n mine (k := .exprs) b.exprs
  kept : value m (k := .columns) (.shared (n .columns)) = cols
  sorted : b.base.set.mode = .associative → b.columns = .shared (n .columns) ∧ Ascending cols ∧
    (sorter cols.length).Within cols.length ∧ (sorter cols.length).Still (arrayOf cols)

theorem kept_frame {k : Clause} {m m' : Memory} (h : Frame n k m m') :
    value m' (k := .columns) (.shared (n .columns)) = value m (k := .columns) (.shared (n .columns)) := by
  by_cases e : k = .columns
  · subst e
    simp only [value]
    exact List.map_congr_left fun i hi => h.below i (List.mem_range.1 hi)
  · exact value_congr (h.other _ (Ne.symm e)) _

/-- What comes after a call, unless it panics. -/
def follow (R : UpdateStmt → Go α) : Go UpdateStmt → Go α
  | .error p => .error p
  | .ok s => R s

/-- An operation of a goroutine does what a function does on plain values. -/
def Refines (n : Clause → Nat) (mine : Clause → Prop) (sorter : Nat → Sorter) (cols : List Column)
    (op : Copy → (Copy → Act (Go α)) → Act (Go α)) (f : UpdateStmt → Go UpdateStmt) : Prop :=
  ∀ (R : UpdateStmt → Go α) (next : Copy → Act (Go α)),
    (∀ m b, Fine n mine sorter cols m b → Safe n mine m (next b) (R (b.stmt m))) →
    ∀ m b, Fine n mine sorter cols m b → Safe n mine m (op b next) (follow R (f (b.stmt m)))

variable {sorter : Nat → Sorter} {cols : List Column}

/-- A change of the SET clause, as one of the statement. -/
def onSet (f : PairContainer → Go PairContainer) (s : UpdateStmt) : Go UpdateStmt :=
  match f s.set with
  | .error p => .error p
  | .ok q => .ok { s with set := q }

theorem set_ok {p : PairContainer} {c : Column}
    (h : (if p.mode = .unknown then .array else p.mode) = PairMode.array) :
    p.set c = .ok { p with mode := .array, columns := p.columns ++ [c] } := by
  simp only [PairContainer.set]
  rw [if_neg (by simp [h])]
  simp only [h]

theorem set_error {p : PairContainer} {c : Column}
    (h : ¬ (if p.mode = .unknown then .array else p.mode) = PairMode.array) :
    p.set c = Go.panic "loukoum: you can only use pairs in key-value or column-list syntax" := by
  simp only [PairContainer.set]
  rw [if_pos h]

theorem use_ok {p : PairContainer} {e : Expr} (h : p.mode = .array) :
    p.use e = .ok { p with expressions := p.expressions ++ [e] } := by
  simp only [PairContainer.use]
  rw [if_neg (by simp [h])]

theorem use_error {p : PairContainer} {e : Expr} (h : ¬ p.mode = .array) :
    p.use e = Go.panic "loukoum: you have to define pairs columns first" := by
  simp only [PairContainer.use]
  rw [if_pos h]

theorem refines_set {cap : Clause → Nat} (hc : n .columns < cap .columns → mine .columns) (c : Column) :
    Refines (α := α) n mine sorter cols (fun b next => b.set cap c next) (onSet (·.set c)) := by
  intro R next hn m b hb
  by_cases h : (if b.base.set.mode = .unknown then .array else b.base.set.mode) = PairMode.array
  · have hf : onSet (·.set c) (b.stmt m) = .ok (fill { b.base with set := { b.base.set with mode := .array } }
        (value m (k := .withs) b.withs) ((b.stmt m).set.columns ++ [c])
        (value m (k := .exprs) b.exprs) m.map) := by
      have := set_ok (p := (b.stmt m).set) (c := c) h
      simp only [onSet, this]
      rfl
    simp only [Copy.set, h, hf, follow]
    rw [if_neg (by decide)]
    refine safe_append (k := .columns) hb.columns (fun _ _ h => hc h) ?_
    intro m' v h1 h2 h3
    have := hn m' { b.withMode .array with columns := v }
      ⟨hb.withs, h1, hb.exprs, (kept_frame h3).trans hb.kept, fun hm => by cases hm⟩
    simp only [Copy.stmt, h2, value_congr (h3.other .withs (by decide)) b.withs,
      value_congr (h3.other .exprs (by decide)) b.exprs, h3.map, Copy.withMode] at this
    exact this
  · have hf : onSet (·.set c) (b.stmt m) = Go.panic
        "loukoum: you can only use pairs in key-value or column-list syntax" := by
      have := set_error (p := (b.stmt m).set) (c := c) h
      simp only [onSet, this]
      rfl
    simp only [Copy.set, hf]
    rw [if_pos h]
    exact .done

theorem refines_use {cap : Clause → Nat} (hc : n .exprs < cap .exprs → mine .exprs) (e : Expr) :
    Refines (α := α) n mine sorter cols (fun b next => b.use cap e next) (onSet (·.use e)) := by
  intro R next hn m b hb
  by_cases h : b.base.set.mode = .array
  · have hf : onSet (·.use e) (b.stmt m) = .ok (fill b.base
        (value m (k := .withs) b.withs) (value m (k := .columns) b.columns)
        ((b.stmt m).set.expressions ++ [e]) m.map) := by
      have := use_ok (p := (b.stmt m).set) (e := e) h
      simp only [onSet, this]
      rfl
    simp only [Copy.use, h, hf, follow]
    rw [if_neg (by decide)]
    refine safe_append (k := .exprs) hb.exprs (fun _ _ h => hc h) ?_
    intro m' v h1 h2 h3
    have := hn m' { b with exprs := v } ⟨hb.withs, hb.columns, h1, (kept_frame h3).trans hb.kept,
      hb.sorted⟩
    simp only [Copy.stmt, h2, value_congr (h3.other .withs (by decide)) b.withs,
      value_congr (h3.other .columns (by decide)) b.columns, h3.map] at this
    exact this
  · have hf : onSet (·.use e) (b.stmt m) = Go.panic
        "loukoum: you have to define pairs columns first" := by
      have := use_error (p := (b.stmt m).set) (e := e) h
      simp only [onSet, this]
      rfl
    simp only [Copy.use, hf]
    rw [if_pos h]
    exact .done

/-- A loop on plain values. -/
def runSet {β : Type} (f : PairContainer → β → Go PairContainer) :
    List β → PairContainer → Go PairContainer
  | [], p => .ok p
  | a :: l, p =>
    match f p a with
    | .error e => .error e
    | .ok p' => runSet f l p'

theorem refines_loop {β : Type} {body : Copy → β → (Copy → Act (Go α)) → Act (Go α)}
    {f : PairContainer → β → Go PairContainer} : ∀ (l : List β),
    (∀ a ∈ l, Refines n mine sorter cols (fun b next => body b a next) (onSet (f · a))) →
    Refines n mine sorter cols (fun b next => loop body next l b) (onSet (runSet f l))
  | [], _, R, next, hn, m, b, hb => hn m b hb
  | a :: l, h, R, next, hn, m, b, hb => by
    have h1 := refines_loop l (fun a ha => h a (List.mem_cons_of_mem _ ha)) R next hn
    have h2 := h a (List.mem_cons_self ..) (fun s => follow R (onSet (runSet f l) s)) _ h1 m b hb
    simp only [onSet, runSet] at h2 ⊢
    cases e : f (b.stmt m).set a with
    | error p => rw [e] at h2; exact h2
    | ok q => rw [e] at h2; exact h2

theorem runSet_setColumns : ∀ (l : List Column) (p : PairContainer),
    runSet PairContainer.set l p = setColumns p l
  | [], _ => rfl
  | c :: l, p => by
    rw [runSet, setColumns]
    cases p.set c with
    | error e => rfl
    | ok q => exact runSet_setColumns l q

theorem runSet_mergeSet : ∀ (l : List Any) (p : PairContainer),
    runSet mergeSetArg l p = mergeSet p l
  | [], _ => rfl
  | c :: l, p => by
    rw [runSet, mergeSet]
    cases mergeSetArg p c with
    | error e => rfl
    | ok q => exact runSet_mergeSet l q

/-- One iteration of `useAll`. -/
def useOne (p : PairContainer) (a : Any) : Go PairContainer :=
  match newExpression a with
  | .error e => .error e
  | .ok x => p.use x

theorem runSet_useAll : ∀ (l : List Any) (p : PairContainer),
    runSet useOne l p = UpdateStmt.useAll p l
  | [], _ => rfl
  | c :: l, p => by
    rw [runSet, UpdateStmt.useAll, useOne]
    cases newExpression c with
    | error e => rfl
    | ok x =>
      simp only
      cases p.use x with
      | error e => rfl
      | ok q => exact runSet_useAll l q

theorem refines_error {op : Copy → (Copy → Act (Go α)) → Act (Go α)} {f : UpdateStmt → Go UpdateStmt}
    {p : Panic} (ho : ∀ b next, op b next = .done (.error p)) (hf : ∀ s, f s = .error p) :
    Refines n mine sorter cols op f := by
  intro R next hn m b hb
  rw [ho, hf]
  exact .done

theorem refines_mergeArg {cap : Clause → Nat} (hc : n .columns < cap .columns → mine .columns) (a : Any)
    (ha : ¬ IsPair a) :
    Refines (α := α) n mine sorter cols (fun b next => b.mergeArg cap a next)
      (onSet (mergeSetArg · a)) := by
  have columns : ∀ (x : Any), (∀ b next, Copy.mergeArg (α := α) cap b a next =
        match toColumns [x] with
        | .error e => .done (.error e)
        | .ok cs => loop (Copy.set cap) next cs b) →
      (∀ q, mergeSetArg q a = match toColumns [x] with
        | .error e => .error e
        | .ok cs => setColumns q cs) →
      Refines (α := α) n mine sorter cols (fun b next => b.mergeArg cap a next)
        (onSet (mergeSetArg · a)) := by
    intro x h1 h2
    cases h : toColumns [x] with
    | error e =>
      rw [h] at h1 h2
      exact refines_error h1 (fun s => by simp only [onSet, h2])
    | ok cs =>
      rw [h] at h1 h2
      simp only [h1, h2]
      have := refines_loop (n := n) (mine := mine) (sorter := sorter) (cols := cols) (α := α)
        (body := Copy.set cap) (f := PairContainer.set) cs (fun c _ => refines_set hc c)
      have e : runSet PairContainer.set cs = (setColumns · cs) := funext (runSet_setColumns cs)
      rwa [e] at this
  cases a with
  | strMap => exact absurd trivial ha
  | anyMap => exact absurd trivial ha
  | pair => exact absurd trivial ha
  | val v =>
    cases v with
    | str x => exact columns _ (fun _ _ => rfl) fun _ => rfl
    | _ => exact refines_error (fun _ _ => rfl) fun _ => rfl
  | selExpr x =>
    cases x with
    | column c => exact columns _ (fun _ _ => rfl) fun _ => rfl
    | _ => exact refines_error (fun _ _ => rfl) fun _ => rfl
  | _ => exact refines_error (fun _ _ => rfl) fun _ => rfl

theorem refines_Set {cap : Clause → Nat} (hc : n .columns < cap .columns → mine .columns)
    (args : List Any) (ha : ∀ a ∈ args, ¬ IsPair a) :
    Refines (α := α) n mine sorter cols (fun b next => b.Set cap args next) (·.Set args) := by
  by_cases h : args.isEmpty
  · exact refines_error (fun b next => by simp only [Copy.Set]; exact if_pos h)
      fun s => by simp only [UpdateStmt.Set]; exact if_pos h
  · have := refines_loop (n := n) (mine := mine) (sorter := sorter) (cols := cols) (α := α)
      (body := Copy.mergeArg cap) (f := mergeSetArg) args (fun a h => refines_mergeArg hc a (ha a h))
    have e : onSet (runSet mergeSetArg args) = (·.Set args) := by
      funext s
      simp only [onSet, runSet_mergeSet, UpdateStmt.Set]
      exact (if_neg h).symm
    rw [e] at this
    have e' : (fun (b : Copy) (next : Copy → Act (Go α)) => b.Set cap args next) =
        fun b next => loop (Copy.mergeArg cap) next args b := by
      funext b next
      simp only [Copy.Set]
      exact if_neg h
    rwa [e']

theorem refines_Using {cap : Clause → Nat} (hc : n .exprs < cap .exprs → mine .exprs)
    (args : List Any) :
    Refines (α := α) n mine sorter cols (fun b next => b.Using cap args next) (·.Using args) := by
  have hu := refines_loop (n := n) (mine := mine) (sorter := sorter) (cols := cols) (α := α)
    (body := Copy.useArg cap) (f := useOne) args (fun a _ => by
      cases h : newExpression a with
      | error e =>
        exact refines_error (p := e) (fun b next => by simp only [Copy.useArg, h])
          fun s => by simp only [onSet, useOne, h]
      | ok x =>
        have := refines_use (α := α) (n := n) (mine := mine) (sorter := sorter) (cols := cols)
          (cap := cap) hc x
        simp only [Copy.useArg, useOne, h]
        exact this)
  intro R next hn m b hb
  by_cases h : b.base.set.mode = .array
  · by_cases h0 : args.isEmpty
    · simp only [Copy.Using, UpdateStmt.Using, Copy.stmt, fill, h, h0]
      exact .done
    · have h1 := hu R next hn m b hb
      simp only [onSet, runSet_useAll] at h1
      have h2 : (b.stmt m).set.mode = .array := h
      simp only [Copy.Using, UpdateStmt.Using]
      rw [if_neg (show ¬ b.base.set.mode ≠ .array from fun hne => hne h), if_neg h0,
        if_neg (show ¬ (b.stmt m).set.mode ≠ .array from fun hne => hne h2), if_neg h0]
      exact h1
  · have h2 : (b.stmt m).set.mode ≠ .array := h
    simp only [Copy.Using, UpdateStmt.Using]
    rw [if_pos h, if_pos h2]
    exact .done

theorem refines_With {cap : Clause → Nat}
    (hc : n .withs < cap .withs → n .withs ≠ 0 → mine .withs) (args : List WithQuery) :
    Refines (α := α) n mine sorter cols (fun b next => b.With cap args next) (·.With args) := by
  intro R next hn m b hb
  have hl := value_length m (k := .withs) b.withs
  simp only [Copy.With]
  split
  · next h0 =>
    have he : (b.stmt m).withs = [] := List.length_eq_zero_iff.1 (hl.trans h0)
    have hw : (b.stmt m).With args = .ok { b.stmt m with withs := args } := by
      simp only [UpdateStmt.With, he]
      rfl
    rw [hw]
    exact hn m { b with withs := .own args } ⟨trivial, hb.columns, hb.exprs, hb.kept, hb.sorted⟩
  · next h0 =>
    have he : (b.stmt m).withs.isEmpty = false := by
      cases hv : (b.stmt m).withs with
      | nil =>
        have : (b.stmt m).withs.length = b.withs.len := hl
        rw [hv] at this
        exact absurd this.symm h0
      | cons => rfl
    have hw : (b.stmt m).With args = .ok { b.stmt m with withs := (b.stmt m).withs ++ args } := by
      simp only [UpdateStmt.With]
      exact if_neg (by rw [he]; decide)
    rw [hw]
    have hmine : ∀ len, b.withs = .shared len → n .withs < cap .withs → mine .withs := by
      intro len hv hr
      by_cases hz : n .withs = 0
      · have hg := hb.withs
        rw [hv] at hg h0
        exact hg.2 (by rw [hz]; exact Nat.pos_of_ne_zero h0)
      · exact hc hr hz
    refine safe_append (k := .withs) hb.withs hmine ?_
    intro m' v' h1 h2 h3
    have := hn m' { b with withs := v' } ⟨h1, hb.columns, hb.exprs, (kept_frame h3).trans hb.kept,
      hb.sorted⟩
    simp only [Copy.stmt, h2, value_congr (h3.other .columns (by decide)) b.columns,
      value_congr (h3.other .exprs (by decide)) b.exprs, h3.map] at this
    exact this

theorem other_apply {c : UpdCall} (hc : ∀ k, ¬ Adds c k) (s : UpdateStmt) (ws : List WithQuery)
    (cs : List Column) (es : List Expr) (m : List (Column × Expr)) :
    c.apply (fill s ws cs es m) = (c.apply s).map (fill · ws cs es m) := by
  cases c with
  | set args => exact absurd ⟨args, rfl⟩ (hc .columns)
  | «using» args => exact absurd ⟨args, rfl⟩ (hc .exprs)
  | «with» args => exact absurd ⟨args, rfl⟩ (hc .withs)
  | «from» a =>
    have e : (fill s ws cs es m).tables = s.tables := rfl
    simp only [UpdCall.apply, UpdateStmt.From, e]
    cases s.tables.isEmpty with
    | true => cases toFrom [a] <;> rfl
    | false => rfl
  | returning args =>
    have e : (fill s ws cs es m).returning = s.returning := rfl
    simp only [UpdCall.apply, UpdateStmt.Returning, e]
    cases s.returning.isEmpty with
    | true => cases toSelectExpressions args <;> rfl
    | false => rfl
  | _ =>
    simp only [UpdCall.apply, UpdateStmt.Only, UpdateStmt.Where, UpdateStmt.And, UpdateStmt.Or,
      UpdateStmt.Comment, fill]
    first
      | rfl
      | repeat' (split <;> try rfl)

theorem other_mode {c : UpdCall} (hc : ∀ k, ¬ Adds c k) {s s' : UpdateStmt} (h : c.apply s = .ok s') :
    s'.set = s.set := by
  cases c with
  | set args => exact absurd ⟨args, rfl⟩ (hc .columns)
  | «using» args => exact absurd ⟨args, rfl⟩ (hc .exprs)
  | «with» args => exact absurd ⟨args, rfl⟩ (hc .withs)
  | _ =>
    simp only [UpdCall.apply, UpdateStmt.Only, UpdateStmt.Where, UpdateStmt.And, UpdateStmt.Or,
      UpdateStmt.From, UpdateStmt.Returning, UpdateStmt.Comment] at h
    repeat' (split at h)
    all_goals first
      | cases h; done
      | cases h; rfl

theorem refines_other {c : UpdCall} (hc : ∀ k, ¬ Adds c k) :
    Refines (α := α) n mine sorter cols (fun b next => b.other c.apply next) c.apply := by
  intro R next hn m b hb
  have hap := other_apply hc b.base (value m (k := .withs) b.withs)
    (value m (k := .columns) b.columns) (value m (k := .exprs) b.exprs) m.map
  have hap' : c.apply (b.stmt m) = _ := hap
  simp only [Copy.other]
  cases hs : c.apply b.base with
  | error p =>
    rw [hs] at hap'
    rw [hap']
    exact .done
  | ok s =>
    rw [hs] at hap'
    rw [hap']
    refine hn m { b with base := s } ⟨hb.withs, hb.columns, hb.exprs, hb.kept, fun h => hb.sorted ?_⟩
    rw [← other_mode hc hs]
    exact h

theorem refines_call {cap : Clause → Nat} {c : UpdCall}
    (hc : ∀ k, Adds c k → n k < cap k → (k = .withs → n k ≠ 0) → mine k) (hp : NoPairs [c]) :
    Refines (α := α) n mine sorter cols (fun b next => b.call cap next c) c.apply := by
  cases c with
  | set args =>
    exact refines_Set (fun h => hc .columns ⟨args, rfl⟩ h fun e => by cases e) args
      fun a ha => hp args (List.mem_singleton.2 rfl) a ha
  | «using» args => exact refines_Using (fun h => hc .exprs ⟨args, rfl⟩ h fun e => by cases e) args
  | «with» args => exact refines_With (fun h h0 => hc .withs ⟨args, rfl⟩ h fun _ => h0) args
  | only => exact refines_other (c := .only) fun k => by cases k <;> rintro ⟨_, h⟩ <;> cases h
  | «where» x => exact refines_other (c := .where x) fun k => by cases k <;> rintro ⟨_, h⟩ <;> cases h
  | and x => exact refines_other (c := .and x) fun k => by cases k <;> rintro ⟨_, h⟩ <;> cases h
  | or x => exact refines_other (c := .or x) fun k => by cases k <;> rintro ⟨_, h⟩ <;> cases h
  | «from» x => exact refines_other (c := .from x) fun k => by cases k <;> rintro ⟨_, h⟩ <;> cases h
  | returning x => exact refines_other (c := .returning x) fun k => by cases k <;> rintro ⟨_, h⟩ <;> cases h
  | comment x => exact refines_other (c := .comment x) fun k => by cases k <;> rintro ⟨_, h⟩ <;> cases h

variable [GoRuntime]

theorem kept_at {m : Memory} {k : Clause} {N : Nat} {l : List k.Elem}
    (h : value m (k := k) (.shared N) = l) {i : Nat} (_ : i < N) (hl : i < l.length) :
    m.cells k i = l[i] := by
  subst h
  simp [value]

theorem safe_sortBy {m : Memory} {a : Act ρ} {r : ρ} {N : Nat} {cells : Concurrent.Cells}
    (hN : ∀ i, i < N → i < n .columns ∧ m.cells .columns i = cells i) (ha : Safe n mine m a r) :
    ∀ {s : Sorter}, s.Within N → s.Still cells → Safe n mine m (sortBy s a) r
  | .stop, _, _ => ha
  | .less i j next, hw, hs => by
    refine .read (.inl (hN i hw.1).1) (.read (.inl (hN j hw.2.1).1) ?_)
    refine safe_sortBy hN ha (hw.2.2 _) ?_
    rw [(hN i hw.1).2, (hN j hw.2.1).2]
    exact hs
  | .swap _ _ _, _, hs => hs.elim

theorem safe_render {m : Memory} {b : Copy} (hb : Fine n mine sorter cols m b) (render : W → Go α) :
    Safe n mine m (b.render sorter render) (render (Stmt.update (b.stmt m)).write) := by
  refine safe_readSlice (k := .withs) hb.withs (safe_readSlice (k := .exprs) hb.exprs ?_)
  cases hv : b.columns with
  | own cs =>
    refine .look ?_
    have e : b.stmt m = fill b.base (value m (k := .withs) b.withs) cs
        (value m (k := .exprs) b.exprs) m.map := by
      simp only [Copy.stmt, hv]
      rfl
    rw [e]
    exact .done
  | shared len =>
    have hg := hb.columns
    rw [hv] at hg
    have e : b.stmt m = fill b.base (value m (k := .withs) b.withs)
        (value m (k := .columns) (.shared len)) (value m (k := .exprs) b.exprs) m.map := by
      simp only [Copy.stmt, hv]
      rfl
    simp only
    split
    · next hm =>
      obtain ⟨h1, h2, h3, h4⟩ := hb.sorted hm
      rw [hv] at h1
      cases h1
      have hl : cols.length = n .columns := by
        exact (congrArg List.length hb.kept.symm).trans ((List.length_map ..).trans List.length_range)
      rw [hl] at h3 h4
      refine safe_sortBy (N := n .columns) (cells := arrayOf cols) ?_ ?_ h3 h4
      · intro i hi
        refine ⟨hi, ?_⟩
        have hi' : i < cols.length := by omega
        rw [Concurrent.arrayOf_lt hi']
        exact kept_at (k := .columns) hb.kept hi hi'
      · have ew : (Stmt.update (b.stmt m)).write = writeUpdate (b.stmt m)
            (writeRead (b.stmt m).set cols) := by
          have hq : Concurrent.keyValues (.update (b.stmt m)) = some (b.stmt m).set := if_pos hm
          rw [Concurrent.write_eq hq]
          have ec : (b.stmt m).set.columns = cols := by
            rw [e]
            exact hb.kept
          rw [ec, Concurrent.ascending_sorted h2]
          rfl
        have key : ∀ cs : List Column, cs = cols → Safe n mine m (.look fun mp =>
            let u := fill b.base (value m (k := .withs) b.withs) cs (value m (k := .exprs) b.exprs) mp
            .done (render (writeUpdate u (writeRead u.set cs))))
            (render (Stmt.update (b.stmt m)).write) := by
          rintro cs rfl
          refine .look ?_
          have e' : b.stmt m = fill b.base (value m (k := .withs) b.withs) cs
              (value m (k := .exprs) b.exprs) m.map := by
            rw [e]
            exact congrArg (fill b.base _ · _ _) hb.kept
          rw [ew, e']
          exact .done
        exact safe_readAll (good_below hg) (key _ hb.kept)
    · refine safe_readAll (good_below hg) (.look ?_)
      rw [e]
      exact .done

theorem safe_goroutine {cap : Clause → Nat} (render : W → Go α) : ∀ (cs : List UpdCall),
    (∀ c ∈ cs, ∀ k, Adds c k → n k < cap k → (k = .withs → n k ≠ 0) → mine k) → NoPairs cs →
    ∀ (m : Memory) (b : Copy), Fine n mine sorter cols m b →
    Safe n mine m (goroutine cap sorter render cs b) (Job.alone ⟨cs, render⟩ (b.stmt m))
  | [], _, _, m, b, hb => safe_render hb render
  | c :: cs, hc, hp, m, b, hb => by
    have ih := safe_goroutine (cap := cap) render cs (fun c h => hc c (List.mem_cons_of_mem _ h))
      (fun args h => hp args (List.mem_cons_of_mem _ h))
    have h1 := refines_call (α := α) (sorter := sorter) (cols := cols) (hc c (List.mem_cons_self ..))
      (fun args h => hp args (by rw [List.mem_singleton.1 h]; exact List.mem_cons_self ..))
      _ _ ih m b hb
    rw [goroutine]
    have e : Job.alone ⟨c :: cs, render⟩ (b.stmt m) =
        follow (Job.alone ⟨cs, render⟩) (c.apply (b.stmt m)) := by
      simp only [Job.alone, runAll]
      cases c.apply (b.stmt m) <;> rfl
    rw [e]
    exact h1

theorem value_start {m : Memory} {s : UpdateStmt} (h : Holds m s) (k : Clause) :
    value m (k := k) (.shared (k.of s).length) = k.of s := by
  simp only [value]
  apply List.ext_getElem
  · simp
  · intro i h1 h2
    simp only [List.getElem_map, List.getElem_range]
    exact h.2 k i h2

theorem stmt_start {m : Memory} {s : UpdateStmt} (h : Holds m s) : (start s).stmt m = s := by
  have h1 : value m (k := .withs) (start s).withs = s.withs := value_start h .withs
  have h2 : value m (k := .columns) (start s).columns = s.set.columns := value_start h .columns
  have h3 : value m (k := .exprs) (start s).exprs = s.set.expressions := value_start h .exprs
  simp only [Copy.stmt, h1, h2, h3, h.1]
  rfl

/-! ## Two goroutines that set the same column -/

theorem mapAssign_twice {κ ν : Type} [DecidableEq κ] (k : κ) (v v' : ν) :
    ∀ m : List (κ × ν), mapAssign k v' (mapAssign k v m) = mapAssign k v' m
  | [] => by simp [mapAssign]
  | (k', x) :: m => by
    by_cases h : k' = k
    · simp [mapAssign, h]
    · simp [mapAssign, h, mapAssign_twice k v v' m]

theorem lookup_mapAssign {κ ν : Type} [DecidableEq κ] (k : κ) (v : ν) :
    ∀ m : List (κ × ν), mapLookup k (mapAssign k v m) = some v
  | [] => by simp [mapAssign, mapLookup]
  | (k', x) :: m => by
    by_cases h : k' = k
    · simp [mapAssign, mapLookup, h]
    · simp [mapAssign, mapLookup, h, lookup_mapAssign k v m]

theorem steps_readAll {m : Memory} {k : Clause} {next : List k.Elem → Act ρ} {t : Nat} :
    ∀ {l : List Nat} {acc : List k.Elem} {ts : List (Act ρ)}, ts[t]? = some (readAll k next acc l) →
      Steps ⟨m, ts⟩ ⟨m, ts.set t (next (acc ++ l.map (m.cells k)))⟩
  | [], acc, ts, h => by
    obtain ⟨h1, h2⟩ := List.getElem?_eq_some_iff.1 h
    rw [List.map_nil, List.append_nil]
    have : next acc = ts[t] := h2.symm
    rw [this, List.set_getElem_self]
    exact .refl
  | i :: l, acc, ts, h => by
    have hl := (List.getElem?_eq_some_iff.1 h).1
    have := steps_readAll (m := m) (l := l) (acc := acc ++ [m.cells k i])
      (ts := ts.set t (readAll k next (acc ++ [m.cells k i]) l)) (List.getElem?_set_self hl)
    rw [List.set_set, List.append_assoc] at this
    exact Steps.trans (.tail .refl (.read h)) this

theorem steps_writeAll {k : Clause} {next : Act ρ} {t : Nat} :
    ∀ {l : List k.Elem} {m : Memory} {i : Nat} {ts : List (Act ρ)},
      ts[t]? = some (writeAll k next i l) → Steps ⟨m, ts⟩ ⟨putAll m k i l, ts.set t next⟩
  | [], m, i, ts, h => by
    obtain ⟨h1, h2⟩ := List.getElem?_eq_some_iff.1 h
    have : next = ts[t] := h2.symm
    rw [this, List.set_getElem_self]
    exact .refl
  | x :: l, m, i, ts, h => by
    have hl := (List.getElem?_eq_some_iff.1 h).1
    have := steps_writeAll (m := m.put k i x) (l := l) (i := i + 1)
      (ts := ts.set t (writeAll k next (i + 1) l)) (List.getElem?_set_self hl)
    rw [List.set_set] at this
    exact Steps.trans (.tail .refl (.write h)) this

theorem steps_append {cap : Clause → Nat} {m : Memory} {k : Clause} {len : Nat} {xs : List k.Elem}
    {next : View k.Elem → Act ρ} {t : Nat} {ts : List (Act ρ)} (hn : n k ≤ len)
    (h : ts[t]? = some (append cap k (.shared len) xs next)) :
    ∃ m' v, Frame n k m m' ∧ Steps ⟨m, ts⟩ ⟨m', ts.set t (next v)⟩ := by
  unfold append at h
  split at h
  · refine ⟨m, .shared len, .refl, ?_⟩
    obtain ⟨h1, h2⟩ := List.getElem?_eq_some_iff.1 h
    rw [← h2, List.set_getElem_self]
    exact .refl
  · simp only at h
    split at h
    · exact ⟨_, _, ⟨fun k' hk => putAll_other hk _ _ _, fun i hi => putAll_below _ _ _ _ (by omega),
        putAll_map _ _ _⟩, steps_writeAll h⟩
    · exact ⟨m, _, .refl, steps_readAll h⟩

theorem add_old {cap : Clause → Nat} {m : Memory} {b : Copy} {c : Column} {e : Expr}
    {next : Copy → Act (Go α)} {t : Nat} {ts : List (Act (Go α))}
    (hb : b.base.set.mode ≠ .array) (hc : (mapLookup c m.map).isSome = true)
    (h : ts[t]? = some (b.add cap c e next)) :
    Steps ⟨m, ts⟩ ⟨m.assign c e, ts.set t (next (b.withMode .associative))⟩ := by
  have hm : (if b.base.set.mode = .unknown then .associative else b.base.set.mode) =
      PairMode.associative := by
    cases hx : b.base.set.mode <;> simp_all
  simp only [Copy.add, hm, ne_eq, not_true, if_false] at h
  have hl := (List.getElem?_eq_some_iff.1 h).1
  have s1 := Step.look (w := ⟨m, ts⟩) h
  rw [if_pos hc] at s1
  have s2 := Step.assign (w := ⟨m, ts.set t (.assign c e (next (b.withMode .associative)))⟩)
    (t := t) (c := c) (e := e) (next := next (b.withMode .associative)) (by simp [hl])
  rw [List.set_set] at s2
  exact .tail (.tail .refl s1) s2

theorem add_new {cap : Clause → Nat} {m : Memory} {b : Copy} {c : Column} {e : Expr}
    {next : Copy → Act (Go α)} {t : Nat} {ts : List (Act (Go α))} {len : Nat}
    (hb : b.base.set.mode ≠ .array) (hc : ¬ (mapLookup c m.map).isSome = true)
    (hv : b.columns = .shared len) (hn : n .columns ≤ len) (h : ts[t]? = some (b.add cap c e next)) :
    ∃ m' b', Frame n .columns m m' ∧ Steps ⟨m, ts⟩ ⟨m'.assign c e, ts.set t (next b')⟩ := by
  have hm : (if b.base.set.mode = .unknown then .associative else b.base.set.mode) =
      PairMode.associative := by
    cases hx : b.base.set.mode <;> simp_all
  simp only [Copy.add, hm, ne_eq, not_true, if_false] at h
  have hl := (List.getElem?_eq_some_iff.1 h).1
  have s1 := Step.look (w := ⟨m, ts⟩) h
  rw [if_neg hc, hv] at s1
  obtain ⟨m', v, h1, h2⟩ := steps_append (cap := cap) (m := m) (k := .columns) (xs := [c]) (t := t) hn
    (ts := ts.set t (append cap .columns (.shared len) [c] fun v =>
      .assign c e (next { b.withMode .associative with columns := v })))
    (next := fun v => .assign c e (next { b.withMode .associative with columns := v }))
    (List.getElem?_set_self hl)
  rw [List.set_set] at h2
  have s2 := Step.assign (w := ⟨m', ts.set t (.assign c e (next { b.withMode .associative with
    columns := v }))⟩) (t := t) (c := c) (e := e)
    (next := next { b.withMode .associative with columns := v }) (by simp [hl])
  rw [List.set_set] at s2
  exact ⟨m', _, h1, .tail (Steps.trans (.tail .refl s1) h2) s2⟩

theorem Set_pair {cap : Clause → Nat} {b : Copy} {key v : Any} {c : Column} {e : Expr}
    {next : Copy → Act (Go α)} (hc : toColumn key = .ok c) (he : newWrapped v = .ok e) :
    b.Set cap [.pair key v] next = b.add cap c e next := by
  simp only [Copy.Set, loop, Copy.mergeArg, Copy.addPair, hc, he]
  rfl

end Verif.DeriveUpdate
