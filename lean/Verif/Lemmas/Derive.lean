import Verif.Spec.Derive
import Verif.Lemmas.HeapSelect

/-!
# Lemmas for C78
-/

set_option linter.unusedSectionVars false

namespace Verif.Derive
open Spec

variable {ρ α : Type}

theorem put_same (m : Memory) (k : Clause) (i : Nat) (x : k.Elem) (j : Nat) :
    m.put k i x k j = if j = i then x else m k j := by
  simp [Memory.put]

theorem put_other (m : Memory) {k k' : Clause} (i : Nat) (x : k.Elem) (j : Nat) (h : k' ≠ k) :
    m.put k i x k' j = m k' j := by
  simp [Memory.put, h]

theorem Steps.trans {u v w : World ρ} (h : Steps u v) (h' : Steps v w) : Steps u w := by
  induction h' with
  | refl => exact h
  | tail _ s ih => exact .tail ih s

/-- What is left to do gives `r`, reads only cells below `n` or of clauses that are `mine`, and writes
only cells of clauses that are `mine`, not below `n`. -/
inductive Safe (n : Clause → Nat) (mine : Clause → Prop) : Memory → Act ρ → ρ → Prop
  | done {m : Memory} {r : ρ} : Safe n mine m (.done r) r
  | read {m : Memory} {k : Clause} {i : Nat} {next : k.Elem → Act ρ} {r : ρ} :
      (i < n k ∨ mine k) → Safe n mine m (next (m k i)) r → Safe n mine m (.read k i next) r
  | write {m : Memory} {k : Clause} {i : Nat} {x : k.Elem} {next : Act ρ} {r : ρ} :
      mine k → n k ≤ i → Safe n mine (m.put k i x) next r → Safe n mine m (.write k i x next) r

theorem Safe.frame {n : Clause → Nat} {mine : Clause → Prop} {m : Memory} {a : Act ρ} {r : ρ}
    (h : Safe n mine m a r) : ∀ {m' : Memory}, (∀ k i, i < n k ∨ mine k → m' k i = m k i) →
      Safe n mine m' a r := by
  induction h with
  | done => intros; exact .done
  | read h1 _ ih =>
    intro m' hm
    refine .read h1 ?_
    rw [hm _ _ h1]
    exact ih hm
  | write h1 h2 _ ih =>
    intro m' hm
    refine .write h1 h2 (ih ?_)
    intro k' j hj
    unfold Memory.put
    split
    · split
      · rfl
      · exact hm _ _ hj
    · exact hm _ _ hj

/-- All goroutines are safe, and what is below `n` is as it was. -/
structure Inv (n : Clause → Nat) (mine : Nat → Clause → Prop) (res : Nat → ρ) (m0 : Memory)
    (len : Nat) (w : World ρ) : Prop where
  length : w.threads.length = len
  safe : ∀ t a, w.threads[t]? = some a → Safe n (mine t) w.memory a (res t)
  kept : ∀ k i, i < n k → w.memory k i = m0 k i

theorem Inv.step {n : Clause → Nat} {mine : Nat → Clause → Prop} {res : Nat → ρ} {m0 : Memory}
    {len : Nat} (hd : ∀ k t t', mine t k → mine t' k → t = t') {v w : World ρ} (h : Step v w)
    (hi : Inv n mine res m0 len v) : Inv n mine res m0 len w := by
  cases h with
  | @read t k i next ht =>
    refine ⟨by simpa using hi.length, ?_, hi.kept⟩
    intro t' a ha
    simp only [List.getElem?_set] at ha
    split at ha
    · next e =>
      subst e
      split at ha
      · cases ha
        cases hi.safe _ _ ht with
        | read _ h => exact h
      · cases ha
    · exact hi.safe _ _ ha
  | @write t k i x next ht =>
    have hw := hi.safe _ _ ht
    cases hw with
    | write h1 h2 h3 =>
      refine ⟨by simpa using hi.length, ?_, ?_⟩
      · intro t' a ha
        simp only [List.getElem?_set] at ha
        split at ha
        · next e =>
          subst e
          split at ha
          · cases ha
            exact h3
          · cases ha
        · next e =>
          refine (hi.safe _ _ ha).frame ?_
          intro k' j hj
          show v.memory.put k i x k' j = v.memory k' j
          by_cases hk : k' = k
          · subst hk
            rw [put_same, if_neg]
            rintro rfl
            rcases hj with hj | hj
            · omega
            · exact e (hd _ _ _ h1 hj)
          · exact put_other _ _ _ _ hk
      · intro k' j hj
        show v.memory.put k i x k' j = m0 k' j
        rw [← hi.kept _ _ hj]
        by_cases hk : k' = k
        · subst hk
          rw [put_same, if_neg (by omega)]
        · exact put_other _ _ _ _ hk

theorem Inv.steps {n : Clause → Nat} {mine : Nat → Clause → Prop} {res : Nat → ρ} {m0 : Memory}
    {len : Nat} (hd : ∀ k t t', mine t k → mine t' k → t = t') {v w : World ρ} (h : Steps v w)
    (hi : Inv n mine res m0 len v) : Inv n mine res m0 len w := by
  induction h with
  | refl => exact hi
  | tail _ s ih => exact ih.step hd s

theorem Safe.finish {n : Clause → Nat} {mine : Clause → Prop} {m : Memory} {a : Act ρ} {r : ρ}
    (h : Safe n mine m a r) : ∀ (ts : List (Act ρ)) (t : Nat), ts[t]? = some a →
      ∃ m', Steps ⟨m, ts⟩ ⟨m', ts.set t (.done r)⟩ := by
  induction h with
  | @done m r =>
    intro ts t ht
    refine ⟨m, ?_⟩
    obtain ⟨h1, h2⟩ := List.getElem?_eq_some_iff.1 ht
    rw [← h2, List.set_getElem_self]
    exact .refl
  | @read m k i next r _ _ ih =>
    intro ts t ht
    have hl := (List.getElem?_eq_some_iff.1 ht).1
    obtain ⟨m', hm⟩ := ih (ts.set t (next (m k i))) t (by simp [hl])
    rw [List.set_set] at hm
    exact ⟨m', Steps.trans (.tail .refl (.read ht)) hm⟩
  | @write m k i x next r _ _ _ ih =>
    intro ts t ht
    have hl := (List.getElem?_eq_some_iff.1 ht).1
    obtain ⟨m', hm⟩ := ih (ts.set t next) t (by simp [hl])
    rw [List.set_set] at hm
    exact ⟨m', Steps.trans (.tail .refl (.write ht)) hm⟩

theorem Inv.finish {n : Clause → Nat} {mine : Nat → Clause → Prop} {res : Nat → ρ} {m0 : Memory}
    {len : Nat} (hd : ∀ k t t', mine t k → mine t' k → t = t') {w : World ρ}
    (hi : Inv n mine res m0 len w) :
    ∃ m', Steps w ⟨m', (List.range len).map fun t => .done (res t)⟩ := by
  have step : ∀ j, j ≤ len → ∃ w', Steps w w' ∧ Inv n mine res m0 len w' ∧
      ∀ t, t < j → w'.threads[t]? = some (.done (res t)) := by
    intro j
    induction j with
    | zero => exact fun _ => ⟨w, .refl, hi, fun t ht => absurd ht (Nat.not_lt_zero t)⟩
    | succ j ih =>
      intro hj
      obtain ⟨w', h1, h2, h3⟩ := ih (by omega)
      have hl : j < w'.threads.length := by rw [h2.length]; omega
      obtain ⟨m', h4⟩ := (h2.safe j _ (List.getElem?_eq_getElem hl)).finish w'.threads j
        (List.getElem?_eq_getElem hl)
      refine ⟨_, h1.trans h4, h2.steps hd h4, ?_⟩
      intro t ht
      by_cases e : t = j
      · subst e
        simp [hl]
      · simp only [List.getElem?_set_ne (Ne.symm e)]
        exact h3 t (by omega)
  obtain ⟨w', h1, h2, h3⟩ := step len (Nat.le_refl _)
  refine ⟨w'.memory, ?_⟩
  have e : (List.range len).map (fun t => (Act.done (res t) : Act ρ)) = w'.threads := by
    apply List.ext_getElem?
    intro t
    by_cases ht : t < len
    · rw [h3 t ht]
      simp [ht]
    · have hl := h2.length
      rw [List.getElem?_eq_none (by simpa using ht), List.getElem?_eq_none (by omega)]
  rw [e]
  exact h1

/-! ## The accesses of a goroutine are safe -/

/-- The elements of a slice. -/
def View.value (m : Memory) {k : Clause} : View k.Elem → List k.Elem
  | .shared n => (List.range n).map (m k)
  | .own l => l

theorem View.value_length (m : Memory) {k : Clause} (v : View k.Elem) : (v.value m).length = v.len := by
  cases v <;> simp [View.value, View.len]

/-- A slice that may be of this goroutine. -/
def View.Good (n : Clause → Nat) (mine : Clause → Prop) {k : Clause} : View k.Elem → Prop
  | .shared len => n k ≤ len ∧ (n k < len → mine k)
  | .own _ => True

variable {n : Clause → Nat} {mine : Clause → Prop}

theorem safe_readAll {m : Memory} {k : Clause} {next : List k.Elem → Act ρ} {r : ρ} :
    ∀ {l : List Nat} {acc : List k.Elem}, (∀ i ∈ l, i < n k ∨ mine k) →
      Safe n mine m (next (acc ++ l.map (m k))) r → Safe n mine m (readAll k next acc l) r
  | [], acc, _, h => by simpa [readAll] using h
  | i :: l, acc, hl, h => by
    refine .read (hl i (List.mem_cons_self ..)) (safe_readAll (fun j hj =>
      hl j (List.mem_cons_of_mem _ hj)) ?_)
    rw [List.append_assoc]
    exact h

theorem good_below {k : Clause} {len : Nat} (h : View.Good n mine (k := k) (.shared len)) :
    ∀ i ∈ List.range len, i < n k ∨ mine k := by
  intro i hi
  by_cases hn : i < n k
  · exact .inl hn
  · exact .inr (h.2 (by have := List.mem_range.1 hi; omega))

theorem safe_readSlice {m : Memory} {k : Clause} {v : View k.Elem} (hv : v.Good n mine)
    {next : List k.Elem → Act ρ} {r : ρ} (h : Safe n mine m (next (v.value m)) r) :
    Safe n mine m (readSlice k v next) r := by
  cases v with
  | own l => exact h
  | shared len => exact safe_readAll (good_below hv) h

/-- Several assignments. -/
def putAll (m : Memory) (k : Clause) : Nat → List k.Elem → Memory
  | _, [] => m
  | i, x :: l => putAll (m.put k i x) k (i + 1) l

theorem putAll_other {k k' : Clause} (h : k' ≠ k) : ∀ (l : List k.Elem) (m : Memory) (i : Nat),
    putAll m k i l k' = m k'
  | [], _, _ => rfl
  | x :: l, m, i => by
    rw [putAll, putAll_other h l]
    funext j
    exact put_other _ _ _ _ h

theorem putAll_below {k : Clause} : ∀ (l : List k.Elem) (m : Memory) (i j : Nat), j < i →
    putAll m k i l k j = m k j
  | [], _, _, _, _ => rfl
  | x :: l, m, i, j, h => by
    rw [putAll, putAll_below l _ _ _ (by omega), put_same, if_neg (by omega)]

theorem putAll_at {k : Clause} : ∀ (l : List k.Elem) (m : Memory) (i j : Nat) (h : j < l.length),
    putAll m k i l k (i + j) = l[j]
  | x :: l, m, i, 0, _ => by
    rw [putAll, putAll_below l _ _ _ (by omega), put_same, if_pos (Nat.add_zero i)]
    rfl
  | x :: l, m, i, j + 1, h => by
    rw [putAll, show i + (j + 1) = i + 1 + j by omega, putAll_at l _ _ _ (by simpa using h)]
    rfl

theorem value_putAll (m : Memory) (k : Clause) (len : Nat) (xs : List k.Elem) :
    View.value (putAll m k len xs) (k := k) (.shared (len + xs.length)) =
      View.value m (k := k) (.shared len) ++ xs := by
  simp only [View.value]
  apply List.ext_getElem
  · simp
  · intro j h1 h2
    simp only [List.length_map, List.length_range] at h1
    simp only [List.getElem_map, List.getElem_range]
    by_cases hj : j < len
    · rw [List.getElem_append_left (by simpa using hj), putAll_below _ _ _ _ hj]
      simp
    · rw [List.getElem_append_right (by simpa using hj)]
      have := putAll_at xs m len (j - len) (by omega)
      rw [show len + (j - len) = j by omega] at this
      rw [this]
      simp

theorem safe_writeAll {k : Clause} {next : Act ρ} {r : ρ} (hm : mine k) :
    ∀ {l : List k.Elem} {m : Memory} {i : Nat}, n k ≤ i → Safe n mine (putAll m k i l) next r →
      Safe n mine m (writeAll k next i l) r
  | [], _, _, _, h => h
  | _ :: _, _, _, hi, h => .write hm hi (safe_writeAll hm (by omega) h)

theorem safe_append {cap : Clause → Nat} {m : Memory} {k : Clause} {v : View k.Elem}
    (hv : v.Good n mine) {xs : List k.Elem} (hc : ∀ len, v = .shared len → n k < cap k → mine k)
    {next : View k.Elem → Act ρ} {r : ρ}
    (h : ∀ (m' : Memory) (v' : View k.Elem), v'.Good n mine → v'.value m' = v.value m ++ xs →
      (∀ k', k' ≠ k → m' k' = m k') → Safe n mine m' (next v') r) :
    Safe n mine m (append cap k v xs next) r := by
  unfold append
  split
  · next he => exact h m v hv (by simp [List.isEmpty_iff.1 he]) fun _ _ => rfl
  · next he =>
    have hpos : 0 < xs.length := by
      cases xs with
      | nil => exact absurd rfl he
      | cons => simp
    cases v with
    | own l => exact h m _ trivial rfl fun _ _ => rfl
    | shared len =>
      simp only
      split
      · next hl =>
        have hm : mine k := hc len rfl (by have := hv.1; omega)
        exact safe_writeAll hm hv.1 (h _ _ ⟨by have := hv.1; omega, fun _ => hm⟩
          (value_putAll m k len xs) fun k' hk => putAll_other hk _ _ _)
      · exact safe_readAll (good_below hv) (h m _ trivial rfl fun _ _ => rfl)

/-- The statement that a copy is, with this memory. -/
def Copy.stmt (m : Memory) (b : Copy) : SelectStmt :=
  { b.base with
    joins := View.value m (k := .joins) b.joins
    withs := View.value m (k := .withs) b.withs
    orderBy := View.value m (k := .orders) b.orders }

/-- The slices of a copy may be of this goroutine. -/
structure Copy.Good (n : Clause → Nat) (mine : Clause → Prop) (b : Copy) : Prop where
  joins : View.Good n mine (k := .joins) b.joins
  withs : View.Good n mine (k := .withs) b.withs
  orders : View.Good n mine (k := .orders) b.orders

theorem value_congr {m m' : Memory} {k : Clause} (h : m' k = m k) (v : View k.Elem) :
    v.value m' = v.value m := by
  cases v with
  | own l => rfl
  | shared len => simp only [View.value, h]

theorem other_apply {c : SelCall} (hc : ∀ k, ¬ Adds c k) (s : SelectStmt) (js : List Join)
    (ws : List WithQuery) (os : List Order) :
    c.apply { s with joins := js, withs := ws, orderBy := os } =
      (c.apply s).map ({ · with joins := js, withs := ws, orderBy := os }) := by
  cases c with
  | join => exact absurd rfl (hc .joins)
  | «with» => exact absurd rfl (hc .withs)
  | orderBy => exact absurd rfl (hc .orders)
  | _ =>
    simp only [SelCall.apply, SelectStmt.DistinctOn, SelectStmt.Distinct, SelectStmt.Columns,
      SelectStmt.From, SelectStmt.Where, SelectStmt.And, SelectStmt.Or, SelectStmt.GroupBy,
      SelectStmt.Having, SelectStmt.Limit, SelectStmt.Offset, SelectStmt.Suffix, SelectStmt.Prefix,
      SelectStmt.Comment]
    first
      | rfl
      | repeat' (split <;> try rfl)

theorem call_other {cap : Clause → Nat} {c : SelCall} (hc : ∀ k, ¬ Adds c k) (b : Copy)
    (next : Copy → Act (Go α)) : b.call cap next c = b.other c.apply next := by
  cases c with
  | join => exact absurd rfl (hc .joins)
  | «with» => exact absurd rfl (hc .withs)
  | orderBy => exact absurd rfl (hc .orders)
  | _ => rfl

variable [GoRuntime]

theorem safe_render {m : Memory} {b : Copy} (hb : b.Good n mine) (render : W → Go α) :
    Safe n mine m (b.render render) (render (Stmt.select (b.stmt m)).write) :=
  safe_readSlice (k := .joins) hb.joins (safe_readSlice (k := .withs) hb.withs
    (safe_readSlice (k := .orders) hb.orders .done))

theorem safe_goroutine {cap : Clause → Nat} (render : W → Go α) : ∀ (cs : List SelCall) (m : Memory)
    (b : Copy), b.Good n mine →
    (∀ c ∈ cs, ∀ k, Adds c k → n k < cap k → (k = .withs → n k ≠ 0) → mine k) →
    Safe n mine m (goroutine cap render cs b) (Job.alone ⟨cs, render⟩ (b.stmt m))
  | [], m, b, hb, _ => safe_render hb render
  | c :: cs, m, b, hb, hc => by
    have ih := safe_goroutine (cap := cap) render cs
    have hcs : ∀ c ∈ cs, ∀ k, Adds c k → n k < cap k → (k = .withs → n k ≠ 0) → mine k :=
      fun c h => hc c (List.mem_cons_of_mem _ h)
    have alone_ok : ∀ {s s' : SelectStmt}, c.apply s = .ok s' →
        Job.alone ⟨c :: cs, render⟩ s = Job.alone ⟨cs, render⟩ s' := by
      intro s s' h
      simp only [Job.alone, runAll, h]
    have alone_error : ∀ {s : SelectStmt} {p : Panic}, c.apply s = .error p →
        Job.alone ⟨c :: cs, render⟩ s = .error p := by
      intro s p h
      simp only [Job.alone, runAll, h]
    rw [goroutine]
    by_cases ha : ∀ k, ¬ Adds c k
    · rw [call_other ha, Copy.other]
      have hap := other_apply ha b.base (View.value m (k := .joins) b.joins)
        (View.value m (k := .withs) b.withs) (View.value m (k := .orders) b.orders)
      cases hs : c.apply b.base with
      | error p =>
        rw [hs] at hap
        rw [alone_error (s := b.stmt m) hap]
        exact .done
      | ok s =>
        rw [hs] at hap
        rw [alone_ok (s := b.stmt m) hap]
        exact ih m { b with base := s } ⟨hb.joins, hb.withs, hb.orders⟩ hcs
    · cases c with
      | join args =>
        simp only [Copy.call, Copy.Join]
        have hj : SelCall.apply (.join args) (b.stmt m) = _ := SelectStmt.Join_eq (b.stmt m) args
        cases hs : SelectStmt.joinOf args with
        | error p =>
          rw [hs] at hj
          rw [alone_error hj]
          exact .done
        | ok j =>
          rw [hs] at hj
          simp only [SelectStmt.addJoin] at hj
          simp only
          cases he : j.isEmpty with
          | error p =>
            rw [he] at hj
            rw [alone_error hj]
            exact .done
          | ok e =>
            rw [he] at hj
            cases e with
            | true =>
              rw [alone_error hj]
              exact .done
            | false =>
              rw [alone_ok hj]
              refine safe_append (k := .joins) hb.joins (fun _ _ h =>
                hc _ (List.mem_cons_self ..) .joins rfl h (fun e => by cases e)) ?_
              intro m' v' h1 h2 h3
              have := ih m' { b with joins := v' } ⟨h1, hb.withs, hb.orders⟩ hcs
              simp only [Copy.stmt, h2, value_congr (h3 .withs (by decide)) b.withs,
                value_congr (h3 .orders (by decide)) b.orders] at this
              exact this
      | «with» args =>
        simp only [Copy.call, Copy.With]
        have hl := View.value_length m (k := .withs) b.withs
        split
        · next h0 =>
          have he : View.value m (k := .withs) b.withs = [] := List.length_eq_zero_iff.1 (hl.trans h0)
          have hw : SelCall.apply (.with args) (b.stmt m) =
              .ok { b.stmt m with withs := args } := by
            simp only [SelCall.apply, SelectStmt.With, Copy.stmt, he]
            rfl
          rw [alone_ok hw]
          exact ih m { b with withs := .own args } ⟨hb.joins, trivial, hb.orders⟩ hcs
        · next h0 =>
          have he : (View.value m (k := .withs) b.withs).isEmpty = false := by
            cases hv : View.value m (k := .withs) b.withs with
            | nil => rw [hv] at hl; exact absurd hl.symm h0
            | cons => rfl
          have hw : SelCall.apply (.with args) (b.stmt m) =
              .ok { b.stmt m with withs := (b.stmt m).withs ++ args } := by
            simp only [SelCall.apply, SelectStmt.With]
            exact if_neg (by rw [show (b.stmt m).withs.isEmpty = false from he]; decide)
          rw [alone_ok hw]
          have hmine : ∀ len, b.withs = .shared len → n .withs < cap .withs → mine .withs := by
            intro len hv hr
            by_cases hz : n .withs = 0
            · have hg := hb.withs
              rw [hv] at hg h0
              exact hg.2 (by rw [hz]; exact Nat.pos_of_ne_zero h0)
            · exact hc _ (List.mem_cons_self ..) .withs rfl hr fun _ => hz
          refine safe_append (k := .withs) hb.withs hmine ?_
          intro m' v' h1 h2 h3
          have := ih m' { b with withs := v' } ⟨hb.joins, h1, hb.orders⟩ hcs
          simp only [Copy.stmt, h2, value_congr (h3 .joins (by decide)) b.joins,
            value_congr (h3 .orders (by decide)) b.orders] at this
          exact this
      | orderBy os =>
        simp only [Copy.call, Copy.OrderBy]
        have hw : SelCall.apply (.orderBy os) (b.stmt m) =
            .ok { b.stmt m with orderBy := (b.stmt m).orderBy ++ os } := rfl
        rw [alone_ok hw]
        refine safe_append (k := .orders) hb.orders (fun _ _ h =>
          hc _ (List.mem_cons_self ..) .orders rfl h (fun e => by cases e)) ?_
        intro m' v' h1 h2 h3
        have := ih m' { b with orders := v' } ⟨hb.joins, hb.withs, h1⟩ hcs
        simp only [Copy.stmt, h2, value_congr (h3 .joins (by decide)) b.joins,
          value_congr (h3 .withs (by decide)) b.withs] at this
        exact this
      | _ => exact absurd (fun k => by cases k <;> simp [Adds, SelCall.clause]) ha

theorem value_start {m : Memory} {s : SelectStmt} (h : Holds m s) (k : Clause) :
    View.value m (k := k) (.shared (k.of s).length) = k.of s := by
  simp only [View.value]
  apply List.ext_getElem
  · simp
  · intro i h1 h2
    simp only [List.getElem_map, List.getElem_range]
    exact h k i h2

theorem stmt_start {m : Memory} {s : SelectStmt} (h : Holds m s) : (start s).stmt m = s := by
  have h1 : View.value m (k := .joins) (start s).joins = s.joins := value_start h .joins
  have h2 : View.value m (k := .withs) (start s).withs = s.withs := value_start h .withs
  have h3 : View.value m (k := .orders) (start s).orders = s.orderBy := value_start h .orders
  simp only [Copy.stmt, h1, h2, h3]
  cases s
  rfl

/-! ## Two goroutines that append in the same place -/

theorem goroutine_pre {cap : Clause → Nat} {render : W → Go α} {cs : List SelCall} :
    ∀ {pre : List SelCall} {b : Copy} {s1 : SelectStmt}, (∀ c ∈ pre, ∀ k, ¬ Adds c k) →
      runAll SelCall.apply pre b.base = .ok s1 →
      goroutine cap render (pre ++ cs) b = goroutine cap render cs { b with base := s1 }
  | [], b, s1, _, h => by
    cases h
    rfl
  | c :: pre, b, s1, hp, h => by
    rw [List.cons_append, goroutine, call_other (hp c (List.mem_cons_self ..)), Copy.other]
    rw [runAll] at h
    cases hs : c.apply b.base with
    | error p => rw [hs] at h; cases h
    | ok s =>
      rw [hs] at h
      exact goroutine_pre (b := { b with base := s })
        (fun c hc => hp c (List.mem_cons_of_mem _ hc)) h

theorem of_pre : ∀ {pre : List SelCall} {s s1 : SelectStmt}, (∀ c ∈ pre, ∀ k, ¬ Adds c k) →
    runAll SelCall.apply pre s = .ok s1 → ∀ k : Clause, k.of s1 = k.of s
  | [], s, s1, _, h, k => by
    cases h
    rfl
  | c :: pre, s, s1, hp, h, k => by
    rw [runAll] at h
    cases hs : c.apply s with
    | error p => rw [hs] at h; cases h
    | ok s' =>
      rw [hs] at h
      refine (of_pre (fun c hc => hp c (List.mem_cons_of_mem _ hc)) h k).trans ?_
      have ha := hp c (List.mem_cons_self ..) k
      cases k with
      | joins => exact sel_frame hs .joins (Ne.symm ha)
      | withs => exact sel_frame hs .with (Ne.symm ha)
      | orders => exact sel_frame hs .orderBy (Ne.symm ha)

/-- The copy with another slice. -/
def Copy.put (b : Copy) : (k : Clause) → View k.Elem → Copy
  | .joins, v => { b with joins := v }
  | .withs, v => { b with withs := v }
  | .orders, v => { b with orders := v }

theorem append_room {cap : Clause → Nat} {k : Clause} {len : Nat} {x : k.Elem}
    {next : View k.Elem → Act ρ} (h : len < cap k) :
    append cap k (.shared len) [x] next = .write k len x (next (.shared (len + 1))) := by
  unfold append
  rw [if_neg (by simp)]
  exact if_pos h

theorem call_one {cap : Clause → Nat} {k : Clause} {c : SelCall} {x : k.Elem} (hc : AddsOne k c x)
    {s : SelectStmt} (hr : (k.of s).length < cap k) (hw : k = .withs → s.withs ≠ [])
    (s1 : SelectStmt) (next : Copy → Act (Go α)) :
    Copy.call cap { start s with base := s1 } next c =
      .write k (k.of s).length x
        (next (Copy.put { start s with base := s1 } k (.shared ((k.of s).length + 1)))) := by
  cases k with
  | joins =>
    have ha : c.clause = .joins := hc.1
    obtain ⟨args, rfl⟩ : ∃ args, c = .join args := by
      cases c with
      | join args => exact ⟨args, rfl⟩
      | _ => simp [SelCall.clause] at ha
    have h := hc.2 SelectStmt.zero
    simp only [SelCall.apply, SelectStmt.Join_eq] at h
    simp only [Copy.call, Copy.Join]
    cases hj : SelectStmt.joinOf args with
    | error p => rw [hj] at h; cases h
    | ok j =>
      rw [hj] at h
      simp only [SelectStmt.addJoin] at h
      cases he : j.isEmpty with
      | error p => rw [he] at h; cases h
      | ok e =>
        rw [he] at h
        cases e with
        | true => cases h
        | false =>
          have hx : j = x := by
            have h2 := congrArg (fun r : Go SelectStmt => r.map SelectStmt.joins) h
            have h3 : [j] = [x] := Except.ok.inj h2
            exact (List.cons.inj h3).1
          subst hx
          simp only [he]
          exact append_room (k := .joins) (x := j)
            (next := fun v => next { start s with base := s1, joins := v }) hr
  | withs =>
    have ha : c.clause = .with := hc.1
    obtain ⟨args, rfl⟩ : ∃ args, c = .with args := by
      cases c with
      | «with» args => exact ⟨args, rfl⟩
      | _ => simp [SelCall.clause] at ha
    have h : Except.ok _ = _ := hc.2 SelectStmt.zero
    have hx : args = [x] := by
      have h2 := congrArg (fun r : Go SelectStmt => r.map SelectStmt.withs) h
      exact Except.ok.inj h2
    subst hx
    simp only [Copy.call, Copy.With]
    rw [if_neg]
    · exact append_room (k := .withs) (x := x)
        (next := fun v => next { start s with base := s1, withs := v }) hr
    · intro h0
      exact hw rfl (List.length_eq_zero_iff.1 h0)
  | orders =>
    have ha : c.clause = .orderBy := hc.1
    obtain ⟨args, rfl⟩ : ∃ args, c = .orderBy args := by
      cases c with
      | orderBy args => exact ⟨args, rfl⟩
      | _ => simp [SelCall.clause] at ha
    have h : Except.ok _ = _ := hc.2 SelectStmt.zero
    have hx : args = [x] := by
      have h2 := congrArg (fun r : Go SelectStmt => r.map SelectStmt.orderBy) h
      exact Except.ok.inj h2
    subst hx
    exact append_room (k := .orders) (x := x)
      (next := fun v => next { start s with base := s1, orders := v }) hr

/-- After the cell behind its elements has been written, the longer slice has that element. -/
theorem stmt_put {m : Memory} {s s1 : SelectStmt} (hm : Holds m s) (h1 : ∀ k : Clause, k.of s1 = k.of s)
    (k : Clause) (x : k.Elem) :
    Copy.stmt (m.put k (k.of s).length x)
      (Copy.put { start s with base := s1 } k (.shared ((k.of s).length + 1))) =
      k.set s1 (k.of s1 ++ [x]) := by
  have e : ∀ k', View.value (m.put k (k.of s).length x) (k := k') (.shared (k'.of s).length) =
      k'.of s1 := by
    intro k'
    refine Eq.trans ?_ ((value_start hm k').trans (h1 k').symm)
    simp only [View.value]
    refine List.map_congr_left fun i hi => ?_
    by_cases hk : k' = k
    · subst hk
      have := List.mem_range.1 hi
      rw [put_same, if_neg (by omega)]
    · exact put_other _ _ _ _ hk
  have ek : View.value (m.put k (k.of s).length x) (k := k) (.shared ((k.of s).length + 1)) =
      k.of s1 ++ [x] := by
    rw [← e k]
    simp [View.value, List.range_succ, put_same]
  have e1 := e .joins
  have e2 := e .withs
  have e3 := e .orders
  cases s1
  cases k with
  | joins =>
    simp only [Copy.stmt]
    congr 1
  | withs =>
    simp only [Copy.stmt]
    congr 1
  | orders =>
    simp only [Copy.stmt]
    congr 1

end Verif.Derive
