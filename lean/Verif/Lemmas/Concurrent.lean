import Verif.Spec.Concurrent
import Verif.Lemmas.Pairs

/-!
# Lemmas on interleavings
-/

namespace Verif.Concurrent
open Spec

variable {ρ : Type}

theorem _root_.Verif.Spec.Steps.trans {u v w : World ρ} (h : Steps u v) (h' : Steps v w) : Steps u w := by
  induction h' with
  | refl => exact h
  | tail _ hs ih => exact .tail ih hs

theorem steps_one {u v : World ρ} (h : Step u v) : Steps u v := .tail .refl h

/-! ## Goroutines that only read -/

/-- On this memory the goroutine only reads, and returns this. -/
inductive Quiet (m : Cells) : Act ρ → ρ → Prop
  | done {r : ρ} : Quiet m (.done r) r
  | read {i : Nat} {next : Column → Act ρ} {r : ρ} : Quiet m (next (m i)) r →
      Quiet m (.read i next) r

theorem quiet_steps {m : Cells} {rs : List ρ} {u w : World ρ} (h : Steps u w) (hm : u.cells = m)
    (hu : Each (Quiet m) u.threads rs) : w.cells = m ∧ Each (Quiet m) w.threads rs := by
  have set : ∀ {ts : List (Act ρ)} {rs : List ρ} {t : Nat} {a b : Act ρ}, Each (Quiet m) ts rs →
      ts[t]? = some a → (∀ r, Quiet m a r → Quiet m b r) → Each (Quiet m) (ts.set t b) rs := by
    intro ts rs t a b h
    induction h generalizing t with
    | nil => intro h; simp at h
    | @cons x r l rs hx hl ih =>
      intro ha hb
      cases t with
      | zero =>
        simp at ha
        subst ha
        exact .cons (hb _ hx) hl
      | succ t =>
        simp at ha
        exact .cons hx (ih ha hb)
  induction h with
  | refl => exact ⟨hm, hu⟩
  | tail _ hs ih =>
    obtain ⟨h1, h2⟩ := ih
    cases hs with
    | read ht =>
      refine ⟨h1, set h2 ht ?_⟩
      intro r hr
      cases hr with
      | read h => rw [h1]; exact h
    | @write t i c next ht =>
      exfalso
      have : ∀ {ts : List (Act ρ)} {rs : List ρ} {t : Nat}, Each (Quiet m) ts rs →
          ts[t]? = some (.write i c next) → False := by
        intro ts rs t h
        induction h generalizing t with
        | nil => intro h; simp at h
        | cons hx _ ih =>
          intro ha
          cases t with
          | zero => simp at ha; subst ha; cases hx
          | succ t => simp at ha; exact ih ha
      exact this h2 ht

theorem quiet_sink {m : Cells} {next : Act ρ} {r : ρ} (h : Quiet m next r) :
    ∀ {i : Nat}, (∀ j, i = j + 1 → columnLess (m (j + 1)) (m j) = false) →
      Quiet m (sink next i) r
  | 0, _ => h
  | j + 1, hi => by
    refine .read (.read ?_)
    simp only [hi j rfl]
    exact h

theorem quiet_sort {m : Cells} {next : Act ρ} {r : ρ} (h : Quiet m next r) :
    ∀ {l : List Nat}, (∀ j, j + 1 ∈ l → columnLess (m (j + 1)) (m j) = false) →
      Quiet m (sort next l) r
  | [], _ => h
  | _ :: _, hl =>
    quiet_sink (quiet_sort h fun j hj => hl j (List.mem_cons_of_mem _ hj))
      fun j hj => hl j (hj ▸ List.mem_cons_self)

theorem quiet_readCells {m : Cells} {next : List Column → Act ρ} {r : ρ} :
    ∀ {l : List Nat} {acc : List Column}, Quiet m (next (acc ++ l.map m)) r →
      Quiet m (readCells next acc l) r
  | [], acc, h => by simpa [readCells] using h
  | _ :: _, acc, h => .read (quiet_readCells (by simpa using h))

theorem range_arrayOf (l : List Column) : (List.range l.length).map (arrayOf l) = l := by
  apply List.ext_getElem
  · simp
  · intro i h1 h2
    simp [arrayOf, h2]

/-! ## One goroutine to the end -/

/-- What is in the array after a goroutine has run to the end, and what it returns. -/
def finish : Act ρ → Cells → Cells × ρ
  | .done r, m => (m, r)
  | .read i next, m => finish (next (m i)) m
  | .write i c next, m => finish next (fun j => if j = i then c else m j)

theorem steps_finish : ∀ (a : Act ρ) {m : Cells} {ts : List (Act ρ)} {t : Nat},
    ts[t]? = some a → Steps ⟨m, ts⟩ ⟨(finish a m).1, ts.set t (.done (finish a m).2)⟩
  | .done r, m, ts, t, h => by
    have : ts.set t (.done r) = ts := by
      obtain ⟨h1, h2⟩ := List.getElem?_eq_some_iff.1 h
      rw [← h2, List.set_getElem_self]
    simp only [finish, this]
    exact .refl
  | .read i next, m, ts, t, h => by
    have hl := (List.getElem?_eq_some_iff.1 h).1
    have h1 : Step ⟨m, ts⟩ ⟨m, ts.set t (next (m i))⟩ := .read h
    have h2 := steps_finish (next (m i)) (m := m) (ts := ts.set t (next (m i))) (t := t)
      (by simp [hl])
    rw [List.set_set] at h2
    exact (steps_one h1).trans h2
  | .write i c next, m, ts, t, h => by
    have hl := (List.getElem?_eq_some_iff.1 h).1
    have h1 : Step ⟨m, ts⟩ ⟨fun j => if j = i then c else m j, ts.set t next⟩ := .write h
    have h2 := steps_finish next (m := fun j => if j = i then c else m j) (ts := ts.set t next)
      (t := t) (by simp [hl])
    rw [List.set_set] at h2
    exact (steps_one h1).trans h2

/-- The array after two neighbours have been exchanged. -/
def exchanged (m : Cells) (j : Nat) : Cells :=
  fun i => if i = j then m (j + 1) else if i = j + 1 then m j else m i

theorem finish_swap {next : Act ρ} {j : Nat} {m : Cells} :
    finish (swap (j + 1) j next) m = finish next (exchanged m j) := rfl

theorem finish_sink {P : Cells → Prop} {n : Nat}
    (hP : ∀ m j, j + 1 < n → P m → P (exchanged m j)) (next : Act ρ) :
    ∀ {j : Nat} {m : Cells}, j < n → P m →
      ∃ m', P m' ∧ finish (sink next j) m = finish next m'
  | 0, m, _, h => ⟨m, h, rfl⟩
  | j + 1, m, hj, h => by
    by_cases hc : columnLess (m (j + 1)) (m j) = true
    · obtain ⟨m', h1, h2⟩ := finish_sink hP next (j := j) (m := exchanged m j) (by omega)
        (hP m j hj h)
      refine ⟨m', h1, ?_⟩
      simp only [sink, finish, hc, if_true, finish_swap, h2]
    · refine ⟨m, h, ?_⟩
      simp only [sink, finish, if_neg hc]

theorem finish_sort {P : Cells → Prop} {n : Nat}
    (hP : ∀ m j, j + 1 < n → P m → P (exchanged m j)) (next : Act ρ) :
    ∀ {l : List Nat} {m : Cells}, (∀ j ∈ l, j < n) → P m →
      ∃ m', P m' ∧ finish (sort next l) m = finish next m'
  | [], m, _, h => ⟨m, h, rfl⟩
  | i :: l, m, hl, h => by
    obtain ⟨m1, h1, h2⟩ := finish_sink hP (sort next l) (hl i List.mem_cons_self) h
    obtain ⟨m2, h3, h4⟩ := finish_sort hP next (fun j hj => hl j (List.mem_cons_of_mem _ hj)) h1
    exact ⟨m2, h3, by rw [sort, h2, h4]⟩

theorem finish_readCells {next : List Column → Act ρ} {m : Cells} :
    ∀ {l : List Nat} {acc : List Column},
      finish (readCells next acc l) m = finish (next (acc ++ l.map m)) m
  | [], acc => by simp [readCells]
  | i :: l, acc => by
    rw [readCells, finish, finish_readCells]
    simp

/-! ## A lost column -/

/-- Up to this point the goroutine only reads. -/
inductive Reads (m : Cells) : Act ρ → Act ρ → Prop
  | refl {a : Act ρ} : Reads m a a
  | read {i : Nat} {next : Column → Act ρ} {b : Act ρ} : Reads m (next (m i)) b →
      Reads m (.read i next) b

theorem steps_reads {m : Cells} {a b : Act ρ} (h : Reads m a b) {ts : List (Act ρ)} {t : Nat}
    (ht : ts[t]? = some a) : Steps ⟨m, ts⟩ ⟨m, ts.set t b⟩ := by
  induction h generalizing ts with
  | @refl a =>
    have : ts.set t a = ts := by
      obtain ⟨h1, h2⟩ := List.getElem?_eq_some_iff.1 ht
      rw [← h2, List.set_getElem_self]
    rw [this]
    exact .refl
  | @read i next b h ih =>
    have hl := (List.getElem?_eq_some_iff.1 ht).1
    have h1 : Step ⟨m, ts⟩ ⟨m, ts.set t (next (m i))⟩ := .read ht
    have h2 := ih (ts := ts.set t (next (m i))) (by simp [hl])
    rw [List.set_set] at h2
    exact (steps_one h1).trans h2

/-- The first exchange of a sort. -/
theorem reads_sort {m : Cells} : ∀ {l : List Nat},
    (∃ j, j + 1 ∈ l ∧ columnLess (m (j + 1)) (m j) = true) →
      ∃ j l', j + 1 ∈ l ∧ (∀ x ∈ l', x ∈ l) ∧ columnLess (m (j + 1)) (m j) = true ∧
        ∀ next : Act ρ, Reads m (sort next l) (swap (j + 1) j (sink (sort next l') j))
  | [], h => by obtain ⟨j, h, _⟩ := h; cases h
  | i :: l, h => by
    have rest : (∃ j, j + 1 ∈ l ∧ columnLess (m (j + 1)) (m j) = true) →
        (∀ next : Act ρ, Reads m (sink (sort next l) i) (sort next l)) →
        ∃ j l', j + 1 ∈ i :: l ∧ (∀ x ∈ l', x ∈ i :: l) ∧ columnLess (m (j + 1)) (m j) = true ∧
        ∀ next : Act ρ, Reads m (sort next (i :: l)) (swap (j + 1) j (sink (sort next l') j)) := by
      intro h hr
      obtain ⟨j, l', h1, h2, h3, h4⟩ := reads_sort h
      refine ⟨j, l', List.mem_cons_of_mem _ h1, fun x hx => List.mem_cons_of_mem _ (h2 x hx), h3, ?_⟩
      have : ∀ {a b c : Act ρ}, Reads m a b → Reads m b c → Reads m a c := by
        intro a b c h
        induction h with
        | refl => exact id
        | read _ ih => exact fun h' => .read (ih h')
      exact fun next => this (hr next) (h4 next)
    cases i with
    | zero =>
      refine rest ?_ fun _ => .refl
      obtain ⟨j, h, hj⟩ := h
      refine ⟨j, ?_, hj⟩
      simpa using h
    | succ k =>
      by_cases hk : columnLess (m (k + 1)) (m k) = true
      · refine ⟨k, l, List.mem_cons_self, fun x hx => List.mem_cons_of_mem _ hx, hk, fun next => ?_⟩
        refine .read (.read ?_)
        simp only [hk, if_true]
        exact .refl
      · refine rest ?_ fun next => .read (.read ?_)
        · obtain ⟨j, h, hj⟩ := h
          rcases List.mem_cons.1 h with h | h
          · cases h; exact absurd hj hk
          · exact ⟨j, h, hj⟩
        · simp only [if_neg hk]
          exact .refl

/-- Two goroutines exchange the same neighbours, the second after the first has done half of it. -/
theorem steps_lost {m : Cells} {j : Nat} {next next' : Act ρ} :
    Steps ⟨m, [swap (j + 1) j next, swap (j + 1) j next']⟩
      ⟨fun i => if i = j ∨ i = j + 1 then m j else m i, [next, next']⟩ := by
  have e : (fun i => if i = j ∨ i = j + 1 then m j else m i : Cells) = fun i =>
      if i = j then m j else if i = j then m (j + 1) else if i = j + 1 then m j else
        if i = j + 1 then m j else m i := by
    funext i
    by_cases h1 : i = j
    · simp [h1]
    · by_cases h2 : i = j + 1 <;> simp [h1, h2]
  rw [e]
  have ne : j ≠ j + 1 := by omega
  have s0 : Steps (⟨m, [swap (j + 1) j next, swap (j + 1) j next']⟩ : World ρ) _ := .refl
  have s1 := s0.tail (.read (t := 0) rfl)
  have s2 := s1.tail (.read (t := 0) rfl)
  have s3 := s2.tail (.write (t := 0) rfl)
  have s4 := s3.tail (.read (t := 1) rfl)
  have s5 := s4.tail (.read (t := 1) rfl)
  have s6 := s5.tail (.write (t := 1) rfl)
  have s7 := s6.tail (.write (t := 0) rfl)
  have s8 := s7.tail (.write (t := 1) rfl)
  simpa [ne, ne.symm] using s8

/-- Goroutines that only read can all be run to the end. -/
theorem quiet_end {m : Cells} {rs : List ρ} {ts : List (Act ρ)} (h : Each (Quiet m) ts rs) :
    Steps ⟨m, ts⟩ ⟨m, rs.map .done⟩ := by
  have key : ∀ {ts : List (Act ρ)} {rs : List ρ}, Each (Quiet m) ts rs → ∀ pre : List (Act ρ),
      Steps ⟨m, pre ++ ts⟩ ⟨m, pre ++ rs.map .done⟩ := by
    intro ts rs h
    induction h with
    | nil => exact fun _ => .refl
    | @cons a r l rs ha _ ih =>
      intro pre
      have h1 : Reads m a (.done r) := by
        clear ih
        induction ha with
        | done => exact .refl
        | read _ ih => exact .read ih
      have h2 := steps_reads h1 (ts := pre ++ a :: l) (t := pre.length) (by simp)
      have h3 := ih (pre ++ [.done r])
      simp only [List.set_append_right _ _ (Nat.le_refl _), Nat.sub_self, List.set_cons_zero] at h2
      simp only [List.append_assoc, List.singleton_append] at h3
      exact h2.trans (by simpa using h3)
  exact key h []

/-- A column that has been lost does not come back. -/
theorem finish_lost {c : Column} {n : Nat} {f : List Column → ρ} {l : List Nat} {j : Nat} {m : Cells}
    (hl : ∀ x ∈ l, x < n) (hj : j < n) (hm : ∀ i, i < n → m i ≠ c) :
    ∃ m', (∀ i, i < n → m' i ≠ c) ∧
      finish (sink (sort (readCells (fun cs => .done (f cs)) [] (List.range n)) l) j) m =
        (m', f ((List.range n).map m')) := by
  have hP : ∀ (m : Cells) (j : Nat), j + 1 < n → (∀ i, i < n → m i ≠ c) →
      ∀ i, i < n → exchanged m j i ≠ c := by
    intro m j hj hm i hi
    unfold exchanged
    split
    · exact hm _ hj
    · split
      · exact hm _ (by omega)
      · exact hm _ hi
  obtain ⟨m1, h1, h2⟩ := finish_sink (P := fun m => ∀ i, i < n → m i ≠ c) hP
    (sort (readCells (fun cs => .done (f cs)) [] (List.range n)) l) hj hm
  obtain ⟨m2, h3, h4⟩ := finish_sort (P := fun m => ∀ i, i < n → m i ≠ c) hP
    (readCells (fun cs => .done (f cs)) [] (List.range n)) hl h1
  refine ⟨m2, h3, ?_⟩
  rw [h2, h4, finish_readCells]
  rfl

/-! ## Other ways to sort -/

theorem act_sink (next : Sorter) (a : Act ρ) : ∀ j, (next.sink j).act a = sink (next.act a) j
  | 0 => rfl
  | j + 1 => by
    simp only [Sorter.sink, Sorter.act, sink]
    congr 1
    funext x
    congr 1
    funext y
    cases columnLess x y
    · rfl
    · simp only [if_true, Sorter.act, act_sink next a j]

theorem act_insertion (a : Act ρ) : ∀ l, (Sorter.insertion l).act a = sort a l
  | [] => rfl
  | i :: l => by rw [Sorter.insertion, act_sink, act_insertion a l, sort]

theorem quiet_act {m : Cells} {next : Act ρ} {r : ρ} (h : Quiet m next r) :
    ∀ {s : Sorter}, s.Still m → Quiet m (s.act next) r
  | .stop, _ => h
  | .less _ _ _, hs => .read (.read (quiet_act h hs))
  | .swap _ _ _, hs => hs.elim

theorem exchange_self (m : Cells) (i : Nat) : exchange m i i = m := by
  funext k
  unfold exchange
  split
  · next h => rw [h]
  · rfl

theorem steps_self {m : Cells} {i : Nat} {next : Act ρ} {ts : List (Act ρ)} {t : Nat}
    (h : ts[t]? = some (swap i i next)) : Steps ⟨m, ts⟩ ⟨m, ts.set t next⟩ := by
  have hl := (List.getElem?_eq_some_iff.1 h).1
  have e : ∀ k, (if k = i then m i else if k = i then m i else m k) = m k := by
    intro k
    by_cases hk : k = i <;> simp [hk]
  have s0 : Steps (⟨m, ts⟩ : World ρ) _ := .refl
  have s1 := s0.tail (.read (t := t) h)
  have s2 := s1.tail (.read (t := t) (i := i) (next := fun x => .write i x (.write i (m i) next))
    (by simp [hl]))
  have s3 := s2.tail (.write (t := t) (i := i) (c := m i) (next := .write i (m i) next)
    (by simp [hl]))
  have s4 := s3.tail (.write (t := t) (i := i) (c := m i) (next := next) (by simp [hl]))
  simpa [e] using s4

/-- A way to sort that changes the array comes to a first exchange of two cells. -/
theorem first_exchange {m : Cells} {n : Nat} : ∀ {s : Sorter}, s.Within n → s.run m ≠ m →
    ∃ (i j : Nat) (s' : Sorter), i ≠ j ∧ i < n ∧ j < n ∧ s'.Within n ∧ ∀ (a : Act ρ) (ts : List (Act ρ)) (t : Nat),
      ts[t]? = some (s.act a) → Steps ⟨m, ts⟩ ⟨m, ts.set t (swap i j (s'.act a))⟩
  | .stop, _, h => absurd rfl h
  | .less i j next, hw, h => by
    obtain ⟨i', j', s', h1, h2, h3, h4, h5⟩ :=
      first_exchange (s := next (columnLess (m i) (m j))) (hw.2.2 _) h
    refine ⟨i', j', s', h1, h2, h3, h4, fun a ts t ht => ?_⟩
    have hl := (List.getElem?_eq_some_iff.1 ht).1
    have r : Reads m (Sorter.act (.less i j next) a)
        (Sorter.act (next (columnLess (m i) (m j))) a) := .read (.read .refl)
    have s1 := steps_reads r ht
    have s2 := h5 a (ts.set t (Sorter.act (next (columnLess (m i) (m j))) a)) t (by simp [hl])
    rw [List.set_set] at s2
    exact s1.trans s2
  | .swap i j next, hw, h => by
    by_cases hij : i = j
    · subst hij
      have h' : next.run m ≠ m := by
        intro e
        refine h ?_
        rw [Sorter.run, exchange_self, e]
      obtain ⟨i', j', s', h1, h2, h3, h4, h5⟩ := first_exchange (s := next) hw.2.2 h'
      refine ⟨i', j', s', h1, h2, h3, h4, fun a ts t ht => ?_⟩
      have hl := (List.getElem?_eq_some_iff.1 ht).1
      have s1 := steps_self (m := m) (next := next.act a) ht
      have s2 := h5 a (ts.set t (next.act a)) t (by simp [hl])
      rw [List.set_set] at s2
      exact s1.trans s2
    · refine ⟨i, j, next, hij, hw.1, hw.2.1, hw.2.2, fun a ts t ht => ?_⟩
      have : ts.set t (swap i j (next.act a)) = ts := by
        obtain ⟨h1, h2⟩ := List.getElem?_eq_some_iff.1 ht
        rw [show swap i j (next.act a) = ts[t] from h2.symm, List.set_getElem_self]
      rw [this]
      exact .refl

/-- Two goroutines exchange the same cells, the second after the first has done half of it. -/
theorem steps_lost_any {m : Cells} {i j : Nat} (hij : i ≠ j) {next next' : Act ρ} :
    Steps ⟨m, [swap i j next, swap i j next']⟩
      ⟨fun k => if k = i ∨ k = j then m j else m k, [next, next']⟩ := by
  have e : (fun k => if k = i ∨ k = j then m j else m k : Cells) = fun k =>
      if k = j then m j else if k = j then m i else if k = i then m j else
        if k = i then m j else m k := by
    funext k
    by_cases h1 : k = i
    · subst h1
      simp [hij]
    · by_cases h2 : k = j <;> simp [h1, h2]
  rw [e]
  have s0 : Steps (⟨m, [swap i j next, swap i j next']⟩ : World ρ) _ := .refl
  have s1 := s0.tail (.read (t := 0) rfl)
  have s2 := s1.tail (.read (t := 0) rfl)
  have s3 := s2.tail (.write (t := 0) rfl)
  have s4 := s3.tail (.read (t := 1) rfl)
  have s5 := s4.tail (.read (t := 1) rfl)
  have s6 := s5.tail (.write (t := 1) rfl)
  have s7 := s6.tail (.write (t := 0) rfl)
  have s8 := s7.tail (.write (t := 1) rfl)
  simpa [hij, hij.symm] using s8

/-- A column that has been lost does not come back, however one sorts. -/
theorem finish_lost_any {c : Column} {n : Nat} (a : Act ρ) :
    ∀ {s : Sorter} {m : Cells}, s.Within n → (∀ i, i < n → m i ≠ c) →
      ∃ m', (∀ i, i < n → m' i ≠ c) ∧ finish (s.act a) m = finish a m'
  | .stop, m, _, hm => ⟨m, hm, rfl⟩
  | .less i j next, m, hw, hm => by
    obtain ⟨m', h1, h2⟩ := finish_lost_any a (s := next (columnLess (m i) (m j))) (hw.2.2 _) hm
    exact ⟨m', h1, h2⟩
  | .swap i j next, m, hw, hm => by
    obtain ⟨m', h1, h2⟩ := finish_lost_any a (s := next) (m := exchange m i j) hw.2.2 (by
      intro k hk
      unfold exchange
      split
      · exact hm _ hw.1
      · split
        · exact hm _ hw.2.1
        · exact hm _ hk)
    exact ⟨m', h1, h2⟩

/-! ## A goroutine alone sorts the array -/

set_option linter.unusedSectionVars false

section
variable [GoRuntime]

theorem exchanged_perm (m : Cells) {n j : Nat} (hj : j + 1 < n) :
    ((List.range n).map (exchanged m j)).Perm ((List.range n).map m) := by
  have e : List.range n = List.range j ++ (j :: (j + 1) :: List.range' (j + 2) (n - j - 2)) := by
    rw [List.range_eq_range', List.range_eq_range']
    have : n = j + (n - j - 2 + 1 + 1) := by omega
    conv => lhs; rw [this]
    rw [← List.range'_append_1, List.range'_succ, List.range'_succ]
    simp
  rw [e]
  simp only [List.map_append, List.map_cons]
  have h1 : (List.range j).map (exchanged m j) = (List.range j).map m := by
    apply List.map_congr_left
    intro i hi
    rw [List.mem_range] at hi
    unfold exchanged
    rw [if_neg (by omega), if_neg (by omega)]
  have h2 : (List.range' (j + 2) (n - j - 2)).map (exchanged m j) =
      (List.range' (j + 2) (n - j - 2)).map m := by
    apply List.map_congr_left
    intro i hi
    rw [List.mem_range'_1] at hi
    unfold exchanged
    rw [if_neg (by omega), if_neg (by omega)]
  rw [h1, h2]
  refine List.Perm.append_left _ ?_
  have e1 : exchanged m j j = m (j + 1) := by simp [exchanged]
  have e2 : exchanged m j (j + 1) = m j := by simp [exchanged]
  rw [e1, e2]
  exact .swap _ _ _

/-- The cells below `n` are these columns in some order. -/
def Holds (n : Nat) (cols : List Column) (m : Cells) : Prop := ((List.range n).map m).Perm cols

theorem holds_exchanged {n : Nat} {cols : List Column} {m : Cells} {j : Nat} (hj : j + 1 < n)
    (h : Holds n cols m) : Holds n cols (exchanged m j) := (exchanged_perm m hj).trans h

theorem holds_mem {n : Nat} {cols : List Column} {m : Cells} (h : Holds n cols m) {i : Nat}
    (hi : i < n) : m i ∈ cols := h.mem_iff.1 (List.mem_map.2 ⟨i, List.mem_range.2 hi, rfl⟩)

theorem columnLess_iff {a b : Column} (ha : a.alias = []) (hb : b.alias = []) :
    columnLess a b = true ↔ a.name < b.name := by
  unfold columnLess
  rw [ha, hb]
  simp [strLt_iff]

/-- The first `i` cells go up. -/
def GoesUp (m : Cells) (i : Nat) : Prop := ∀ p q, p < q → q < i → ¬ (m q).name < (m p).name

theorem sink_sorted {n : Nat} {cols : List Column} (ha : ∀ c ∈ cols, c.alias = [])
    (next : Act ρ) {i : Nat} (hi : i < n) : ∀ {j : Nat} {m : Cells}, j ≤ i → Holds n cols m →
      (∀ p q, p < q → q ≤ i → q ≠ j → ¬ (m q).name < (m p).name) →
      ∃ m', Holds n cols m' ∧ GoesUp m' (i + 1) ∧ finish (sink next j) m = finish next m'
  | 0, m, _, h, hJ => ⟨m, h, fun p q hpq hq => hJ p q hpq (by omega) (by omega), rfl⟩
  | j + 1, m, hj, h, hJ => by
    have hl := columnLess_iff (ha _ (holds_mem h (i := j + 1) (by omega)))
      (ha _ (holds_mem h (i := j) (by omega)))
    by_cases hc : columnLess (m (j + 1)) (m j) = true
    · have hlt := hl.1 hc
      obtain ⟨m', h1, h2, h3⟩ := sink_sorted ha next hi (j := j) (m := exchanged m j) (by omega)
        (holds_exchanged (by omega) h) (by
          intro p q hpq hq hne
          simp only [exchanged]
          by_cases hq1 : q = j + 1
          · subst hq1
            rw [if_neg (by omega), if_pos rfl]
            by_cases hp : p = j
            · subst hp
              rw [if_pos rfl]
              exact fun h => str_lt_irrefl _ (str_lt_trans hlt h)
            · rw [if_neg hp, if_neg (by omega)]
              exact hJ p j (by omega) (by omega) (by omega)
          · rw [if_neg hne, if_neg hq1]
            by_cases hp : p = j
            · subst hp
              rw [if_pos rfl]
              exact hJ (p + 1) q (by omega) hq hq1
            · rw [if_neg hp]
              by_cases hp1 : p = j + 1
              · subst hp1
                rw [if_pos rfl]
                exact hJ j q (by omega) hq hq1
              · rw [if_neg hp1]
                exact hJ p q hpq hq hq1)
      refine ⟨m', h1, h2, ?_⟩
      simp only [sink, finish, hc, if_true, finish_swap, h3]
    · refine ⟨m, h, ?_, by simp only [sink, finish, if_neg hc]⟩
      intro p q hpq hq
      by_cases hq1 : q = j + 1
      · subst hq1
        have hn : ¬ (m (j + 1)).name < (m j).name := fun h => hc (hl.2 h)
        by_cases hp : p = j
        · subst hp; exact hn
        · have h1 := hJ p j (by omega) (by omega) (by omega)
          intro hlt
          rcases str_trichotomy (m p).name (m j).name with h2 | h2 | h2
          · exact hn (str_lt_trans hlt h2)
          · rw [h2] at hlt; exact hn hlt
          · exact h1 h2
      · exact hJ p q hpq (by omega) hq1

theorem sort_sorted {n : Nat} {cols : List Column} (ha : ∀ c ∈ cols, c.alias = [])
    (next : Act ρ) : ∀ {k i : Nat} {m : Cells}, i + k ≤ n → Holds n cols m → GoesUp m i →
      ∃ m', Holds n cols m' ∧ GoesUp m' (i + k) ∧
        finish (sort next (List.range' i k)) m = finish next m'
  | 0, i, m, _, h, hs => ⟨m, h, hs, rfl⟩
  | k + 1, i, m, hk, h, hs => by
    obtain ⟨m1, h1, h2, h3⟩ := sink_sorted ha (sort next (List.range' (i + 1) k)) (n := n)
      (i := i) (by omega) (j := i) (Nat.le_refl _) h
      (fun p q hpq hq hne => hs p q hpq (by omega))
    obtain ⟨m2, h4, h5, h6⟩ := sort_sorted ha next (k := k) (i := i + 1) (by omega) h1 h2
    refine ⟨m2, h4, ?_, ?_⟩
    · have : i + (k + 1) = i + 1 + k := by omega
      rw [this]; exact h5
    · rw [List.range'_succ, sort, h3, h6]

theorem values_alone {cols : List Column} (hn : cols.Nodup) (ha : ∀ c ∈ cols, c.alias = [])
    (next : List Column → Act ρ) :
    ∃ m', (List.range cols.length).map m' = GoRuntime.sortSlice columnLess cols ∧
      finish (values cols.length next) (arrayOf cols) =
        finish (next (GoRuntime.sortSlice columnLess cols)) m' := by
  have h0 : Holds cols.length cols (arrayOf cols) := by
    unfold Holds
    rw [range_arrayOf]
  have key : ∃ m', Holds cols.length cols m' ∧ GoesUp m' cols.length ∧
      finish (values cols.length next) (arrayOf cols) =
        finish (readCells next [] (List.range cols.length)) m' := by
    unfold values
    generalize hN : cols.length = n at *
    cases n with
    | zero => exact ⟨_, h0, fun p q _ hq => by omega, rfl⟩
    | succ n =>
      obtain ⟨m', h1, h2, h3⟩ := sort_sorted ha (readCells next [] (List.range (n + 1)))
        (k := n) (i := 1) (n := n + 1) (by omega) h0 (fun p q _ hq => by omega)
      refine ⟨m', h1, ?_, h3⟩
      rw [Nat.add_comm]; exact h2
  obtain ⟨m', h1, h2, h3⟩ := key
  have e : (List.range cols.length).map m' = GoRuntime.sortSlice columnLess cols := by
    have hs : ((List.range cols.length).map m').Pairwise fun a b => ¬ b.name < a.name := by
      rw [List.pairwise_map]
      refine List.Pairwise.imp_of_mem ?_ List.pairwise_lt_range
      intro p q _ hq hpq
      exact h2 p q hpq (List.mem_range.1 hq)
    have hs' : (GoRuntime.sortSlice columnLess cols).Pairwise fun a b => ¬ b.name < a.name :=
      (sort_columns hn ha).imp fun h h' => str_lt_irrefl _ (str_lt_trans h h')
    refine List.Perm.eq_of_pairwise ?_ hs hs' (h1.trans (GoRuntime.sortSlice_perm _ _).symm)
    intro a b hma hmb hab hba
    have ma := h1.mem_iff.1 hma
    have mb := (GoRuntime.sortSlice_perm columnLess cols).mem_iff.1 hmb
    have e1 := ha a ma
    have e2 := ha b mb
    have e3 : a.name = b.name := by
      rcases str_trichotomy a.name b.name with h | h | h
      · exact absurd h hba
      · exact h
      · exact absurd h hab
    cases a; cases b; simp_all
  refine ⟨m', e, ?_⟩
  rw [h3, finish_readCells, e]
  rfl

end

/-! ## The statement from its columns -/

section
variable [GoRuntime]

theorem seq_skip (a : W) : W.seq a W.skip = a := by
  funext σ C s
  simp only [W.seq, W.skip]
  cases a σ C s <;> rfl

theorem set_eq {p : PairContainer} (hm : p.mode = .associative) :
    p.write = writeRead p (GoRuntime.sortSlice columnLess p.columns) := by
  unfold PairContainer.write writeRead
  simp only [hm, PairContainer.writeAssociative, PairContainer.values, ne_eq, not_true, if_false,
    if_true, reduceCtorEq, seq_skip]
  congr 2
  split
  · rfl
  · generalize lookupAll p.map _ = r
    cases r with
    | error e => rfl
    | ok l => simp only [zip_fst_snd]

theorem write_eq {q : Stmt} {p : PairContainer} (h : keyValues q = some p) :
    q.write = writeWithColumns q p (GoRuntime.sortSlice columnLess p.columns) := by
  cases q with
  | select s => cases h
  | delete d => cases h
  | update u =>
    simp only [keyValues] at h
    split at h
    · next hm =>
      cases h
      simp only [writeWithColumns, ← set_eq hm]
      rfl
    · cases h
  | insert i =>
    simp only [keyValues] at h
    split at h
    · next p' ha =>
      split at h
      · next hm =>
        cases h
        simp only [writeWithColumns, ← set_eq hm]
        simp only [Stmt.write, InsertStmt.write, writeInsert, ha, writeOnConflict,
          ConflictAction.write]
        generalize (ConflictAction.update p).isEmpty = b
        cases b <;> rfl
      · cases h
    · cases h

theorem ascending_nodup {l : List Column} (h : Ascending l) : l.Nodup := by
  refine List.Pairwise.imp ?_ h.2
  rintro a b h' rfl
  exact str_lt_irrefl _ h'

theorem ascending_sorted {l : List Column} (h : Ascending l) :
    GoRuntime.sortSlice columnLess l = l := by
  refine List.Perm.eq_of_pairwise ?_ (sort_columns (ascending_nodup h) h.1) h.2
    (GoRuntime.sortSlice_perm _ _)
  intro a b _ _ h3 h4
  exact absurd (str_lt_trans h3 h4) (str_lt_irrefl _)

theorem arrayOf_lt {l : List Column} {i : Nat} (h : i < l.length) : arrayOf l i = l[i] := by
  simp [arrayOf, h]

end

end Verif.Concurrent
