import Verif.Lemmas.DeriveUpdate

/-!
# Lemmas for C79: one goroutine alone
-/

set_option linter.unusedSectionVars false

namespace Verif.DeriveUpdate.One
open Spec hiding World Step Steps
open Derive (View)
open Concurrent (Sorter writeUpdate writeRead)

variable {ρ α : Type}

/-- What a goroutine returns when it runs alone. -/
def finish : Act ρ → Memory → ρ
  | .done r, _ => r
  | .read k i next, m => finish (next (m.cells k i)) m
  | .write k i x next, m => finish next (m.put k i x)
  | .look next, m => finish (next m.map) m
  | .assign c e next, m => finish next (m.assign c e)

theorem step_one {m : Memory} {a : Act ρ} {w : World ρ} (h : Step ⟨m, [a]⟩ w) :
    ∃ m' a', w = ⟨m', [a']⟩ ∧ finish a' m' = finish a m := by
  generalize hv : (⟨m, [a]⟩ : World ρ) = v at h
  cases h with
  | @read t k i next ht =>
    subst hv
    obtain ⟨hl, he⟩ := List.getElem?_eq_some_iff.1 ht
    obtain rfl : t = 0 := by simpa using hl
    obtain rfl : a = _ := he
    exact ⟨_, _, rfl, rfl⟩
  | @write t k i x next ht =>
    subst hv
    obtain ⟨hl, he⟩ := List.getElem?_eq_some_iff.1 ht
    obtain rfl : t = 0 := by simpa using hl
    obtain rfl : a = _ := he
    exact ⟨_, _, rfl, rfl⟩
  | @look t next ht =>
    subst hv
    obtain ⟨hl, he⟩ := List.getElem?_eq_some_iff.1 ht
    obtain rfl : t = 0 := by simpa using hl
    obtain rfl : a = _ := he
    exact ⟨_, _, rfl, rfl⟩
  | @assign t c e next ht =>
    subst hv
    obtain ⟨hl, he⟩ := List.getElem?_eq_some_iff.1 ht
    obtain rfl : t = 0 := by simpa using hl
    obtain rfl : a = _ := he
    exact ⟨_, _, rfl, rfl⟩

theorem steps_one {m : Memory} {a : Act ρ} {w : World ρ} (h : Steps ⟨m, [a]⟩ w) :
    ∃ m' a', w = ⟨m', [a']⟩ ∧ finish a' m' = finish a m := by
  generalize hv : (⟨m, [a]⟩ : World ρ) = v at h
  induction h with
  | refl => exact ⟨m, a, hv.symm, rfl⟩
  | tail _ s ih =>
    obtain ⟨m', a', rfl, h2⟩ := ih
    obtain ⟨m'', a'', h3, h4⟩ := step_one s
    exact ⟨m'', a'', h3, h4.trans h2⟩

theorem steps_finish (a : Act ρ) : ∀ (m : Memory) (ts : List (Act ρ)) (t : Nat), ts[t]? = some a →
    ∃ m', Steps ⟨m, ts⟩ ⟨m', ts.set t (.done (finish a m))⟩ := by
  induction a with
  | done r =>
    intro m ts t ht
    refine ⟨m, ?_⟩
    obtain ⟨h1, h2⟩ := List.getElem?_eq_some_iff.1 ht
    rw [finish, ← h2, List.set_getElem_self]
    exact .refl
  | read k i next ih =>
    intro m ts t ht
    have hl := (List.getElem?_eq_some_iff.1 ht).1
    obtain ⟨m', h⟩ := ih (m.cells k i) m (ts.set t (next (m.cells k i))) t (by simp [hl])
    rw [List.set_set] at h
    exact ⟨m', Steps.trans (.tail .refl (.read ht)) h⟩
  | write k i x next ih =>
    intro m ts t ht
    have hl := (List.getElem?_eq_some_iff.1 ht).1
    obtain ⟨m', h⟩ := ih (m.put k i x) (ts.set t next) t (by simp [hl])
    rw [List.set_set] at h
    exact ⟨m', Steps.trans (.tail .refl (.write ht)) h⟩
  | look next ih =>
    intro m ts t ht
    have hl := (List.getElem?_eq_some_iff.1 ht).1
    obtain ⟨m', h⟩ := ih m.map m (ts.set t (next m.map)) t (by simp [hl])
    rw [List.set_set] at h
    exact ⟨m', Steps.trans (.tail .refl (.look ht)) h⟩
  | assign c e next ih =>
    intro m ts t ht
    have hl := (List.getElem?_eq_some_iff.1 ht).1
    obtain ⟨m', h⟩ := ih (m.assign c e) (ts.set t next) t (by simp [hl])
    rw [List.set_set] at h
    exact ⟨m', Steps.trans (.tail .refl (.assign ht)) h⟩

theorem finish_readAll {m : Memory} {k : Clause} {next : List k.Elem → Act ρ} :
    ∀ {l : List Nat} {acc : List k.Elem},
      finish (readAll k next acc l) m = finish (next (acc ++ l.map (m.cells k))) m
  | [], acc => by simp [readAll]
  | i :: l, acc => by
    rw [readAll, finish, finish_readAll, List.append_assoc]
    rfl

theorem finish_readSlice {m : Memory} {k : Clause} {v : View k.Elem} {next : List k.Elem → Act ρ} :
    finish (readSlice k v next) m = finish (next (value m v)) m := by
  cases v with
  | own l => rfl
  | shared len => exact finish_readAll

theorem finish_writeAll {k : Clause} {next : Act ρ} : ∀ {l : List k.Elem} {m : Memory} {i : Nat},
    finish (writeAll k next i l) m = finish next (putAll m k i l)
  | [], _, _ => rfl
  | _ :: _, _, _ => by rw [writeAll, finish, finish_writeAll, putAll]

theorem finish_append {cap : Clause → Nat} {m : Memory} {k : Clause} {v : View k.Elem}
    {xs : List k.Elem} {next : View k.Elem → Act ρ} {P : ρ → Prop}
    (h : ∀ (m' : Memory) (v' : View k.Elem), value m' v' = value m v ++ xs →
      (∀ k', k' ≠ k → m'.cells k' = m.cells k') → m'.map = m.map → P (finish (next v') m')) :
    P (finish (append cap k v xs next) m) := by
  unfold append
  split
  · next he => exact h m v (by simp [List.isEmpty_iff.1 he]) (fun _ _ => rfl) rfl
  · cases v with
    | own l => exact h m _ rfl (fun _ _ => rfl) rfl
    | shared len =>
      simp only
      split
      · rw [finish_writeAll]
        exact h _ _ (value_putAll m k len xs) (fun k' hk => putAll_other hk _ _ _) (putAll_map _ _ _)
      · rw [finish_readAll]
        exact h m _ rfl (fun _ _ => rfl) rfl

/-- What is asked of the result, unless a call panics. -/
def After (P : UpdateStmt → Go α → Prop) : Go UpdateStmt → Go α → Prop
  | .error p, r => r = .error p
  | .ok s, r => P s r

/-- An operation of a goroutine that runs alone does what a function does on plain values. -/
def Refines (op : Copy → (Copy → Act (Go α)) → Act (Go α)) (f : UpdateStmt → Go UpdateStmt) : Prop :=
  ∀ (P : UpdateStmt → Go α → Prop) (next : Copy → Act (Go α)),
    (∀ m b, P (b.stmt m) (finish (next b) m)) →
    ∀ m b, After P (f (b.stmt m)) (finish (op b next) m)

theorem refines_error {op : Copy → (Copy → Act (Go α)) → Act (Go α)} {f : UpdateStmt → Go UpdateStmt}
    {p : Panic} (ho : ∀ b next, op b next = .done (.error p)) (hf : ∀ s, f s = .error p) :
    Refines op f := by
  intro P next hn m b
  rw [ho, hf]
  rfl

theorem refines_set {cap : Clause → Nat} (c : Column) :
    Refines (α := α) (fun b next => b.set cap c next) (onSet (·.set c)) := by
  intro P next hn m b
  by_cases h : (if b.base.set.mode = .unknown then .array else b.base.set.mode) = PairMode.array
  · have hf : onSet (·.set c) (b.stmt m) = .ok (fill (b.withMode .array).base
        (value m (k := .withs) b.withs) ((b.stmt m).set.columns ++ [c])
        (value m (k := .exprs) b.exprs) m.map) := by
      have := set_ok (p := (b.stmt m).set) (c := c) h
      simp only [onSet, this]
      rfl
    simp only [Copy.set, h, hf, After]
    rw [if_neg (by decide)]
    refine finish_append (k := .columns) ?_
    intro m' v h2 h3 h4
    have := hn m' { b.withMode .array with columns := v }
    simp only [Copy.stmt, h2, value_congr (h3 .withs (by decide)) (b.withMode .array).withs,
      value_congr (h3 .exprs (by decide)) (b.withMode .array).exprs, h4] at this
    exact this
  · have hf : onSet (·.set c) (b.stmt m) = Go.panic
        "loukoum: you can only use pairs in key-value or column-list syntax" := by
      have := set_error (p := (b.stmt m).set) (c := c) h
      simp only [onSet, this]
      rfl
    simp only [Copy.set, hf]
    rw [if_pos h]
    rfl

theorem refines_use {cap : Clause → Nat} (e : Expr) :
    Refines (α := α) (fun b next => b.use cap e next) (onSet (·.use e)) := by
  intro P next hn m b
  by_cases h : b.base.set.mode = .array
  · have hf : onSet (·.use e) (b.stmt m) = .ok (fill b.base
        (value m (k := .withs) b.withs) (value m (k := .columns) b.columns)
        ((b.stmt m).set.expressions ++ [e]) m.map) := by
      have := use_ok (p := (b.stmt m).set) (e := e) h
      simp only [onSet, this]
      rfl
    simp only [Copy.use, h, hf, After]
    rw [if_neg (by decide)]
    refine finish_append (k := .exprs) ?_
    intro m' v h2 h3 h4
    have := hn m' { b with exprs := v }
    simp only [Copy.stmt, h2, value_congr (h3 .withs (by decide)) b.withs,
      value_congr (h3 .columns (by decide)) b.columns, h4] at this
    exact this
  · have hf : onSet (·.use e) (b.stmt m) = Go.panic
        "loukoum: you have to define pairs columns first" := by
      have := use_error (p := (b.stmt m).set) (e := e) h
      simp only [onSet, this]
      rfl
    simp only [Copy.use, hf]
    rw [if_pos h]
    rfl

theorem add_error {p : PairContainer} {c : Column} {e : Expr}
    (h : ¬ (if p.mode = .unknown then .associative else p.mode) = PairMode.associative) :
    p.add c e = Go.panic "loukoum: you can only use pairs in key-value or column-list syntax" := by
  simp only [PairContainer.add]
  rw [if_pos h]

theorem add_ok_old {p : PairContainer} {c : Column} {e : Expr}
    (h : (if p.mode = .unknown then .associative else p.mode) = PairMode.associative)
    (hl : (mapLookup c p.map).isSome = true) :
    p.add c e = .ok { p with mode := .associative, map := mapAssign c e p.map } := by
  simp only [PairContainer.add]
  rw [if_neg (by simp [h])]
  simp only [h, hl, if_true]

theorem add_ok_new {p : PairContainer} {c : Column} {e : Expr}
    (h : (if p.mode = .unknown then .associative else p.mode) = PairMode.associative)
    (hl : (mapLookup c p.map).isSome = false) :
    p.add c e = .ok { p with mode := .associative, map := mapAssign c e p.map,
                             columns := p.columns ++ [c] } := by
  simp only [PairContainer.add]
  rw [if_neg (by simp [h])]
  simp only [h, hl, Bool.false_eq_true, if_false]

theorem refines_add {cap : Clause → Nat} (c : Column) (e : Expr) :
    Refines (α := α) (fun b next => b.add cap c e next) (onSet (·.add c e)) := by
  intro P next hn m b
  by_cases h : (if b.base.set.mode = .unknown then .associative else b.base.set.mode) =
      PairMode.associative
  · cases hl : (mapLookup c m.map).isSome with
    | true =>
      have hf : onSet (·.add c e) (b.stmt m) = .ok ((b.withMode .associative).stmt (m.assign c e)) := by
        have := add_ok_old (p := (b.stmt m).set) (c := c) (e := e) h hl
        simp only [onSet, this]
        rfl
      simp only [Copy.add, h, hf, After]
      rw [if_neg (by decide)]
      simp only [finish, hl, if_true]
      exact hn _ _
    | false =>
      have hf : onSet (·.add c e) (b.stmt m) = .ok (fill (b.withMode .associative).base
          (value m (k := .withs) b.withs) ((b.stmt m).set.columns ++ [c])
          (value m (k := .exprs) b.exprs) (mapAssign c e m.map)) := by
        have := add_ok_new (p := (b.stmt m).set) (c := c) (e := e) h hl
        simp only [onSet, this]
        rfl
      simp only [Copy.add, h, hf, After]
      rw [if_neg (by decide)]
      simp only [finish, hl, Bool.false_eq_true, if_false]
      refine finish_append (k := .columns) ?_
      intro m' v h2 h3 h4
      have := hn (m'.assign c e) { b.withMode .associative with columns := v }
      have e1 : value (m'.assign c e) (k := .columns) v = (b.stmt m).set.columns ++ [c] :=
        (value_congr (m := m') (m' := m'.assign c e) rfl v).trans h2
      have e2 : value (m'.assign c e) (k := .withs) (b.withMode .associative).withs =
          value m (k := .withs) b.withs := value_congr (m := m) (h3 .withs (by decide)) _
      have e3 : value (m'.assign c e) (k := .exprs) (b.withMode .associative).exprs =
          value m (k := .exprs) b.exprs := value_congr (m := m) (h3 .exprs (by decide)) _
      have e4 : (m'.assign c e).map = mapAssign c e m.map := by simp only [Memory.assign, h4]
      have e5 : Copy.stmt (m'.assign c e) { b.withMode .associative with columns := v } =
          fill (b.withMode .associative).base (value m (k := .withs) b.withs)
            ((b.stmt m).set.columns ++ [c]) (value m (k := .exprs) b.exprs) (mapAssign c e m.map) := by
        rw [← e1, ← e2, ← e3, ← e4]
        rfl
      rw [e5] at this
      exact this
  · have hf : onSet (·.add c e) (b.stmt m) = Go.panic
        "loukoum: you can only use pairs in key-value or column-list syntax" := by
      have := add_error (p := (b.stmt m).set) (c := c) (e := e) h
      simp only [onSet, this]
      rfl
    simp only [Copy.add, hf]
    rw [if_pos h]
    rfl

theorem refines_loop {β : Type} {body : Copy → β → (Copy → Act (Go α)) → Act (Go α)}
    {f : PairContainer → β → Go PairContainer}
    (h : ∀ a, Refines (fun b next => body b a next) (onSet (f · a))) : ∀ (l : List β),
    Refines (fun b next => loop body next l b) (onSet (runSet f l))
  | [], P, next, hn, m, b => hn m b
  | a :: l, P, next, hn, m, b => by
    have h1 := refines_loop h l P next hn
    have h2 := h a (fun s => After P (onSet (runSet f l) s)) _ h1 m b
    simp only [onSet, runSet] at h2 ⊢
    cases e : f (b.stmt m).set a with
    | error p => rw [e] at h2; exact h2
    | ok q => rw [e] at h2; exact h2

theorem refines_addPair {cap : Clause → Nat} (kv : Any × Any) :
    Refines (α := α) (fun b next => b.addPair cap kv next) (onSet (fun p => addPair p kv.1 kv.2)) := by
  cases h : toColumn kv.1 with
  | error e =>
    exact refines_error (p := e) (fun b next => by simp only [Copy.addPair, h])
      fun s => by simp only [onSet, addPair, h]
  | ok c =>
    cases h' : newWrapped kv.2 with
    | error e =>
      exact refines_error (p := e) (fun b next => by simp only [Copy.addPair, h, h'])
        fun s => by simp only [onSet, addPair, h, h']
    | ok x =>
      have := refines_add (α := α) (cap := cap) c x
      simp only [Copy.addPair, addPair, h, h']
      exact this

theorem runSet_addPairs : ∀ (l : List (Any × Any)) (p : PairContainer),
    runSet (fun p (kv : Any × Any) => addPair p kv.1 kv.2) l p = addPairs p l
  | [], _ => rfl
  | kv :: l, p => by
    rw [runSet, addPairs]
    cases addPair p kv.1 kv.2 with
    | error e => rfl
    | ok q => exact runSet_addPairs l q

theorem refines_mergeArg {cap : Clause → Nat} (a : Any) :
    Refines (α := α) (fun b next => b.mergeArg cap a next) (onSet (mergeSetArg · a)) := by
  have columns : ∀ (x : Any), (∀ b next, Copy.mergeArg (α := α) cap b a next =
        match toColumns [x] with
        | .error e => .done (.error e)
        | .ok cs => loop (Copy.set cap) next cs b) →
      (∀ q, mergeSetArg q a = match toColumns [x] with
        | .error e => .error e
        | .ok cs => setColumns q cs) →
      Refines (α := α) (fun b next => b.mergeArg cap a next) (onSet (mergeSetArg · a)) := by
    intro x h1 h2
    cases h : toColumns [x] with
    | error e =>
      rw [h] at h1 h2
      exact refines_error h1 (fun s => by simp only [onSet, h2])
    | ok cs =>
      rw [h] at h1 h2
      simp only [h1, h2]
      have := refines_loop (α := α) (body := Copy.set cap) (f := PairContainer.set) refines_set cs
      have e : runSet PairContainer.set cs = (setColumns · cs) := funext (runSet_setColumns cs)
      rwa [e] at this
  have pairs : ∀ l : List (Any × Any), Refines (α := α)
      (fun b next => loop (Copy.addPair cap) next l b) (onSet (addPairs · l)) := by
    intro l
    have := refines_loop (α := α) (body := Copy.addPair cap)
      (f := fun p (kv : Any × Any) => addPair p kv.1 kv.2) refines_addPair l
    have e : runSet (fun p (kv : Any × Any) => addPair p kv.1 kv.2) l = (addPairs · l) :=
      funext (runSet_addPairs l)
    rwa [e] at this
  cases a with
  | strMap n entries => exact pairs (entries.map fun kv => (.val (.str kv.1), kv.2))
  | anyMap entries => exact pairs entries
  | pair k v => exact refines_addPair (k, v)
  | val v =>
    cases v with
    | str x => exact columns _ (fun _ _ => rfl) fun _ => rfl
    | _ => exact refines_error (fun _ _ => rfl) fun _ => rfl
  | selExpr x =>
    cases x with
    | column c => exact columns _ (fun _ _ => rfl) fun _ => rfl
    | _ => exact refines_error (fun _ _ => rfl) fun _ => rfl
  | _ => exact refines_error (fun _ _ => rfl) fun _ => rfl

theorem refines_Set {cap : Clause → Nat} (args : List Any) :
    Refines (α := α) (fun b next => b.Set cap args next) (·.Set args) := by
  by_cases h : args.isEmpty
  · exact refines_error (fun b next => by simp only [Copy.Set]; exact if_pos h)
      fun s => by simp only [UpdateStmt.Set]; exact if_pos h
  · have := refines_loop (α := α) (body := Copy.mergeArg cap) (f := mergeSetArg) refines_mergeArg args
    have e : onSet (runSet mergeSetArg args) = (·.Set args) := by
      funext s
      simp only [onSet, runSet_mergeSet, UpdateStmt.Set]
      exact (if_neg h).symm
    rw [e] at this
    have e' : (fun (b : Copy) (next : Copy → Act (Go α)) => b.Set cap args next) =
        fun b next => loop (Copy.mergeArg cap) next args b := by
      funext b next
      simp only [Copy.Set]
      exact if_neg h
    rwa [e']

theorem refines_Using {cap : Clause → Nat} (args : List Any) :
    Refines (α := α) (fun b next => b.Using cap args next) (·.Using args) := by
  have hu := refines_loop (α := α) (body := Copy.useArg cap) (f := useOne) (fun a => by
      cases h : newExpression a with
      | error e =>
        exact refines_error (p := e) (fun b next => by simp only [Copy.useArg, h])
          fun s => by simp only [onSet, useOne, h]
      | ok x =>
        have := refines_use (α := α) (cap := cap) x
        simp only [Copy.useArg, useOne, h]
        exact this) args
  intro P next hn m b
  by_cases h : b.base.set.mode = .array
  · by_cases h0 : args.isEmpty
    · simp only [Copy.Using, UpdateStmt.Using, Copy.stmt, fill, h, h0]
      exact rfl
    · have h1 := hu P next hn m b
      simp only [onSet, runSet_useAll] at h1
      have h2 : (b.stmt m).set.mode = .array := h
      simp only [Copy.Using, UpdateStmt.Using]
      rw [if_neg (show ¬ b.base.set.mode ≠ .array from fun hne => hne h), if_neg h0,
        if_neg (show ¬ (b.stmt m).set.mode ≠ .array from fun hne => hne h2), if_neg h0]
      exact h1
  · have h2 : (b.stmt m).set.mode ≠ .array := h
    simp only [Copy.Using, UpdateStmt.Using]
    rw [if_pos h, if_pos h2]
    exact rfl

theorem refines_With {cap : Clause → Nat} (args : List WithQuery) :
    Refines (α := α) (fun b next => b.With cap args next) (·.With args) := by
  intro P next hn m b
  have hl := value_length m (k := .withs) b.withs
  simp only [Copy.With]
  split
  · next h0 =>
    have he : (b.stmt m).withs = [] := List.length_eq_zero_iff.1 (hl.trans h0)
    have hw : (b.stmt m).With args = .ok { b.stmt m with withs := args } := by
      simp only [UpdateStmt.With, he]
      rfl
    rw [hw]
    exact hn m { b with withs := .own args }
  · next h0 =>
    have he : (b.stmt m).withs.isEmpty = false := by
      cases hv : (b.stmt m).withs with
      | nil =>
        have : (b.stmt m).withs.length = b.withs.len := hl
        rw [hv] at this
        exact absurd this.symm h0
      | cons => rfl
    have hw : (b.stmt m).With args = .ok { b.stmt m with withs := (b.stmt m).withs ++ args } := by
      simp only [UpdateStmt.With]
      exact if_neg (by rw [he]; decide)
    rw [hw]
    refine finish_append (k := .withs) ?_
    intro m' v' h2 h3 h4
    have := hn m' { b with withs := v' }
    simp only [Copy.stmt, h2, value_congr (h3 .columns (by decide)) b.columns,
      value_congr (h3 .exprs (by decide)) b.exprs, h4] at this
    exact this

theorem refines_other {c : UpdCall} (hc : ∀ k, ¬ Adds c k) :
    Refines (α := α) (fun b next => b.other c.apply next) c.apply := by
  intro P next hn m b
  have hap := other_apply hc b.base (value m (k := .withs) b.withs)
    (value m (k := .columns) b.columns) (value m (k := .exprs) b.exprs) m.map
  have hap' : c.apply (b.stmt m) = _ := hap
  simp only [Copy.other]
  cases hs : c.apply b.base with
  | error p =>
    rw [hs] at hap'
    rw [hap']
    rfl
  | ok s =>
    rw [hs] at hap'
    rw [hap']
    exact hn m { b with base := s }

theorem refines_call {cap : Clause → Nat} (c : UpdCall) :
    Refines (α := α) (fun b next => b.call cap next c) c.apply := by
  cases c with
  | set args => exact refines_Set args
  | «using» args => exact refines_Using args
  | «with» args => exact refines_With args
  | only => exact refines_other (c := .only) fun k => by cases k <;> rintro ⟨_, h⟩ <;> cases h
  | «where» x => exact refines_other (c := .where x) fun k => by cases k <;> rintro ⟨_, h⟩ <;> cases h
  | and x => exact refines_other (c := .and x) fun k => by cases k <;> rintro ⟨_, h⟩ <;> cases h
  | or x => exact refines_other (c := .or x) fun k => by cases k <;> rintro ⟨_, h⟩ <;> cases h
  | «from» x => exact refines_other (c := .from x) fun k => by cases k <;> rintro ⟨_, h⟩ <;> cases h
  | returning x => exact refines_other (c := .returning x) fun k => by cases k <;> rintro ⟨_, h⟩ <;> cases h
  | comment x => exact refines_other (c := .comment x) fun k => by cases k <;> rintro ⟨_, h⟩ <;> cases h

variable [GoRuntime]

theorem run_congr {N : Nat} : ∀ {s : Sorter} {f g : Concurrent.Cells}, s.Within N →
    (∀ i, i < N → f i = g i) → ∀ i, i < N → s.run f i = s.run g i
  | .stop, _, _, _, h => h
  | .less i j next, f, g, hw, h => by
    rw [Sorter.run, Sorter.run, h i hw.1, h j hw.2.1]
    exact run_congr (hw.2.2 _) h
  | .swap i j next, f, g, hw, h => by
    rw [Sorter.run, Sorter.run]
    refine run_congr hw.2.2 ?_
    intro k hk
    simp only [exchange, h i hw.1, h j hw.2.1, h k hk]

theorem finish_sortBy {a : Act ρ} : ∀ {s : Sorter} {m : Memory}, ∃ m' : Memory,
    finish (sortBy s a) m = finish a m' ∧ m'.map = m.map ∧
      m'.cells .columns = s.run (m.cells .columns)
  | .stop, m => ⟨m, rfl, rfl, rfl⟩
  | .less i j next, m => by
    obtain ⟨m', h1, h2, h3⟩ := finish_sortBy (a := a)
      (s := next (columnLess (m.cells .columns i) (m.cells .columns j))) (m := m)
    exact ⟨m', h1, h2, h3⟩
  | .swap i j next, m => by
    obtain ⟨m', h1, h2, h3⟩ := finish_sortBy (a := a) (s := next)
      (m := (m.put .columns i (m.cells .columns j)).put .columns j (m.cells .columns i))
    refine ⟨m', h1, h2, h3.trans ?_⟩
    have e : ((m.put .columns i (m.cells .columns j)).put .columns j (m.cells .columns i)).cells
        .columns = exchange (m.cells .columns) i j := by
      funext k
      rw [put_same, put_same]
      rfl
    exact congrArg next.run e

theorem finish_render (m : Memory) (b : Copy) (sorter : Nat → Sorter) (render : W → Go α)
    (h : (b.stmt m).set.mode = .associative →
      Sorts (sorter (b.stmt m).set.columns.length) (b.stmt m).set.columns) :
    finish (b.render sorter render) m = render (Stmt.update (b.stmt m)).write := by
  refine (finish_readSlice (k := .withs)).trans ((finish_readSlice (k := .exprs)).trans ?_)
  cases hv : b.columns with
  | own cs =>
    have e : b.stmt m = fill b.base (value m (k := .withs) b.withs) cs
        (value m (k := .exprs) b.exprs) m.map := by
      simp only [Copy.stmt, hv]
      rfl
    rw [e]
    rfl
  | shared len =>
    have e : b.stmt m = fill b.base (value m (k := .withs) b.withs)
        (value m (k := .columns) (.shared len)) (value m (k := .exprs) b.exprs) m.map := by
      simp only [Copy.stmt, hv]
      rfl
    simp only
    split
    · next hm =>
      have hl := h hm
      have ec : (b.stmt m).set.columns = value m (k := .columns) (.shared len) := by rw [e]; rfl
      have elen : (b.stmt m).set.columns.length = len := by
        rw [ec]
        exact value_length m (k := .columns) (.shared len)
      rw [elen] at hl
      obtain ⟨hw, hr⟩ := hl
      rw [elen] at hw hr
      obtain ⟨m', h1, h2, h3⟩ := finish_sortBy (s := sorter len) (m := m)
        (a := readAll .columns (fun cs => .look fun mp =>
          let u := fill b.base (value m (k := .withs) b.withs) cs (value m (k := .exprs) b.exprs) mp
          .done (render (writeUpdate u (writeRead u.set cs)))) [] (List.range len))
      rw [h1, finish_readAll]
      have es : (List.range len).map (m'.cells .columns) =
          GoRuntime.sortSlice columnLess (b.stmt m).set.columns := by
        refine Eq.trans ?_ hr
        rw [h3]
        refine List.map_congr_left fun i hi => ?_
        have hi := List.mem_range.1 hi
        refine run_congr hw (fun j hj => ?_) i hi
        have hj' : j < (b.stmt m).set.columns.length := by omega
        rw [Concurrent.arrayOf_lt hj']
        exact kept_at (k := .columns) ec.symm hj hj'
      have ew : (Stmt.update (b.stmt m)).write = writeUpdate (b.stmt m)
          (writeRead (b.stmt m).set (GoRuntime.sortSlice columnLess (b.stmt m).set.columns)) := by
        have hq : Concurrent.keyValues (.update (b.stmt m)) = some (b.stmt m).set := if_pos hm
        rw [Concurrent.write_eq hq]
        rfl
      rw [ew, ← es]
      simp only [finish, List.nil_append, h2]
      rfl
    · rw [finish_readAll, e]
      rfl

theorem finish_goroutine {cap : Clause → Nat} {sorter : Nat → Sorter} (render : W → Go α) :
    ∀ (cs : List UpdCall) (m : Memory) (b : Copy),
    (∀ s', runAll UpdCall.apply cs (b.stmt m) = .ok s' → s'.set.mode = .associative →
      Sorts (sorter s'.set.columns.length) s'.set.columns) →
    finish (goroutine cap sorter render cs b) m = Job.alone ⟨cs, render⟩ (b.stmt m)
  | [], m, b, h => finish_render m b sorter render (h _ rfl)
  | c :: cs, m, b, h => by
    have h1 := refines_call (α := α) (cap := cap) c
      (fun s r => (∀ s', runAll UpdCall.apply cs s = .ok s' → s'.set.mode = .associative →
        Sorts (sorter s'.set.columns.length) s'.set.columns) → r = Job.alone ⟨cs, render⟩ s)
      (goroutine cap sorter render cs) (fun m b hs => finish_goroutine render cs m b hs) m b
    rw [goroutine]
    have e : Job.alone ⟨c :: cs, render⟩ (b.stmt m) =
        follow (Job.alone ⟨cs, render⟩) (c.apply (b.stmt m)) := by
      simp only [Job.alone, runAll]
      cases c.apply (b.stmt m) <;> rfl
    rw [e]
    simp only [runAll] at h
    cases hc : c.apply (b.stmt m) with
    | error p => rw [hc] at h1; exact h1
    | ok s => rw [hc] at h1 h; exact h1 h

theorem finish_act {a : Concurrent.Act ρ} : ∀ {s : Sorter} {m : Concurrent.Cells},
    Concurrent.finish (s.act a) m = Concurrent.finish a (s.run m)
  | .stop, _ => rfl
  | .less i j next, m => finish_act (s := next (columnLess (m i) (m j))) (m := m)
  | .swap i j next, m => finish_act (s := next) (m := exchange m i j)

theorem within_sink {N : Nat} {next : Sorter} (hn : next.Within N) : ∀ i, i < N →
    (Sorter.sink next i).Within N
  | 0, _ => hn
  | j + 1, hi => by
    refine ⟨hi, by omega, ?_⟩
    intro b
    cases b with
    | true => exact ⟨hi, by omega, within_sink hn j (by omega)⟩
    | false => exact hn

theorem within_insertion {N : Nat} : ∀ l : List Nat, (∀ i ∈ l, i < N) →
    (Sorter.insertion l).Within N
  | [], _ => trivial
  | i :: l, h => within_sink (within_insertion l fun j hj => h j (List.mem_cons_of_mem _ hj)) i
      (h i (List.mem_cons_self ..))

/-- A call that adds one element to a clause whose array has room writes one cell. -/
theorem call_one {cap : Clause → Nat} {s : UpdateStmt} {k : Clause} {c : UpdCall} {x : k.Elem}
    (hx : AddsOne s k c x) (hr : (k.of s).length < cap k) (hw : k = .withs → s.withs ≠ []) :
    ∃ b : Copy, (∀ next : Copy → Act (Go α),
      (start s).call cap next c = .write k (k.of s).length x (next b)) ∧
      ∀ m, (∀ (k' : Clause) (i : Nat) (h : i < (k'.of s).length), m.cells k' i = (k'.of s)[i]) →
        m.map = s.set.map → b.stmt m = k.plus s (m.cells k (k.of s).length) := by
  have ap : ∀ (next : View k.Elem → Act (Go α)), append cap k (.shared (k.of s).length) [x] next =
      .write k (k.of s).length x (next (.shared ((k.of s).length + 1))) := by
    intro next
    unfold append
    rw [if_neg (by simp)]
    simp only [List.length_singleton]
    rw [if_pos (by omega)]
    rfl
  have old : ∀ (m : Memory) (hm : ∀ (k' : Clause) (i : Nat) (h : i < (k'.of s).length),
      m.cells k' i = (k'.of s)[i]) (k' : Clause), value m (k := k') (.shared (k'.of s).length) =
      k'.of s := by
    intro m hm k'
    simp only [value]
    apply List.ext_getElem
    · simp
    · intro i h1 h2
      simp only [List.getElem_map, List.getElem_range]
      exact hm k' i h2
  have new : ∀ (m : Memory) (hm : ∀ (k' : Clause) (i : Nat) (h : i < (k'.of s).length),
      m.cells k' i = (k'.of s)[i]), value m (k := k) (.shared ((k.of s).length + 1)) =
      k.of s ++ [m.cells k (k.of s).length] := by
    intro m hm
    refine Eq.trans ?_ (congrArg (· ++ [m.cells k (k.of s).length]) (old m hm k))
    simp only [value, List.range_succ, List.map_append, List.map_singleton]
  cases k with
  | withs =>
    obtain rfl : c = .with [x] := hx
    refine ⟨{ start s with withs := .shared (s.withs.length + 1) }, ?_, ?_⟩
    · intro next
      have h0 : ¬ (start s).withs.len = 0 := by
        show ¬ s.withs.length = 0
        intro h
        exact hw rfl (List.length_eq_zero_iff.1 h)
      simp only [Copy.call, Copy.With]
      rw [if_neg h0]
      exact ap fun v => next { start s with withs := v }
    · intro m hm hmap
      have e1 := new m hm
      have e2 := old m hm .columns
      have e3 := old m hm .exprs
      refine Eq.trans (b := fill s _ _ _ _) rfl ?_
      refine (congrArg (fill s · _ _ _) e1).trans ?_
      refine (congrArg (fill s _ · _ _) e2).trans ?_
      refine (congrArg (fill s _ _ · _) e3).trans ?_
      refine (congrArg (fill s _ _ _ ·) hmap).trans ?_
      rfl
  | columns =>
    obtain ⟨hmode, name, rfl, hc⟩ := hx
    refine ⟨{ (start s).withMode .array with columns := .shared (s.set.columns.length + 1) }, ?_, ?_⟩
    · intro next
      have hmd : (if (start s).base.set.mode = .unknown then .array else (start s).base.set.mode) =
          PairMode.array := by
        show (if s.set.mode = .unknown then .array else s.set.mode) = PairMode.array
        cases h : s.set.mode <;> simp_all
      simp only [Copy.call, Copy.Set, List.isEmpty_cons, Bool.false_eq_true, if_false, loop,
        Copy.mergeArg, hc, Copy.set, hmd]
      rw [if_neg (by decide)]
      exact ap fun v => next { (start s).withMode .array with columns := v }
    · intro m hm hmap
      have e1 := new m hm
      have e2 := old m hm .withs
      have e3 := old m hm .exprs
      refine Eq.trans (b := fill ((start s).withMode .array).base _ _ _ _) rfl ?_
      refine (congrArg (fill _ · _ _ _) e2).trans ?_
      refine (congrArg (fill _ _ · _ _) e1).trans ?_
      refine (congrArg (fill _ _ _ · _) e3).trans ?_
      refine (congrArg (fill _ _ _ _ ·) hmap).trans ?_
      rfl
  | exprs =>
    obtain ⟨hmode, a, rfl, hc⟩ := hx
    refine ⟨{ start s with exprs := .shared (s.set.expressions.length + 1) }, ?_, ?_⟩
    · intro next
      have hmd : (start s).base.set.mode = .array := hmode
      simp only [Copy.call, Copy.Using, hmd, loop, Copy.useArg, hc, Copy.use]
      rw [if_neg (by decide), if_neg (by simp), if_neg (by decide)]
      exact ap fun v => next { start s with exprs := v }
    · intro m hm hmap
      have e1 := new m hm
      have e2 := old m hm .withs
      have e3 := old m hm .columns
      refine Eq.trans (b := fill s _ _ _ _) rfl ?_
      refine (congrArg (fill s · _ _ _) e2).trans ?_
      refine (congrArg (fill s _ · _ _) e3).trans ?_
      refine (congrArg (fill s _ _ · _) e1).trans ?_
      refine (congrArg (fill s _ _ _ ·) hmap).trans ?_
      rfl

theorem apply_one {s : UpdateStmt} {k : Clause} {c : UpdCall} {x : k.Elem}
    (hx : AddsOne s k c x) (hw : k = .withs → s.withs ≠ []) : c.apply s = .ok (k.plus s x) := by
  cases k with
  | withs =>
    obtain rfl : c = .with [x] := hx
    have : s.withs.isEmpty = false := by
      cases h : s.withs with
      | nil => exact absurd h (hw rfl)
      | cons => rfl
    simp only [UpdCall.apply, UpdateStmt.With, this]
    rfl
  | columns =>
    obtain ⟨hmode, name, rfl, hc⟩ := hx
    have hmd : (if s.set.mode = .unknown then .array else s.set.mode) = PairMode.array := by
      cases h : s.set.mode <;> simp_all
    have e : s.set.set x = _ := set_ok (c := x) hmd
    simp only [UpdCall.apply, UpdateStmt.Set, mergeSet, mergeSetArg, hc, setColumns, e]
    rfl
  | exprs =>
    obtain ⟨hmode, a, rfl, hc⟩ := hx
    have e : s.set.use x = _ := use_ok (e := x) hmode
    have hne : ¬ s.set.mode ≠ .array := fun h => h hmode
    simp only [UpdCall.apply, UpdateStmt.Using, UpdateStmt.useAll, hc, e, if_neg hne]
    rfl

end Verif.DeriveUpdate.One
