import Verif.Model.DeriveUpdate
import Verif.Spec.Calls
import Verif.Spec.Concurrent

/-!
# Interleavings of goroutines that derive queries from one UPDATE builder
-/

namespace Verif.DeriveUpdate
open Spec
open Derive (View)
open Concurrent (Sorter)

/-- A call. -/
def Copy.call {α : Type} (cap : Clause → Nat) (b : Copy) (next : Copy → Act (Go α)) :
    UpdCall → Act (Go α)
  | .set args => b.Set cap args next
  | .using args => b.Using cap args next
  | .with args => b.With cap args next
  | .only => b.other (·.Only) next
  | .where c => b.other (·.Where c) next
  | .and c => b.other (·.And c) next
  | .or c => b.other (·.Or c) next
  | .from a => b.other (·.From a) next
  | .returning args => b.other (·.Returning args) next
  | .comment c => b.other (·.Comment c) next

/-- A goroutine that makes these calls, each on the result of the one before, and renders. -/
def goroutine {α : Type} [GoRuntime] (cap : Clause → Nat) (sorter : Nat → Sorter)
    (render : W → Go α) : List UpdCall → Copy → Act (Go α)
  | [], b => b.render sorter render
  | c :: cs, b => b.call cap (goroutine cap sorter render cs) c

/-- What a goroutine does: its calls and the method that renders. -/
structure Job (α : Type) where
  calls : List UpdCall
  render : W → Go α

/-- What the job gives on plain values, without any other goroutine. -/
def Job.alone {α : Type} [GoRuntime] (t : Job α) (s : UpdateStmt) : Go α :=
  match runAll UpdCall.apply t.calls s with
  | .error p => .error p
  | .ok s' => t.render (Stmt.update s').write

/-- The elements of a clause. -/
def Clause.of (s : UpdateStmt) : (k : Clause) → List k.Elem
  | .withs => s.withs
  | .columns => s.set.columns
  | .exprs => s.set.expressions

/-- The copy of the shared builder that a goroutine begins with. -/
def start (s : UpdateStmt) : Copy :=
  ⟨s, .shared s.withs.length, .shared s.set.columns.length, .shared s.set.expressions.length⟩

/-- The memory holds the elements of the shared builder. -/
def Holds (m : Memory) (s : UpdateStmt) : Prop :=
  m.map = s.set.map ∧ ∀ (k : Clause) (i : Nat) (h : i < (k.of s).length), m.cells k i = (k.of s)[i]

/-- The memory and the goroutines that work on it. -/
structure World (ρ : Type) where
  memory : Memory
  threads : List (Act ρ)

/-- Some goroutine makes its next access. -/
inductive Step {ρ : Type} : World ρ → World ρ → Prop
  | read {w : World ρ} {t : Nat} {k : Clause} {i : Nat} {next : k.Elem → Act ρ} :
      w.threads[t]? = some (.read k i next) →
      Step w ⟨w.memory, w.threads.set t (next (w.memory.cells k i))⟩
  | write {w : World ρ} {t : Nat} {k : Clause} {i : Nat} {x : k.Elem} {next : Act ρ} :
      w.threads[t]? = some (.write k i x next) →
      Step w ⟨w.memory.put k i x, w.threads.set t next⟩
  | look {w : World ρ} {t : Nat} {next : List (Column × Expr) → Act ρ} :
      w.threads[t]? = some (.look next) →
      Step w ⟨w.memory, w.threads.set t (next w.memory.map)⟩
  | assign {w : World ρ} {t : Nat} {c : Column} {e : Expr} {next : Act ρ} :
      w.threads[t]? = some (.assign c e next) →
      Step w ⟨w.memory.assign c e, w.threads.set t next⟩

/-- Any number of accesses, in any order of the goroutines. -/
inductive Steps {ρ : Type} : World ρ → World ρ → Prop
  | refl {w : World ρ} : Steps w w
  | tail {u v w : World ρ} : Steps u v → Step v w → Steps u w

/-- The goroutines begin: each has its copy of the shared builder. -/
def begin {α : Type} [GoRuntime] (cap : Clause → Nat) (sorter : Nat → Sorter) (m : Memory)
    (s : UpdateStmt) (jobs : List (Job α)) : World (Go α) :=
  ⟨m, jobs.map fun t => goroutine cap sorter t.render t.calls (start s)⟩

/-- The call adds to this clause. -/
def Adds (c : UpdCall) : Clause → Prop
  | .withs => ∃ args, c = .with args
  | .columns => ∃ args, c = .set args
  | .exprs => ∃ args, c = .using args

/-- Of the clauses whose array has room, each is added to by one goroutine at most. (The first common
table expressions do not count, because they are always in an array of their own.) -/
def Separate {α : Type} (cap : Clause → Nat) (s : UpdateStmt) (jobs : List (Job α)) : Prop :=
  ∀ (k : Clause), (k.of s).length < cap k → (k = .withs → s.withs ≠ []) →
    ∀ (t t' : Nat) (x x' : Job α), jobs[t]? = some x → jobs[t']? = some x' →
    ∀ c ∈ x.calls, Adds c k → ∀ c' ∈ x'.calls, Adds c' k → t = t'

/-- The argument is a pair, or a map of pairs. -/
def IsPair : Any → Prop
  | .strMap _ _ | .anyMap _ | .pair _ _ => True
  | _ => False

/-- No call of these gives pairs to SET. -/
def NoPairs (cs : List UpdCall) : Prop :=
  ∀ args, UpdCall.set args ∈ cs → ∀ a ∈ args, ¬ IsPair a

/-- Columns in the key-value syntax are in order, and sorting them swaps nothing. -/
def InOrder (sorter : Nat → Sorter) (s : UpdateStmt) : Prop :=
  s.set.mode = .associative → Ascending s.set.columns ∧
    (sorter s.set.columns.length).Within s.set.columns.length ∧
    (sorter s.set.columns.length).Still (arrayOf s.set.columns)

/-- On this statement, the call adds one element to the clause. -/
def AddsOne (s : UpdateStmt) : (k : Clause) → UpdCall → k.Elem → Prop
  | .withs, c, x => c = .with [x]
  | .columns, c, x => s.set.mode ≠ .associative ∧
      ∃ name, c = .set [.val (.str name)] ∧ toColumns [.val (.str name)] = .ok [x]
  | .exprs, c, x => s.set.mode = .array ∧ ∃ a, c = .using [a] ∧ newExpression a = .ok x

/-- The statement with one element more in the clause. -/
def Clause.plus (s : UpdateStmt) : (k : Clause) → k.Elem → UpdateStmt
  | .withs, (x : WithQuery) => { s with withs := s.withs ++ [x] }
  | .columns, (x : Column) =>
    { s with set := { s.set with mode := .array, columns := s.set.columns ++ [x] } }
  | .exprs, (x : Expr) => { s with set := { s.set with expressions := s.set.expressions ++ [x] } }

/-- Run alone on these columns, it stays within them and leaves them as `sort.Slice` does. -/
def Sorts [GoRuntime] (sorter : Sorter) (cols : List Column) : Prop :=
  sorter.Within cols.length ∧
    (List.range cols.length).map (sorter.run (arrayOf cols)) = GoRuntime.sortSlice columnLess cols

end Verif.DeriveUpdate
