import Verif.Model.Derive
import Verif.Spec.Calls

/-!
# Interleavings of goroutines that derive queries from one builder
-/

namespace Verif.Derive
open Spec

/-- A call. -/
def Copy.call {α : Type} (cap : Clause → Nat) (b : Copy) (next : Copy → Act (Go α)) :
    SelCall → Act (Go α)
  | .join args => b.Join cap args next
  | .with args => b.With cap args next
  | .orderBy os => b.OrderBy cap os next
  | .distinctOn args => b.other (·.DistinctOn args) next
  | .distinct => b.other (·.Distinct) next
  | .columns args => b.other (·.Columns args) next
  | .from args => b.other (·.From args) next
  | .where c => b.other (·.Where c) next
  | .and c => b.other (·.And c) next
  | .or c => b.other (·.Or c) next
  | .groupBy args => b.other (·.GroupBy args) next
  | .having c => b.other (·.Having c) next
  | .limit v => b.other (·.Limit v) next
  | .offset v => b.other (·.Offset v) next
  | .suffix v => b.other (·.Suffix v) next
  | .prefix v => b.other (·.Prefix v) next
  | .comment c => b.other (·.Comment c) next

/-- A goroutine that makes these calls, each on the result of the one before, and renders. -/
def goroutine {α : Type} [GoRuntime] (cap : Clause → Nat) (render : W → Go α) :
    List SelCall → Copy → Act (Go α)
  | [], b => b.render render
  | c :: cs, b => b.call cap (goroutine cap render cs) c

/-- What a goroutine does: its calls and the method that renders. -/
structure Job (α : Type) where
  calls : List SelCall
  render : W → Go α

/-- What the job gives on plain values, without any other goroutine. -/
def Job.alone {α : Type} [GoRuntime] (t : Job α) (s : SelectStmt) : Go α :=
  match runAll SelCall.apply t.calls s with
  | .error p => .error p
  | .ok s' => t.render (Stmt.select s').write

/-- The elements of a clause. -/
def Clause.of (s : SelectStmt) : (k : Clause) → List k.Elem
  | .joins => s.joins
  | .withs => s.withs
  | .orders => s.orderBy

/-- The copy of the shared builder that a goroutine begins with. -/
def start (s : SelectStmt) : Copy :=
  ⟨s, .shared s.joins.length, .shared s.withs.length, .shared s.orderBy.length⟩

/-- The arrays hold the elements of the shared builder. -/
def Holds (m : Memory) (s : SelectStmt) : Prop :=
  ∀ (k : Clause) (i : Nat) (h : i < (k.of s).length), m k i = (k.of s)[i]

/-- Arrays and the goroutines that work on them. -/
structure World (ρ : Type) where
  memory : Memory
  threads : List (Act ρ)

/-- Some goroutine makes its next access. -/
inductive Step {ρ : Type} : World ρ → World ρ → Prop
  | read {w : World ρ} {t : Nat} {k : Clause} {i : Nat} {next : k.Elem → Act ρ} :
      w.threads[t]? = some (.read k i next) →
      Step w ⟨w.memory, w.threads.set t (next (w.memory k i))⟩
  | write {w : World ρ} {t : Nat} {k : Clause} {i : Nat} {x : k.Elem} {next : Act ρ} :
      w.threads[t]? = some (.write k i x next) →
      Step w ⟨w.memory.put k i x, w.threads.set t next⟩

/-- Any number of accesses, in any order of the goroutines. -/
inductive Steps {ρ : Type} : World ρ → World ρ → Prop
  | refl {w : World ρ} : Steps w w
  | tail {u v w : World ρ} : Steps u v → Step v w → Steps u w

/-- The goroutines begin: each has its copy of the shared builder. -/
def begin {α : Type} [GoRuntime] (cap : Clause → Nat) (m : Memory) (s : SelectStmt)
    (jobs : List (Job α)) : World (Go α) :=
  ⟨m, jobs.map fun t => goroutine cap t.render t.calls (start s)⟩

/-- The call adds to this clause. -/
def Adds (c : SelCall) : Clause → Prop
  | .joins => c.clause = .joins
  | .withs => c.clause = .with
  | .orders => c.clause = .orderBy

/-- Of the clauses whose array has room, each is added to by one goroutine at most. (The first common
table expressions do not count, because they are always in an array of their own.) -/
def Separate {α : Type} (cap : Clause → Nat) (s : SelectStmt) (jobs : List (Job α)) : Prop :=
  ∀ (k : Clause), (k.of s).length < cap k → (k = .withs → s.withs ≠ []) → ∀ (t t' : Nat) (x x' : Job α),
    jobs[t]? = some x → jobs[t']? = some x' →
    ∀ c ∈ x.calls, Adds c k → ∀ c' ∈ x'.calls, Adds c' k → t = t'

/-- The statement with other elements in a clause. -/
def Clause.set (s : SelectStmt) : (k : Clause) → List k.Elem → SelectStmt
  | .joins, l => { s with joins := l }
  | .withs, l => { s with withs := l }
  | .orders, l => { s with orderBy := l }

/-- The call adds this element to the clause, and does nothing else. -/
def AddsOne (k : Clause) (c : SelCall) (x : k.Elem) : Prop :=
  Adds c k ∧ ∀ s, c.apply s = .ok (k.set s (k.of s ++ [x]))

end Verif.Derive
