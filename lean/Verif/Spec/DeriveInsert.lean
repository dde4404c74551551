import Verif.Model.DeriveInsert
import Verif.Spec.Calls
import Verif.Spec.Concurrent

/-!
# Interleavings of goroutines that derive queries from one INSERT builder
-/

namespace Verif.DeriveInsert
open Spec
open Derive (View)
open Concurrent (Act Sorter Cells)

/-- A call. -/
def Copy.call {α : Type} [GoRuntime] (cap : Nat) (b : Copy) (next : Copy → Act (Go α)) :
    InsCall → Act (Go α)
  | .onConflict args => b.OnConflict cap args next
  | .into a => b.other (·.Into a) next
  | .columns args => b.other (·.Columns args) next
  | .values args => b.other (·.Values args) next
  | .set args => b.other (·.Set args) next
  | .returning args => b.other (·.Returning args) next
  | .comment c => b.other (·.Comment c) next

/-- A goroutine that makes these calls, each on the result of the one before, and renders. -/
def goroutine {α : Type} [GoRuntime] (cap : Nat) (sorter : Nat → Sorter) (render : W → Go α) :
    List InsCall → Copy → Act (Go α)
  | [], b => b.render sorter render
  | c :: cs, b => b.call cap (goroutine cap sorter render cs) c

/-- What a goroutine does: its calls and the method that renders. -/
structure Job (α : Type) where
  calls : List InsCall
  render : W → Go α

/-- What the job gives on plain values, without any other goroutine. -/
def Job.alone {α : Type} [GoRuntime] (t : Job α) (s : InsertStmt) : Go α :=
  match runAll InsCall.apply t.calls s with
  | .error p => .error p
  | .ok s' => t.render (Stmt.insert s').write

/-- The copy of the shared builder that a goroutine begins with. If the builder has an action, nothing
is appended to its target, and its columns are just there. -/
def start (s : InsertStmt) : Copy :=
  if s.action.isEmpty then ⟨s, .shared s.target.length, false⟩ else ⟨s, .own s.target, true⟩

/-- The columns in the array that goroutines can write to. -/
def columnsOf (s : InsertStmt) : List Column :=
  if s.action.isEmpty then s.target
  else
    match s.action with
    | .update p => p.columns
    | _ => []

/-- The array holds the columns of the shared builder. -/
def Holds (m : Cells) (s : InsertStmt) : Prop :=
  ∀ (i : Nat) (h : i < (columnsOf s).length), m i = (columnsOf s)[i]

/-- The goroutines begin: each has its copy of the shared builder. -/
def begin {α : Type} [GoRuntime] (cap : Nat) (sorter : Nat → Sorter) (m : Cells) (s : InsertStmt)
    (jobs : List (Job α)) : World (Go α) :=
  ⟨m, jobs.map fun t => goroutine cap sorter t.render t.calls (start s)⟩

/-- If the builder has no action, and the array of its target has room, one goroutine at most calls
`OnConflict`. -/
def Separate {α : Type} (cap : Nat) (s : InsertStmt) (jobs : List (Job α)) : Prop :=
  s.action.isEmpty = true → s.target.length < cap →
    ∀ (t t' : Nat) (x x' : Job α) (args args' : List Any), jobs[t]? = some x → jobs[t']? = some x' →
    .onConflict args ∈ x.calls → .onConflict args' ∈ x'.calls → t = t'

/-- The pairs of DO UPDATE are in order, and sorting them swaps nothing. -/
def InOrder (sorter : Nat → Sorter) (s : InsertStmt) : Prop :=
  ∀ p, s.action = .update p → p.isEmpty = false → p.mode = .associative → Ascending p.columns ∧
    (sorter p.columns.length).Within p.columns.length ∧
    (sorter p.columns.length).Still (arrayOf p.columns)

end Verif.DeriveInsert
