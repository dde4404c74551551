import Verif.Model.Heap

/-!
# Goroutines that derive queries from one SELECT builder

A builder in a variable of a package, from which each request derives its own query: the methods have
value receivers, so every goroutine works on its own copy of the struct, but the slices `Joins`,
`With.Queries` and `OrderBy.Orders` of all copies are in the same arrays. Here the accesses to these
arrays are made one by one, so that those of several goroutines can be interleaved.

Simplifications: reading or writing one cell is one step, and accesses are sequentially consistent
(real executions with a data race may do worse). An array that a goroutine has made itself is not
represented, because no other goroutine has it; its slice is just the list of its elements. So it is
with the slice of the arguments of a call (a caller that passes one slice of its own as `slice...` in
several goroutines is not represented). Each goroutine makes its calls one on the result of the other (what forks within one goroutine do is in
`Model/Heap.lean`).
-/

namespace Verif.Derive

/-- The slices that methods of SELECT append to (builder/select.go:126, :138, :200). -/
inductive Clause where
  | joins | withs | orders
deriving DecidableEq

/-- Their elements (stmt/select.go:15-31). -/
def Clause.Elem : Clause → Type
  | .joins => Join
  | .withs => WithQuery
  | .orders => Order

/-- The cells of the arrays of the builder that is shared. -/
abbrev Memory := (k : Clause) → Nat → k.Elem

/-- An assignment to a cell. -/
def Memory.put (m : Memory) (k : Clause) (i : Nat) (x : k.Elem) : Memory := fun k' j =>
  if h : k' = k then (if j = i then h ▸ x else m k' j) else m k' j

/-- What a goroutine still has to do to the arrays, and what it returns in the end. -/
inductive Act (ρ : Type) where
  | done (r : ρ)
  | read (k : Clause) (i : Nat) (next : k.Elem → Act ρ)
  | write (k : Clause) (i : Nat) (x : k.Elem) (next : Act ρ)

/-- A slice: the first cells of the array of the shared builder, or of an array that the goroutine has
made itself. -/
inductive View (α : Type) where
  | shared (len : Nat)
  | own (l : List α)

/-- The length of a slice. -/
def View.len {α : Type} : View α → Nat
  | .shared n => n
  | .own l => l.length

/-- A copy of the builder (builder/select.go:11-13). The lists of `base` for the three slices are not
used. -/
structure Copy where
  base : SelectStmt
  joins : View Join
  withs : View WithQuery
  orders : View Order

/-- The cells are read one after the other. -/
def readAll {ρ : Type} (k : Clause) (next : List k.Elem → Act ρ) (acc : List k.Elem) :
    List Nat → Act ρ
  | [] => next acc
  | i :: l => .read k i fun x => readAll k next (acc ++ [x]) l

/-- Cells are written one after the other, from a position on. -/
def writeAll {ρ : Type} (k : Clause) (next : Act ρ) : Nat → List k.Elem → Act ρ
  | _, [] => next
  | i, x :: l => .write k i x (writeAll k next (i + 1) l)

/-- The elements of a slice are read. -/
def readSlice {ρ : Type} (k : Clause) (v : View k.Elem) (next : List k.Elem → Act ρ) : Act ρ :=
  match v with
  | .shared n => readAll k next [] (List.range n)
  | .own l => next l

/-- Go `append(s, xs...)`, as `Store.append` in `Model/Heap.lean`: in place if the capacity `cap` of the
shared array is sufficient, otherwise the elements are copied to a new array. -/
def append {ρ : Type} (cap : Clause → Nat) (k : Clause) (v : View k.Elem) (xs : List k.Elem)
    (next : View k.Elem → Act ρ) : Act ρ :=
  if xs.isEmpty then next v
  else
    match v with
    | .shared n =>
      if n + xs.length ≤ cap k then writeAll k (next (.shared (n + xs.length))) n xs
      else readAll k (fun l => next (.own (l ++ xs))) [] (List.range n)
    | .own l => next (.own (l ++ xs))

section
variable {α : Type}

/-- builder/select.go:67-129 `Join` -/
def Copy.Join (cap : Clause → Nat) (b : Copy) (args : List Any) (next : Copy → Act (Go α)) :
    Act (Go α) :=
  match SelectStmt.joinOf args with
  | .error p => .done (.error p)
  | .ok j =>
    match j.isEmpty with
    | .error p => .done (.error p)
    | .ok true => .done (Go.panic "loukoum: given join clause is undefined")
    | .ok false => append cap .joins b.joins [j] fun v => next { b with joins := v }

/-- builder/select.go:132-140 `With`; stmt/with.go:15-19 `NewWith` keeps the slice it is given, which is
an array of the caller. -/
def Copy.With (cap : Clause → Nat) (b : Copy) (args : List WithQuery) (next : Copy → Act (Go α)) :
    Act (Go α) :=
  if b.withs.len = 0 then next { b with withs := .own args }
  else append cap .withs b.withs args fun v => next { b with withs := v }

/-- builder/select.go:199-202 `OrderBy` -/
def Copy.OrderBy (cap : Clause → Nat) (b : Copy) (orders : List Order)
    (next : Copy → Act (Go α)) : Act (Go α) :=
  append cap .orders b.orders orders fun v => next { b with orders := v }

/-- A method that does not look at the three slices: all others of builder/select.go. -/
def Copy.other (b : Copy) (method : SelectStmt → Go SelectStmt) (next : Copy → Act (Go α)) :
    Act (Go α) :=
  match method b.base with
  | .error p => .done (.error p)
  | .ok s => next { b with base := s }

/-- builder/select.go:257-285 `String`, `NamedQuery`, `Query` (`render` stands for one of them). The
elements of the slices are read before anything else, which nobody can notice because the context is
the goroutine's own. -/
def Copy.render [GoRuntime] (render : W → Go α) (b : Copy) : Act (Go α) :=
  readSlice .joins b.joins fun js =>
  readSlice .withs b.withs fun ws =>
  readSlice .orders b.orders fun os =>
    .done (render (Stmt.select { b.base with joins := js, withs := ws, orderBy := os }).write)

end

end Verif.Derive
