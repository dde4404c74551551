import Verif.Model.Heap
import Verif.Model.Derive
import Verif.Model.Concurrent

/-!
# Goroutines that derive queries from one UPDATE builder

As `Model/Derive.lean`, for UPDATE. The slices of all copies of the builder are in the same arrays, and
the map of the SET clause is one and the same for all copies (`NewUpdate` makes it, stmt/set.go:58-65,
and no method makes another one). `Set` with pairs writes to this map, `Set` with columns, `Using` and
`With` append, and rendering the key-value syntax sorts the columns in place.

Simplifications, apart from those of `Model/Derive.lean`: an access to the map is one step, and in the
rendering the map is read once, after the columns (the Go runtime may end the program when it notices a
write to a map during another access).
-/

namespace Verif.DeriveUpdate
open Derive (View)
open Concurrent (Sorter writeUpdate writeRead)

/-- The slices that methods of UPDATE append to (builder/update.go:61, stmt/set.go:84, :106, :122). -/
inductive Clause where
  | withs | columns | exprs
deriving DecidableEq

/-- Their elements (stmt/update.go:9-18, stmt/set.go:50-55). -/
def Clause.Elem : Clause → Type
  | .withs => WithQuery
  | .columns => Column
  | .exprs => Expr

/-- The cells of the arrays of the builder that is shared, and the map of its SET clause. -/
structure Memory where
  cells : (k : Clause) → Nat → k.Elem
  map : List (Column × Expr)

/-- An assignment to a cell. -/
def Memory.put (m : Memory) (k : Clause) (i : Nat) (x : k.Elem) : Memory :=
  { m with cells := fun k' j =>
      if h : k' = k then (if j = i then h ▸ x else m.cells k' j) else m.cells k' j }

/-- An assignment to an entry of the map. -/
def Memory.assign (m : Memory) (c : Column) (e : Expr) : Memory :=
  { m with map := mapAssign c e m.map }

/-- What a goroutine still has to do to the shared memory, and what it returns in the end. -/
inductive Act (ρ : Type) where
  | done (r : ρ)
  | read (k : Clause) (i : Nat) (next : k.Elem → Act ρ)
  | write (k : Clause) (i : Nat) (x : k.Elem) (next : Act ρ)
  | look (next : List (Column × Expr) → Act ρ)
  | assign (c : Column) (e : Expr) (next : Act ρ)

/-- A copy of the builder (builder/update.go:9-11). The lists of `base` for the three slices and for
the map are not used. -/
structure Copy where
  base : UpdateStmt
  withs : View WithQuery
  columns : View Column
  exprs : View Expr

/-- The cells are read one after the other. -/
def readAll {ρ : Type} (k : Clause) (next : List k.Elem → Act ρ) (acc : List k.Elem) :
    List Nat → Act ρ
  | [] => next acc
  | i :: l => .read k i fun x => readAll k next (acc ++ [x]) l

/-- Cells are written one after the other, from a position on. -/
def writeAll {ρ : Type} (k : Clause) (next : Act ρ) : Nat → List k.Elem → Act ρ
  | _, [] => next
  | i, x :: l => .write k i x (writeAll k next (i + 1) l)

/-- The elements of a slice are read. -/
def readSlice {ρ : Type} (k : Clause) (v : View k.Elem) (next : List k.Elem → Act ρ) : Act ρ :=
  match v with
  | .shared n => readAll k next [] (List.range n)
  | .own l => next l

/-- Go `append(s, xs...)`, as `Derive.append`. -/
def append {ρ : Type} (cap : Clause → Nat) (k : Clause) (v : View k.Elem) (xs : List k.Elem)
    (next : View k.Elem → Act ρ) : Act ρ :=
  if xs.isEmpty then next v
  else
    match v with
    | .shared n =>
      if n + xs.length ≤ cap k then writeAll k (next (.shared (n + xs.length))) n xs
      else readAll k (fun l => next (.own (l ++ xs))) [] (List.range n)
    | .own l => next (.own (l ++ xs))

/-- The accesses of `sort.Slice` to the array of columns (stmt/set.go:131-134), as `Sorter.act`. -/
def sortBy {ρ : Type} : Sorter → Act ρ → Act ρ
  | .stop, a => a
  | .less i j next, a => .read .columns i fun x => .read .columns j fun y =>
      sortBy (next (columnLess x y)) a
  | .swap i j next, a => .read .columns i fun x => .read .columns j fun y =>
      .write .columns i y (.write .columns j x (sortBy next a))

section
variable {α : Type}

/-- The copy with another syntax of SET. -/
def Copy.withMode (b : Copy) (mode : PairMode) : Copy :=
  { b with base := { b.base with set := { b.base.set with mode := mode } } }

/-- stmt/set.go:74-88 `PairContainer.Add` -/
def Copy.add (cap : Clause → Nat) (b : Copy) (c : Column) (e : Expr) (next : Copy → Act (Go α)) :
    Act (Go α) :=
  let mode := if b.base.set.mode = .unknown then .associative else b.base.set.mode
  if mode ≠ .associative then
    .done (Go.panic "loukoum: you can only use pairs in key-value or column-list syntax")
  else .look fun m =>
    if (mapLookup c m).isSome then .assign c e (next (b.withMode mode))
    else append cap .columns b.columns [c] fun v =>
      .assign c e (next { b.withMode mode with columns := v })

/-- stmt/set.go:98-107 `PairContainer.Set` -/
def Copy.set (cap : Clause → Nat) (b : Copy) (c : Column) (next : Copy → Act (Go α)) : Act (Go α) :=
  let mode := if b.base.set.mode = .unknown then .array else b.base.set.mode
  if mode ≠ .array then
    .done (Go.panic "loukoum: you can only use pairs in key-value or column-list syntax")
  else append cap .columns b.columns [c] fun v => next { b.withMode mode with columns := v }

/-- stmt/set.go:117-123 `PairContainer.Use` -/
def Copy.use (cap : Clause → Nat) (b : Copy) (e : Expr) (next : Copy → Act (Go α)) : Act (Go α) :=
  if b.base.set.mode ≠ .array then
    .done (Go.panic "loukoum: you have to define pairs columns first")
  else append cap .exprs b.exprs [e] fun v => next { b with exprs := v }

/-- A loop over the arguments. -/
def loop {β : Type} (body : Copy → β → (Copy → Act (Go α)) → Act (Go α))
    (next : Copy → Act (Go α)) : List β → Copy → Act (Go α)
  | [], b => next b
  | a :: l, b => body b a (loop body next l)

/-- builder/builder.go:334, :338, :341 -/
def Copy.addPair (cap : Clause → Nat) (b : Copy) (kv : Any × Any) (next : Copy → Act (Go α)) :
    Act (Go α) :=
  match toColumn kv.1 with
  | .error e => .done (.error e)
  | .ok c =>
    match newWrapped kv.2 with
    | .error e => .done (.error e)
    | .ok x => b.add cap c x next

/-- One iteration of builder/builder.go:325-345. -/
def Copy.mergeArg (cap : Clause → Nat) (b : Copy) (arg : Any) (next : Copy → Act (Go α)) :
    Act (Go α) :=
  match arg with
  | .val (.str s) =>
    match toColumns [.val (.str s)] with
    | .error e => .done (.error e)
    | .ok cs => loop (Copy.set cap) next cs b
  | .selExpr (.column c) =>
    match toColumns [.selExpr (.column c)] with
    | .error e => .done (.error e)
    | .ok cs => loop (Copy.set cap) next cs b
  | .strMap _ entries =>
    loop (Copy.addPair cap) next (entries.map (fun kv => (.val (.str kv.1), kv.2))) b
  | .anyMap entries => loop (Copy.addPair cap) next entries b
  | .pair k v => b.addPair cap (k, v) next
  | _ => .done (Go.panic "loukoum: cannot use value as pair")

/-- builder/update.go:27-34 `Set` -/
def Copy.Set (cap : Clause → Nat) (b : Copy) (args : List Any) (next : Copy → Act (Go α)) :
    Act (Go α) :=
  if args.isEmpty then
    .done (Go.panic "loukoum: update set clause requires at least one argument")
  else loop (Copy.mergeArg cap) next args b

/-- builder/update.go:47-49, one iteration -/
def Copy.useArg (cap : Clause → Nat) (b : Copy) (arg : Any) (next : Copy → Act (Go α)) :
    Act (Go α) :=
  match newExpression arg with
  | .error e => .done (.error e)
  | .ok x => b.use cap x next

/-- builder/update.go:38-52 `Using` -/
def Copy.Using (cap : Clause → Nat) (b : Copy) (args : List Any) (next : Copy → Act (Go α)) :
    Act (Go α) :=
  if b.base.set.mode ≠ .array then
    .done (Go.panic "loukoum: you can only use Using with column-list syntax")
  else if args.isEmpty then
    .done (Go.panic "loukoum: using clause requires a column or an expression")
  else loop (Copy.useArg cap) next args b

/-- builder/update.go:55-63 `With` -/
def Copy.With (cap : Clause → Nat) (b : Copy) (args : List WithQuery) (next : Copy → Act (Go α)) :
    Act (Go α) :=
  if b.withs.len = 0 then next { b with withs := .own args }
  else append cap .withs b.withs args fun v => next { b with withs := v }

/-- A method that does not look at the slices and the map: all others of builder/update.go. -/
def Copy.other (b : Copy) (method : UpdateStmt → Go UpdateStmt) (next : Copy → Act (Go α)) :
    Act (Go α) :=
  match method b.base with
  | .error p => .done (.error p)
  | .ok s => next { b with base := s }

/-- The statement with these elements. -/
def fill (u : UpdateStmt) (ws : List WithQuery) (cs : List Column) (es : List Expr)
    (m : List (Column × Expr)) : UpdateStmt :=
  { u with withs := ws, set := { u.set with map := m, columns := cs, expressions := es } }

/-- builder/update.go:120-138 `String`, `NamedQuery`, `Query` (`render` stands for one of them). The
elements are read before anything else, as in `Derive.Copy.render`. In the key-value syntax the columns
are sorted before, by `sorter` if they are in the shared array; an array of its own the goroutine sorts
alone. -/
def Copy.render [GoRuntime] (sorter : Nat → Sorter) (render : W → Go α) (b : Copy) : Act (Go α) :=
  readSlice .withs b.withs fun ws =>
  readSlice .exprs b.exprs fun es =>
    match b.columns with
    | .own cs => .look fun m => .done (render (Stmt.update (fill b.base ws cs es m)).write)
    | .shared n =>
      if b.base.set.mode = .associative then
        sortBy (sorter n) (readAll .columns (fun cs => .look fun m =>
          let u := fill b.base ws cs es m
          .done (render (writeUpdate u (writeRead u.set cs)))) [] (List.range n))
      else readAll .columns (fun cs => .look fun m =>
        .done (render (Stmt.update (fill b.base ws cs es m)).write)) [] (List.range n)

end

end Verif.DeriveUpdate
