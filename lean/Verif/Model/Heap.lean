import Verif.Model.Builder

/-!
# Slices and maps shared between builders

The builders of `builder/` are Go values, but their fields hold slices and maps, which refer to
memory that is shared by all copies of a builder. Here this memory is explicit: arrays with a
capacity, written by `append`, and maps.

Simplifications: only the memory that methods of builders write to after it has been allocated is
represented (`Joins`, `OrderBy.Orders`, `With.Queries`, the target columns of ON CONFLICT, and the
columns, expressions and map of SET); the arguments of a call, hence also sub-selects in
expressions, are taken by value; all slices start at the beginning of their array, because none is
ever re-sliced; a variadic argument is a fresh array (callers that spread a slice of their own and
go on changing it are in `Model/Caller.lean`).
-/

namespace Verif

/-! ## Slices -/

/-- An array of a slice: its capacity and the cells written so far. What the cells beyond hold is
of no importance, because a slice never extends to a cell that has not been written. -/
structure Arr (α : Type) where
  cells : List α
  cap : Nat

/-- All arrays of one element type; the address of an array is its position. -/
abbrev Store (α : Type) := List (Arr α)

/-- A Go slice: the array (`none` for the nil slice) and the length. -/
structure Slice where
  arr : Option Nat
  len : Nat
deriving DecidableEq

/-- The nil slice. -/
def Slice.nil : Slice := ⟨none, 0⟩

/-- Which capacity `append` gives to the `n`-th array when it needs `need` cells and the old array
has capacity `old`. The Go specification only says that it is sufficient. -/
structure Growth where
  cap : (n old need : Nat) → Nat
  enough : ∀ n old need, need ≤ cap n old need

namespace Store
variable {α : Type}

/-- The cells of an array. -/
def cells (st : Store α) (a : Nat) : List α :=
  match st[a]? with
  | none => []
  | some x => x.cells

/-- The capacity of a slice. -/
def cap (st : Store α) (s : Slice) : Nat :=
  match s.arr with
  | none => 0
  | some a =>
    match st[a]? with
    | none => 0
    | some x => x.cap

/-- The elements of a slice. -/
def read (st : Store α) (s : Slice) : List α :=
  match s.arr with
  | none => []
  | some a => (st.cells a).take s.len

/-- Overwrite cells of an array, from a position on. -/
def write (st : Store α) (a pos : Nat) (xs : List α) : Store α :=
  st.modify a fun x =>
    { x with cells := x.cells.take pos ++ xs ++ x.cells.drop (pos + xs.length) }

/-- Go `append(s, xs...)`: in place if the capacity is sufficient, otherwise in a new array (Go
specification, "Appending to and copying slices"). -/
def append (g : Growth) (st : Store α) (s : Slice) (xs : List α) : Store α × Slice :=
  if xs.isEmpty then (st, s)
  else
    match s.arr with
    | some a =>
      if s.len + xs.length ≤ st.cap s then (st.write a s.len xs, ⟨some a, s.len + xs.length⟩)
      else
        (st ++ [⟨st.read s ++ xs, g.cap st.length (st.cap s) (s.len + xs.length)⟩],
          ⟨some st.length, s.len + xs.length⟩)
    | none => (st ++ [⟨xs, g.cap st.length 0 xs.length⟩], ⟨some st.length, xs.length⟩)

/-- A new array with exactly these elements: a variadic argument or a composite literal. -/
def alloc (st : Store α) (xs : List α) : Store α × Slice :=
  (st ++ [⟨xs, xs.length⟩], ⟨some st.length, xs.length⟩)

end Store

/-- The slice lies within the written part of its array, as every slice in Go does. -/
def Slice.Valid {α : Type} (st : Store α) (s : Slice) : Prop :=
  (s.arr = none ∧ s.len = 0) ∨
    ∃ a x, s.arr = some a ∧ st[a]? = some x ∧ s.len ≤ x.cells.length ∧ x.cells.length ≤ x.cap

/-! ## SELECT -/

/-- The memory written by methods of SELECT builders. -/
structure SelHeap where
  joins : Store Join
  withs : Store WithQuery
  orders : Store Order

/-- A SELECT builder (builder/select.go:11-13): the struct `stmt.Select`, where the fields `Joins`,
`With.Queries` and `OrderBy.Orders` are slices. The lists of `base` for these are not used. -/
structure SelRef where
  base : SelectStmt
  joins : Slice
  withs : Slice
  orders : Slice

/-- The statement that the builder represents at a moment: what its `Write` reads. -/
def SelRef.stmt (h : SelHeap) (r : SelRef) : SelectStmt :=
  { r.base with
    joins := h.joins.read r.joins
    withs := h.withs.read r.withs
    orderBy := h.orders.read r.orders }

namespace SelectStmt

/-- builder/select.go:67-129: the join that a call of `Join` appends. -/
def joinOf (args : List Any) : Go Verif.Join :=
  match args with
  | [a] => joinOfArg a
  | [a0, a1] => handleSelectJoin a0 a1
  | [a0, a1, a2] =>
    match handleSelectJoin a0 a1 with
    | .error p => .error p
    | .ok j =>
      match a2 with
      | .joinType t => .ok { j with type := t }
      | _ => Go.panic "loukoum: cannot use value as join clause"
  | _ => Go.panic "loukoum: given join clause is invalid"

end SelectStmt

/-- builder/select.go:67-129 `Join` with `append` on the slice of joins -/
def SelRef.Join (g : Growth) (h : SelHeap) (r : SelRef) (args : List Any) :
    Go (SelHeap × SelRef) :=
  match SelectStmt.joinOf args with
  | .error p => .error p
  | .ok j =>
    match j.isEmpty with
    | .error p => .error p
    | .ok true => Go.panic "loukoum: given join clause is undefined"
    | .ok false =>
      let (st, s) := h.joins.append g r.joins [j]
      .ok ({ h with joins := st }, { r with joins := s })

/-- builder/select.go:132-140 `With`; stmt/with.go:15-19 `NewWith` keeps the slice it is given -/
def SelRef.With (g : Growth) (h : SelHeap) (r : SelRef) (args : List WithQuery) :
    SelHeap × SelRef :=
  let (st, s) :=
    if (h.withs.read r.withs).isEmpty then h.withs.alloc args
    else h.withs.append g r.withs args
  ({ h with withs := st }, { r with withs := s })

/-- builder/select.go:199-202 `OrderBy` -/
def SelRef.OrderBy (g : Growth) (h : SelHeap) (r : SelRef) (orders : List Order) :
    SelHeap × SelRef :=
  let (st, s) := h.orders.append g r.orders orders
  ({ h with orders := st }, { r with orders := s })

/-- A method that only reads the three slices: the new builder has the same slices. -/
def SelRef.pure (h : SelHeap) (r : SelRef) (method : SelectStmt → Go SelectStmt) :
    Go (SelHeap × SelRef) :=
  match method (r.stmt h) with
  | .error p => .error p
  | .ok s => .ok (h, { r with base := s })

/-! ## UPDATE -/

/-- The memory written by methods and by the rendering of UPDATE builders. -/
structure UpdHeap where
  withs : Store WithQuery
  columns : Store Column
  exprs : Store Expr
  maps : List (List (Column × Expr))

/-- stmt/set.go:50-55 `PairContainer`: the map is a reference, columns and expressions are slices. -/
structure PairRef where
  mode : PairMode
  map : Nat
  columns : Slice
  exprs : Slice

/-- The content of a map. -/
def UpdHeap.mapOf (h : UpdHeap) (m : Nat) : List (Column × Expr) :=
  match h.maps[m]? with
  | none => []
  | some l => l

/-- What the container holds at a moment. -/
def PairRef.value (h : UpdHeap) (p : PairRef) : PairContainer :=
  { mode := p.mode
    map := h.mapOf p.map
    columns := h.columns.read p.columns
    expressions := h.exprs.read p.exprs }

/-- stmt/set.go:58-65 `NewPairContainer`: a new map; the two empty slices have no capacity, so they
are represented by the nil slice. -/
def PairRef.new (h : UpdHeap) : UpdHeap × PairRef :=
  ({ h with maps := h.maps ++ [[]] }, ⟨.unknown, h.maps.length, .nil, .nil⟩)

/-- stmt/set.go:74-88 `PairContainer.Add`. Here and below the memory is returned also if the
method panics, because what has been written before stays. -/
def PairRef.add (g : Growth) (h : UpdHeap) (p : PairRef) (c : Column) (e : Expr) :
    UpdHeap × Go PairRef :=
  let mode := if p.mode = .unknown then .associative else p.mode
  if mode ≠ .associative then
    (h, Go.panic "loukoum: you can only use pairs in key-value or column-list syntax")
  else
    let (st, s) :=
      if (mapLookup c (h.mapOf p.map)).isSome then (h.columns, p.columns)
      else h.columns.append g p.columns [c]
    ({ h with columns := st, maps := h.maps.set p.map (mapAssign c e (h.mapOf p.map)) },
      .ok { p with mode := mode, columns := s })

/-- stmt/set.go:98-107 `PairContainer.Set` -/
def PairRef.set (g : Growth) (h : UpdHeap) (p : PairRef) (c : Column) : UpdHeap × Go PairRef :=
  let mode := if p.mode = .unknown then .array else p.mode
  if mode ≠ .array then
    (h, Go.panic "loukoum: you can only use pairs in key-value or column-list syntax")
  else
    let (st, s) := h.columns.append g p.columns [c]
    ({ h with columns := st }, .ok { p with mode := mode, columns := s })

/-- stmt/set.go:117-123 `PairContainer.Use` -/
def PairRef.use (g : Growth) (h : UpdHeap) (p : PairRef) (e : Expr) : UpdHeap × Go PairRef :=
  if p.mode ≠ .array then (h, Go.panic "loukoum: you have to define pairs columns first")
  else
    let (st, s) := h.exprs.append g p.exprs [e]
    ({ h with exprs := st }, .ok { p with exprs := s })

/-- A loop whose body changes memory and may panic. -/
def loopH {α β : Type} (body : UpdHeap → β → α → UpdHeap × Go β) (h : UpdHeap) (b : β) :
    List α → UpdHeap × Go β
  | [] => (h, .ok b)
  | a :: l =>
    match body h b a with
    | (h', .error p) => (h', .error p)
    | (h', .ok b') => loopH body h' b' l

/-- builder/builder.go:334, :338, :341 -/
def PairRef.addPair (g : Growth) (h : UpdHeap) (p : PairRef) (kv : Any × Any) :
    UpdHeap × Go PairRef :=
  match toColumn kv.1 with
  | .error e => (h, .error e)
  | .ok c =>
    match newWrapped kv.2 with
    | .error e => (h, .error e)
    | .ok x => p.add g h c x

/-- One iteration of builder/builder.go:325-345. -/
def PairRef.mergeArg (g : Growth) (h : UpdHeap) (p : PairRef) (arg : Any) : UpdHeap × Go PairRef :=
  match arg with
  | .val (.str s) =>
    match toColumns [.val (.str s)] with
    | .error e => (h, .error e)
    | .ok cs => loopH (PairRef.set g) h p cs
  | .selExpr (.column c) =>
    match toColumns [.selExpr (.column c)] with
    | .error e => (h, .error e)
    | .ok cs => loopH (PairRef.set g) h p cs
  | .strMap _ entries =>
    loopH (PairRef.addPair g) h p (entries.map (fun kv => (.val (.str kv.1), kv.2)))
  | .anyMap entries => loopH (PairRef.addPair g) h p entries
  | .pair k v => p.addPair g h (k, v)
  | _ => (h, Go.panic "loukoum: cannot use value as pair")

/-- builder/update.go:47-49, one iteration -/
def PairRef.useArg (g : Growth) (h : UpdHeap) (p : PairRef) (arg : Any) : UpdHeap × Go PairRef :=
  match newExpression arg with
  | .error e => (h, .error e)
  | .ok x => p.use g h x

/-- stmt/set.go:131-134: `sort.Slice` on the columns, in place. -/
def Store.sortInPlace [GoRuntime] (st : Store Column) (s : Slice) : Store Column :=
  match s.arr with
  | none => st
  | some a => st.write a 0 (GoRuntime.sortSlice columnLess (st.read s))

/-- An UPDATE builder (builder/update.go:9-11): the struct `stmt.Update` with its references. -/
structure UpdRef where
  base : UpdateStmt
  withs : Slice
  set : PairRef

/-- The statement that the builder represents at a moment. -/
def UpdRef.stmt (h : UpdHeap) (r : UpdRef) : UpdateStmt :=
  { r.base with withs := h.withs.read r.withs, set := r.set.value h }

/-- The statement of `NewUpdate`, for a table. -/
def UpdateStmt.init (t : Table) : UpdateStmt :=
  { withs := [], table := t, only := false, tables := [], set := PairContainer.new,
    whr := .nil, returning := [], comment := [] }

/-- builder/update.go:14-18 `NewUpdate` -/
def UpdRef.new (h : UpdHeap) (t : Table) : UpdHeap × UpdRef :=
  let (h', p) := PairRef.new h
  (h', ⟨UpdateStmt.init t, .nil, p⟩)

/-- builder/update.go:27-34 `Set` -/
def UpdRef.Set (g : Growth) (h : UpdHeap) (r : UpdRef) (args : List Any) : UpdHeap × Go UpdRef :=
  if args.isEmpty then
    (h, Go.panic "loukoum: update set clause requires at least one argument")
  else
    match loopH (PairRef.mergeArg g) h r.set args with
    | (h', .error p) => (h', .error p)
    | (h', .ok p) => (h', .ok { r with set := p })

/-- builder/update.go:38-52 `Using` -/
def UpdRef.Using (g : Growth) (h : UpdHeap) (r : UpdRef) (args : List Any) : UpdHeap × Go UpdRef :=
  if r.set.mode ≠ .array then
    (h, Go.panic "loukoum: you can only use Using with column-list syntax")
  else if args.isEmpty then (h, Go.panic "loukoum: using clause requires a column or an expression")
  else
    match loopH (PairRef.useArg g) h r.set args with
    | (h', .error p) => (h', .error p)
    | (h', .ok p) => (h', .ok { r with set := p })

/-- builder/update.go:55-63 `With` -/
def UpdRef.With (g : Growth) (h : UpdHeap) (r : UpdRef) (args : List WithQuery) :
    UpdHeap × UpdRef :=
  let (st, s) :=
    if (h.withs.read r.withs).isEmpty then h.withs.alloc args
    else h.withs.append g r.withs args
  ({ h with withs := st }, { r with withs := s })

/-- A method that only reads the shared memory. -/
def UpdRef.pure (h : UpdHeap) (r : UpdRef) (method : UpdateStmt → Go UpdateStmt) :
    UpdHeap × Go UpdRef :=
  match method (r.stmt h) with
  | .error p => (h, .error p)
  | .ok s => (h, .ok { r with base := s })

/-- What rendering does to memory: if it gets as far as the SET clause, in key-value syntax and not
empty (stmt/set.go:154-159), then `Values` sorts the columns in place. -/
def UpdRef.rendered [GoRuntime] (h : UpdHeap) (r : UpdRef) (reached : Bool) : UpdHeap :=
  if reached && !(r.set.value h).isEmpty && r.set.mode == .associative then
    { h with columns := h.columns.sortInPlace r.set.columns }
  else h

/-! ## INSERT -/

/-- The memory written by methods and by the rendering of INSERT builders: target columns of ON
CONFLICT, and the columns of the SET clause of DO UPDATE. -/
structure InsHeap where
  targets : Store Column
  sets : Store Column

/-- An INSERT builder (builder/insert.go:12-14): the struct `stmt.Insert`, where
`OnConflict.Target.Columns` and, for DO UPDATE, `OnConflict.Action.Set.Pairs.Columns` are slices.
The map of that SET clause is only written when the clause is made (builder/builder.go:350-355),
so it is kept by value. -/
structure InsRef where
  base : InsertStmt
  target : Slice
  set : Slice

/-- The action of ON CONFLICT, with the columns in memory. -/
def InsHeap.action (h : InsHeap) (s : Slice) : ConflictAction → ConflictAction
  | .update p => .update { p with columns := h.sets.read s }
  | a => a

/-- The statement that the builder represents at a moment. -/
def InsRef.stmt (h : InsHeap) (r : InsRef) : InsertStmt :=
  { r.base with
    target := h.targets.read r.target
    action := h.action r.set r.base.action }

/-- The loop of builder/insert.go:86-102. Simplified: the columns of a DO UPDATE action are in an
array of their own, so that two statements that are given the same action value do not share it. -/
def InsRef.conflictLoop (g : Growth) (h : InsHeap) (r : InsRef) : List Any → InsHeap × Go InsRef
  | [] => (h, Go.panic "loukoum: on conflict clause requires an action")
  | a :: l =>
    match a with
    | .conflictNothing => (h, .ok ⟨{ r.base with action := .nothing }, r.target, .nil⟩)
    | .conflictUpdate set =>
      if (h.targets.read r.target).isEmpty then
        (h, Go.panic "loukoum: on conflict update clause requires at least one target")
      else
        let (st, s) := h.sets.alloc set.columns
        ({ h with sets := st }, .ok ⟨{ r.base with action := .update set }, r.target, s⟩)
    | .val (.str s) =>
      match toColumn (.val (.str s)) with
      | .error p => (h, .error p)
      | .ok c =>
        let (st, t) := h.targets.append g r.target [c]
        InsRef.conflictLoop g { h with targets := st } { r with target := t } l
    | .selExpr (.column col) =>
      match toColumn (.selExpr (.column col)) with
      | .error p => (h, .error p)
      | .ok c =>
        let (st, t) := h.targets.append g r.target [c]
        InsRef.conflictLoop g { h with targets := st } { r with target := t } l
    | _ => (h, Go.panic "loukoum: cannot use value as on conflict clause")

/-- builder/insert.go:77-105 `OnConflict` -/
def InsRef.OnConflict (g : Growth) (h : InsHeap) (r : InsRef) (args : List Any) :
    InsHeap × Go InsRef :=
  if !(r.stmt h).action.isEmpty then
    (h, Go.panic "loukoum: insert builder has on conflict clause already defined")
  else if args.isEmpty then (h, Go.panic "loukoum: on conflict clause requires arguments")
  else r.conflictLoop g h args

/-- A method that only reads the shared memory. -/
def InsRef.pure (h : InsHeap) (r : InsRef) (method : InsertStmt → Go InsertStmt) :
    InsHeap × Go InsRef :=
  match method (r.stmt h) with
  | .error p => (h, .error p)
  | .ok s => (h, .ok { r with base := s })

/-- What rendering does to memory: if it gets as far as the SET clause of DO UPDATE, in key-value
syntax and not empty, its columns are sorted in place. -/
def InsRef.rendered [GoRuntime] (h : InsHeap) (r : InsRef) (reached : Bool) : InsHeap :=
  match r.base.action with
  | .update p =>
    if reached && !p.isEmpty && p.mode == .associative then
      { h with sets := h.sets.sortInPlace r.set }
    else h
  | _ => h

end Verif
