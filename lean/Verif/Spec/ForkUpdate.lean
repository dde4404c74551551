import Verif.Spec.Fork

/-!
# What a call or a rendering does to all builders
-/

namespace Verif.Spec

/-- The elements are put into the list from a position on, as far as the list reaches. -/
def overwritten {α : Type} (old : List α) (pos : Nat) (xs : List α) : List α :=
  old.take pos ++ xs.take (old.length - pos) ++ old.drop (pos + xs.length)

/-- What `Set` and `Using` do to a SET clause, one at a time: assign a value to a column, name a
column, add a value. -/
inductive PairStep where
  | assign (c : Column) (e : Expr)
  | column (c : Column)
  | value (e : Expr)

/-- Assignments and lists of columns exclude each other; values belong to a list of columns. -/
def PairStep.fits (m : PairMode) : PairStep → Bool
  | .assign _ _ => m != .array
  | .column _ => m != .associative
  | .value _ => m == .array

/-- The syntax after it. -/
def PairStep.mode : PairStep → PairMode
  | .assign _ _ => .associative
  | .column _ => .array
  | .value _ => .array

/-- A key and a value make an assignment if both are accepted. -/
def pairStep (kv : Any × Any) : Option PairStep :=
  match toColumn kv.1 with
  | .error _ => none
  | .ok c =>
    match newWrapped kv.2 with
    | .error _ => none
    | .ok e => some (.assign c e)

/-- A value of a list of values. -/
def valueStep (a : Any) : Option PairStep :=
  match newExpression a with
  | .error _ => none
  | .ok e => some (.value e)

/-- What an argument of `Set` asks for; `none` is a refusal. -/
def argSteps : Any → List (Option PairStep)
  | .val (.str s) =>
    match toColumns [.val (.str s)] with
    | .error _ => [none]
    | .ok cs => cs.map fun c => some (.column c)
  | .selExpr (.column c) =>
    match toColumns [.selExpr (.column c)] with
    | .error _ => [none]
    | .ok cs => cs.map fun c => some (.column c)
  | .strMap _ entries => entries.map fun kv => pairStep (.val (.str kv.1), kv.2)
  | .anyMap entries => entries.map pairStep
  | .pair k v => [pairStep (k, v)]
  | _ => [none]

/-- What is done of it, until something is refused or does not fit. -/
def performed (m : PairMode) : List (Option PairStep) → List PairStep
  | [] => []
  | none :: _ => []
  | some s :: l => if s.fits m then s :: performed s.mode l else []

/-- What a call does to the SET clause of the builder it is made on. -/
def callSteps (s : UpdateStmt) : UpdCall → List PairStep
  | .set args => performed s.set.mode (args.flatMap argSteps)
  | .using args => performed s.set.mode (args.map valueStep)
  | _ => []

/-- The columns that come to the list: named ones, and assigned ones without a value so far. -/
def newColumns (m : List (Column × Expr)) : List PairStep → List Column
  | [] => []
  | .assign c e :: l =>
    if (mapLookup c m).isSome then newColumns (mapAssign c e m) l
    else c :: newColumns (mapAssign c e m) l
  | .column c :: l => c :: newColumns m l
  | .value _ :: l => newColumns m l

/-- The values of the columns after the assignments. -/
def newMap (m : List (Column × Expr)) : List PairStep → List (Column × Expr)
  | [] => m
  | .assign c e :: l => newMap (mapAssign c e m) l
  | .column _ :: l => newMap m l
  | .value _ :: l => newMap m l

/-- The values that come to the list. -/
def newValues : List PairStep → List Expr
  | [] => []
  | .value e :: l => e :: newValues l
  | .assign _ _ :: l => newValues l
  | .column _ :: l => newValues l

/-- What a list is after elements have been added, one at a time, to another list: they are in it if
the two are in the same array. -/
def sharedAfter {α : Type} (own other : Slice) (old : List α) (xs : List α) : List α :=
  if own.arr = other.arr then overwritten old own.len xs else old

/-- What another builder is after a call (or the builder itself, which the call does not return). -/
def afterCall (h : UpdHeap) (own other : UpdRef) (c : UpdCall) : UpdateStmt :=
  let s := own.stmt h
  let t := other.stmt h
  let steps := callSteps s c
  { t with
    withs :=
      match c with
      | .with qs =>
        if s.withs ≠ [] ∧ own.withs.len + qs.length ≤ h.withs.cap own.withs then
          sharedAfter own.withs other.withs t.withs qs
        else t.withs
      | _ => t.withs
    set := { t.set with
      map := if own.set.map = other.set.map then newMap t.set.map steps else t.set.map
      columns := sharedAfter own.set.columns other.set.columns t.set.columns
        (newColumns s.set.map steps)
      expressions := sharedAfter own.set.exprs other.set.exprs t.set.expressions
        (newValues steps) } }

/-- What another builder (or the builder itself) is after a rendering that gets as far as the SET
clause: the columns of the rendered one have been sorted in place. -/
def afterRender [GoRuntime] (h : UpdHeap) (own other : UpdRef) : UpdateStmt :=
  let s := own.stmt h
  let t := other.stmt h
  if s.set.mode = .associative ∧ (s.set.map ≠ [] ∨ s.set.expressions ≠ []) ∧
      own.set.columns.arr = other.set.columns.arr then
    { t with set := { t.set with
      columns := overwritten t.set.columns 0 (GoRuntime.sortSlice columnLess s.set.columns) } }
  else t

/-- What another SELECT builder (or the builder itself) is after a call. A join that the call adds, and
orderings and common table expressions for which there is room, are written behind those of the
builder it is made on. -/
def afterSelCall (h : SelHeap) (own other : SelRef) (c : SelCall) : SelectStmt :=
  let s := own.stmt h
  let t := other.stmt h
  { t with
    joins :=
      match c.apply s with
      | .ok s' => sharedAfter own.joins other.joins t.joins (s'.joins.drop s.joins.length)
      | .error _ => t.joins
    withs :=
      match c with
      | .with qs =>
        if s.withs ≠ [] ∧ own.withs.len + qs.length ≤ h.withs.cap own.withs then
          sharedAfter own.withs other.withs t.withs qs
        else t.withs
      | _ => t.withs
    orderBy :=
      match c with
      | .orderBy os =>
        if own.orders.len + os.length ≤ h.orders.cap own.orders then
          sharedAfter own.orders other.orders t.orderBy os
        else t.orderBy
      | _ => t.orderBy }

/-- What another INSERT builder (or the builder itself) is after a call: `OnConflict` writes the columns
it is given behind the target columns of the builder it is made on. -/
def afterInsCall (h : InsHeap) (own other : InsRef) (c : InsCall) : InsertStmt :=
  let s := own.stmt h
  let t := other.stmt h
  match c with
  | .onConflict args =>
    if s.action.isEmpty then
      { t with target := sharedAfter own.target other.target t.target (namedTargets args) }
    else t
  | _ => t

/-- What another INSERT builder (or the builder itself) is after a rendering that gets as far as the SET
clause of DO UPDATE: the columns of the rendered one have been sorted in place. -/
def afterInsRender [GoRuntime] (h : InsHeap) (own other : InsRef) : InsertStmt :=
  let t := other.stmt h
  match (own.stmt h).action, t.action with
  | .update p, .update p' =>
    if p.mode = .associative ∧ (p.map ≠ [] ∨ p.expressions ≠ []) ∧ own.set.arr = other.set.arr then
      { t with action := .update { p' with
        columns := overwritten p'.columns 0 (GoRuntime.sortSlice columnLess p.columns) } }
    else t
  | _, _ => t

end Verif.Spec
