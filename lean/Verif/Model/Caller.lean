import Verif.Model.Heap

/-!
# Slices that the caller keeps

A caller may build a slice of arguments and spread it (`b.With(queries...)`, `b.OrderBy(orders...)`)
or pass it as the only argument (`b.GroupBy(columns)`). Some methods copy the elements, others keep
the slice, so that the builder refers to an array that the caller can still write to.

Simplification: only the clause that the method is about is represented, by the slice that is in
the field of the builder; slices start at the beginning of their array.
-/

namespace Verif

/-- A method on the slice of a clause: memory, the slice in the builder, the slice of arguments; the
result is the slice in the new builder. -/
abbrev Takes (α : Type) := Store α → Slice → Slice → Go (Store α × Slice)

/-- builder/select.go:132-140 and builder/update.go:55-63 `With(args...)`: the first time the slice
of arguments itself is kept (stmt/with.go:14-18 `NewWith`), later the elements are appended. -/
def withTakes (g : Growth) : Takes WithQuery := fun st b args =>
  if (st.read b).isEmpty then .ok (st, args) else .ok (st.append g b (st.read args))

/-- builder/select.go:199-202 `OrderBy(orders...)`: the elements are appended. -/
def orderByTakes (g : Growth) : Takes Order := fun st b args =>
  .ok (st.append g b (st.read args))

/-- builder/builder.go:73-83 `ToColumns` with a single `[]stmt.Column`: the columns are checked and
the slice itself is returned. -/
def keptColumns (st : Store Column) (args : Slice) : Go Slice :=
  if (st.read args).any Column.isEmpty then Go.panic "loukoum: given column is undefined"
  else .ok args

/-- builder/select.go:171-185 `GroupBy(columns)` with a `[]stmt.Column`; stmt/groupby.go:14-18
`NewGroupBy` keeps the slice. -/
def groupByTakes : Takes Column := fun st b args =>
  if !(st.read b).isEmpty then
    Go.panic "loukoum: select builder has group by clause already defined"
  else
    match keptColumns st args with
    | .error p => .error p
    | .ok s =>
      if (st.read s).isEmpty then Go.panic "loukoum: given join clause is undefined"
      else .ok (st, s)

/-- builder/select.go:22-36 `DistinctOn(columns)` with a `[]stmt.Column`; stmt/distinct_on.go:14-18
`NewDistinctOn` keeps the slice. Simplification: the guard tests GROUP BY, which is not represented
here and taken to be empty; what is in DISTINCT ON already is replaced. -/
def distinctOnTakes : Takes Column := fun st _ args =>
  match keptColumns st args with
  | .error p => .error p
  | .ok s =>
    if (st.read s).isEmpty then Go.panic "loukoum: given distinct on clause is undefined"
    else .ok (st, s)

/-- builder/insert.go:34-45 `Columns(columns)` with a `[]stmt.Column` -/
def insertColumnsTakes : Takes Column := fun st b args =>
  if !(st.read b).isEmpty then
    Go.panic "loukoum: insert builder has columns clause already defined"
  else
    match keptColumns st args with
    | .error p => .error p
    | .ok s => .ok (st, s)

/-- builder/select.go:45-53 `Columns(expressions)` with a `[]stmt.SelectExpression`, which
`ToSelectExpressions` returns as it is (builder/builder.go:120-125) -/
def selectColumnsTakes : Takes SelExpr := fun st _ args => .ok (st, args)

/-- builder/insert.go:59-67, builder/update.go:99-107 and builder/delete.go:64-72
`Returning(expressions)` with a `[]stmt.SelectExpression`; stmt/returning.go:14-18 `NewReturning`
keeps the slice. The message of the panic is that of INSERT. -/
def returningTakes : Takes SelExpr := fun st b args =>
  if !(st.read b).isEmpty then
    Go.panic "loukoum: insert builder has returning clause already defined"
  else .ok (st, args)

/-- Go `vs[i] = x`, which panics if the index is out of range (Go specification, "Index
expressions"). -/
def Store.assign {α : Type} (st : Store α) (s : Slice) (i : Nat) (x : α) : Go (Store α) :=
  if i < s.len then
    match s.arr with
    | none => .error .index
    | some a => .ok (st.write a i [x])
  else .error .index

/-- Go `make([]T, len, cap)` and filling it, with capacity for some more elements. -/
def Store.make {α : Type} (st : Store α) (xs : List α) (spare : Nat) : Store α × Slice :=
  (st ++ [⟨xs, xs.length + spare⟩], ⟨some st.length, xs.length⟩)

end Verif
