import Verif.Model.Derive
import Verif.Model.Concurrent

/-!
# Goroutines that derive queries from one INSERT builder

As `Model/Derive.lean`, for INSERT. Two things of the shared builder can be written to by a copy: the
array of the columns of the conflict target, which `OnConflict` appends to, and the array of the columns
of DO UPDATE, which the rendering sorts. Never both: `OnConflict` refuses a builder that has an action
already (builder/insert.go:78-80), and a builder without action has no pairs to render
(stmt/insert.go:49, stmt/conflict.go:42-44). So there is one array here: that of the target while the
shared builder has no action, else that of the pairs.

A builder without action can have columns in its target: `OnConflict("a", DoUpdate())` leaves such a
one, because a DO UPDATE without pairs counts as no action (stmt/conflict.go:108-110).

Simplifications: those of `Model/Derive.lean`; an action that is handed to `OnConflict` belongs to the
goroutine (a caller that hands one action to several goroutines is not represented).
-/

namespace Verif.DeriveInsert
open Derive (View)
open Concurrent (Act Sorter readCells renderingBy)

/-- A copy of the builder (builder/insert.go:11-13). The list of `base` for the target is not used.
`shared` says that its action is the one of the shared builder. -/
structure Copy where
  base : InsertStmt
  target : View Column
  shared : Bool

section
variable {α : Type}

/-- Go `append(s, x)`, as `Derive.append`. -/
def append {ρ : Type} (cap : Nat) (v : View Column) (x : Column) (next : View Column → Act ρ) : Act ρ :=
  match v with
  | .shared n =>
    if n < cap then .write n x (next (.shared (n + 1)))
    else readCells (fun l => next (.own (l ++ [x]))) [] (List.range n)
  | .own l => next (.own (l ++ [x]))

/-- The loop of builder/insert.go:86-104. -/
def Copy.onConflictLoop (cap : Nat) (next : Copy → Act (Go α)) : List Any → Copy → Act (Go α)
  | [], _ => .done (Go.panic "loukoum: on conflict clause requires an action")
  | a :: l, b =>
    match a with
    | .conflictNothing => next { b with base := { b.base with action := .nothing }, shared := false }
    | .conflictUpdate set =>
      if b.target.len = 0 then
        .done (Go.panic "loukoum: on conflict update clause requires at least one target")
      else next { b with base := { b.base with action := .update set }, shared := false }
    | .val (.str s) =>
      match toColumn (.val (.str s)) with
      | .error p => .done (.error p)
      | .ok c => append cap b.target c fun v => onConflictLoop cap next l { b with target := v }
    | .selExpr (.column col) =>
      match toColumn (.selExpr (.column col)) with
      | .error p => .done (.error p)
      | .ok c => append cap b.target c fun v => onConflictLoop cap next l { b with target := v }
    | _ => .done (Go.panic "loukoum: cannot use value as on conflict clause")

/-- builder/insert.go:77-105 `OnConflict` -/
def Copy.OnConflict (cap : Nat) (b : Copy) (args : List Any) (next : Copy → Act (Go α)) :
    Act (Go α) :=
  if !b.base.action.isEmpty then
    .done (Go.panic "loukoum: insert builder has on conflict clause already defined")
  else if args.isEmpty then .done (Go.panic "loukoum: on conflict clause requires arguments")
  else b.onConflictLoop cap next args

/-- A method that does not look at the target and the action: all others of builder/insert.go. -/
def Copy.other (b : Copy) (method : InsertStmt → Go InsertStmt) (next : Copy → Act (Go α)) :
    Act (Go α) :=
  match method b.base with
  | .error p => .done (.error p)
  | .ok s => next { b with base := s }

/-- builder/insert.go:132-150 `String`, `NamedQuery`, `Query` (`render` stands for one of them). The
target is read before anything else, as in `Derive.Copy.render`. The pairs of DO UPDATE are sorted in
the shared array if they are those of the shared builder; those of another action the goroutine sorts
alone. -/
def Copy.render [GoRuntime] (sorter : Nat → Sorter) (render : W → Go α) (b : Copy) : Act (Go α) :=
  let go := fun cs =>
    let q := Stmt.insert { b.base with target := cs }
    match b.shared, b.base.action with
    | true, .update p => renderingBy (sorter p.columns.length) render q
    | _, _ => .done (render q.write)
  match b.target with
  | .shared n => readCells go [] (List.range n)
  | .own cs => go cs

end

end Verif.DeriveInsert
