import Verif.Model.Caller

/-!
# Programs that keep slices they have passed to builders
-/

namespace Verif.Spec

/-- One step of a caller that has variables for slices and uses one method of the builders. -/
inductive CallerAct (α : Type) where
  /-- a new variable: a slice with these elements, and capacity for some more -/
  | make (xs : List α) (spare : Nat)
  /-- `v[i] = x` -/
  | assign (v i : Nat) (x : α)
  /-- `v = append(v, xs...)` -/
  | grow (v : Nat) (xs : List α)
  /-- a new builder -/
  | new
  /-- the method of builder `b` with variable `v` -/
  | give (b v : Nat)
  /-- the method of builder `b` with a slice made for the purpose -/
  | pass (b : Nat) (xs : List α)

variable {α : Type}

/-- The step uses the variable. -/
def CallerAct.uses (v : Nat) : CallerAct α → Bool
  | .assign w _ _ | .grow w _ | .give _ w => v == w
  | _ => false

/-- The step assigns to an element of the variable. -/
def CallerAct.assigns (v : Nat) : CallerAct α → Bool
  | .assign w _ _ => v == w
  | _ => false

/-- The variable that the step gives to a builder. -/
def CallerAct.given : CallerAct α → Option Nat
  | .give _ v => some v
  | _ => none

/-- The builder whose method the step calls. -/
def CallerAct.receiver : CallerAct α → Option Nat
  | .give b _ | .pass b _ => some b
  | _ => none

/-- A variable that has been given to a builder is not used any more. -/
def HandsOver : List (CallerAct α) → Prop
  | [] => True
  | a :: l => (∀ v, a.given = some v → ∀ c ∈ l, c.uses v = false) ∧ HandsOver l

/-- No element of a variable is assigned to once the variable has been given to a builder. -/
def ReadOnlyOnceGiven : List (CallerAct α) → Prop
  | [] => True
  | a :: l => (∀ v, a.given = some v → ∀ c ∈ l, c.assigns v = false) ∧ ReadOnlyOnceGiven l

/-- Every builder is used for at most one further call. -/
def UsedOnce (ops : List (CallerAct α)) : Prop := (ops.filterMap CallerAct.receiver).Nodup

/-! ## What should happen: slices and builders are values -/

/-- The elements of the variables, and of the clause of the builders. -/
structure CallerValues (α : Type) where
  vars : List (List α)
  refs : List (List α)

/-- One step on values; `method` is the method on values. -/
def CallerValues.step (method : List α → List α → Go (List α)) (w : CallerValues α) : CallerAct α → CallerValues α
  | .make xs _ => { w with vars := w.vars ++ [xs] }
  | .assign v i x =>
    match w.vars[v]? with
    | none => w
    | some l => { w with vars := w.vars.set v (l.set i x) }
  | .grow v xs =>
    match w.vars[v]? with
    | none => w
    | some l => { w with vars := w.vars.set v (l ++ xs) }
  | .new => { w with refs := w.refs ++ [[]] }
  | .give b v =>
    match w.refs[b]?, w.vars[v]? with
    | some l, some xs =>
      match method l xs with
      | .error _ => w
      | .ok l' => { w with refs := w.refs ++ [l'] }
    | _, _ => w
  | .pass b xs =>
    match w.refs[b]? with
    | some l =>
      match method l xs with
      | .error _ => w
      | .ok l' => { w with refs := w.refs ++ [l'] }
    | none => w

/-- A program on values. -/
def CallerValues.run (method : List α → List α → Go (List α)) (ops : List (CallerAct α)) : CallerValues α :=
  ops.foldl (CallerValues.step method) ⟨[], []⟩

end Verif.Spec

namespace Verif
open Spec
variable {α : Type}

/-- The memory, the variables of the caller and the slices in the builders. -/
structure CallerWorld (α : Type) where
  store : Store α
  vars : List Slice
  refs : List Slice

/-- One step on memory. A step that panics leaves all as it is. -/
def CallerWorld.step (g : Growth) (takes : Takes α) (w : CallerWorld α) :
    CallerAct α → CallerWorld α
  | .make xs spare =>
    { w with store := (w.store.make xs spare).1, vars := w.vars ++ [(w.store.make xs spare).2] }
  | .assign v i x =>
    match w.vars[v]? with
    | none => w
    | some s =>
      match w.store.assign s i x with
      | .error _ => w
      | .ok st => { w with store := st }
  | .grow v xs =>
    match w.vars[v]? with
    | none => w
    | some s =>
      { w with
        store := (w.store.append g s xs).1
        vars := w.vars.set v (w.store.append g s xs).2 }
  | .new => { w with refs := w.refs ++ [.nil] }
  | .give b v =>
    match w.refs[b]?, w.vars[v]? with
    | some r, some s =>
      match takes w.store r s with
      | .error _ => w
      | .ok (st, r') => { w with store := st, refs := w.refs ++ [r'] }
    | _, _ => w
  | .pass b xs =>
    match w.refs[b]? with
    | some r =>
      match takes (w.store.alloc xs).1 r (w.store.alloc xs).2 with
      | .error _ => w
      | .ok (st, r') => { w with store := st, refs := w.refs ++ [r'] }
    | none => w

/-- A program from the beginning. -/
def CallerWorld.run (g : Growth) (takes : Takes α) (ops : List (CallerAct α)) : CallerWorld α :=
  ops.foldl (CallerWorld.step g takes) ⟨[], [], []⟩

/-- The elements that the variables and the clauses of the builders have. -/
def CallerWorld.values (w : CallerWorld α) : CallerValues α :=
  ⟨w.vars.map w.store.read, w.refs.map w.store.read⟩

end Verif
