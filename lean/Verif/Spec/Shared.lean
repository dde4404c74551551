import Verif.Spec.Caller
import Verif.Spec.Fork

/-!
# Builders that stay attached to a variable of the caller

What programs do if a method keeps the slice it is given, in terms of values: a builder has elements
of its own, but as long as it is attached to a variable, assignments to elements of the variable are
made in the builder as well. A builder becomes attached when it is made with the variable, and is
detached when `append` moves the variable because it has no room left.
-/

namespace Verif.Spec

variable {α : Type}

/-- A variable: its elements, and for how many there is room. -/
structure SharedVar (α : Type) where
  elems : List α
  room : Nat

/-- A builder: the elements of its clause, and the variable it is attached to. -/
structure SharedRef (α : Type) where
  elems : List α
  to : Option Nat

/-- Variables, builders, and how many arrays there are (on which the choice of capacities may
depend). -/
structure SharedValues (α : Type) where
  vars : List (SharedVar α)
  refs : List (SharedRef α)
  arrays : Nat

/-- `v[i] = x`, seen from a builder. -/
def SharedRef.assign (v i : Nat) (x : α) (r : SharedRef α) : SharedRef α :=
  if r.to = some v then { r with elems := r.elems.set i x } else r

/-- Variable `v` is moved, seen from a builder. -/
def SharedRef.detach (v : Nat) (r : SharedRef α) : SharedRef α :=
  if r.to = some v then { r with to := none } else r

/-- One step. -/
def SharedValues.step (g : Growth) (method : List α → List α → Go (List α)) (w : SharedValues α) :
    CallerAct α → SharedValues α
  | .make xs spare =>
    { w with vars := w.vars ++ [⟨xs, xs.length + spare⟩], arrays := w.arrays + 1 }
  | .assign v i x =>
    match w.vars[v]? with
    | none => w
    | some s =>
      if i < s.elems.length then
        { w with
          vars := w.vars.set v { s with elems := s.elems.set i x }
          refs := w.refs.map (SharedRef.assign v i x) }
      else w
  | .grow v xs =>
    match w.vars[v]? with
    | none => w
    | some s =>
      if s.elems.length + xs.length ≤ s.room then
        { w with vars := w.vars.set v { s with elems := s.elems ++ xs } }
      else
        { vars := w.vars.set v
            ⟨s.elems ++ xs, g.cap w.arrays s.room (s.elems.length + xs.length)⟩
          refs := w.refs.map (SharedRef.detach v)
          arrays := w.arrays + 1 }
  | .new => { w with refs := w.refs ++ [⟨[], none⟩] }
  | .give b v =>
    match w.refs[b]?, w.vars[v]? with
    | some r, some s =>
      match method r.elems s.elems with
      | .error _ => w
      | .ok l => { w with refs := w.refs ++ [⟨l, some v⟩] }
    | _, _ => w
  | .pass b xs =>
    match w.refs[b]? with
    | some r =>
      match method r.elems xs with
      | .error _ => w
      | .ok l => { w with refs := w.refs ++ [⟨l, none⟩], arrays := w.arrays + 1 }
    | none => w

/-- A program from the beginning. -/
def SharedValues.run (g : Growth) (method : List α → List α → Go (List α))
    (ops : List (CallerAct α)) : SharedValues α :=
  ops.foldl (SharedValues.step g method) ⟨[], [], 0⟩

/-- The elements. -/
def SharedValues.values (w : SharedValues α) : CallerValues α :=
  ⟨w.vars.map SharedVar.elems, w.refs.map SharedRef.elems⟩

end Verif.Spec

namespace Verif
open Spec
variable {α : Type}

/-- The step writes something else over an element of slice `t`; the method appends, but if `keep` a
builder without elements keeps the slice it is given. -/
def CallerWorld.Alters (keep : Bool) (w : CallerWorld α) (t : Slice) : CallerAct α → Prop
  | .assign v i x => ∃ s, w.vars[v]? = some s ∧ s.arr = t.arr ∧ i < s.len ∧ i < t.len ∧
      (w.store.read t)[i]? ≠ some x
  | .grow v xs => ∃ s, w.vars[v]? = some s ∧ w.store.Clobbers s xs t
  | .give b v => ∃ r s, w.refs[b]? = some r ∧ w.vars[v]? = some s ∧
      (keep = true → w.store.read r ≠ []) ∧ w.store.Clobbers r (w.store.read s) t
  | .pass b xs => ∃ r, w.refs[b]? = some r ∧ (keep = true → w.store.read r ≠ []) ∧
      w.store.Clobbers r xs t
  | _ => False

end Verif
