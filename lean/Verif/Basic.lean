import Lean.Elab.Term
import Lean.Meta.AppBuilder

/-!
# Basic notions shared by the model: strings, panics.
-/

namespace Verif

/-- A Go string, restricted to valid UTF-8: the sequence of its runes.
Simplification: Go strings holding invalid UTF-8 are not represented. The functions that look into
strings are modelled on bytes as well (Verif.Model.Utf8), and shown to agree (C64). -/
abbrev Str := List Char

open Lean Elab Term Meta in
/-- `s%"abc"` is the list `['a', 'b', 'c']` (a Go string literal). -/
elab:max "s%" s:str : term => do
  mkListLit (mkConst ``Char) (s.getString.toList.map toExpr)

/-- Ways a Go call can panic. -/
inductive Panic where
  /-- `panic("...")`; messages built with `%T`/`%+v` are kept as their constant part. -/
  | msg (s : String)
  /-- method call on a nil interface, or nil pointer dereference -/
  | nilDeref
  /-- slice index out of range -/
  | index
deriving DecidableEq, Repr

/-- The result of a Go call that may panic. -/
abbrev Go := Except Panic

namespace Go

/-- `panic(m)`. -/
def panic {α : Type} (m : String) : Go α := .error (.msg m)

/-- Go `a || b` where evaluating an operand may panic (the right operand is
only evaluated when the left one is false). -/
def or (a b : Go Bool) : Go Bool :=
  match a with
  | .error p => .error p
  | .ok true => .ok true
  | .ok false => b

end Go

instance {ε α : Type} [DecidableEq ε] [DecidableEq α] : DecidableEq (Except ε α)
  | .error a, .error b => if h : a = b then isTrue (h ▸ rfl) else isFalse (fun e => h (by cases e; rfl))
  | .ok a, .ok b => if h : a = b then isTrue (h ▸ rfl) else isFalse (fun e => h (by cases e; rfl))
  | .error _, .ok _ => isFalse (fun e => by cases e)
  | .ok _, .error _ => isFalse (fun e => by cases e)

end Verif
