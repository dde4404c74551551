import Verif.Spec.Compare

/-!
# Sequences of condition calls
-/

namespace Verif.Spec

/-- The three methods adding a condition to a builder. -/
inductive CondCall where
  | whr | and | or
deriving DecidableEq, Repr

/-- The connective with which a further condition is added. -/
def CondCall.word : CondCall → Str
  | .whr => s%"AND"
  | .and => s%"AND"
  | .or => s%"OR"

/-- The text of a condition `t` after further conditions were added: every call combines all
that came before with its own condition. -/
def foldText (t : Str) : List (CondCall × Str) → Str
  | [] => t
  | (c, u) :: l => foldText (s%"(" ++ t ++ s%" " ++ c.word ++ s%" " ++ u ++ s%")") l

/-- A sequence of calls on a builder, `step` being one call. -/
def runCalls {β : Type} (step : β → CondCall → Expr → Go β) : β → List (CondCall × Expr) → Go β
  | b, [] => .ok b
  | b, (c, e) :: l =>
    match step b c e with
    | .error p => .error p
    | .ok b' => runCalls step b' l

/-- The calls that last: those after the last call with an empty condition. -/
def lasting (calls : List (CondCall × Expr)) : List (CondCall × Expr) :=
  (calls.reverse.takeWhile fun x => !blank x.2).reverse

/-- The clause made of conditions with these texts: no clause if there is none. -/
def whereText : List (CondCall × Str) → Str
  | [] => []
  | (_, u) :: l => s%" WHERE " ++ foldText u l

/-- The text of a condition in the clause: a sub-select is in parentheses. -/
def OperandText [GoRuntime] (x : CondCall × Expr) (t : CondCall × Str) : Prop :=
  t.1 = x.1 ∧ ∃ r, x.2.write.string = .ok r ∧ t.2 = operandOf true x.2 r

end Verif.Spec
