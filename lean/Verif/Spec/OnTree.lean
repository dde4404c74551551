import Verif.Model.Lexer
import Verif.Model.Ast
import Verif.Spec.Condition

/-!
# Conditions of joins as trees, and the comparisons written in a sequence of tokens
-/

namespace Verif.Spec

/-- A condition of a join seen as a tree of comparisons `(left column, right column)` between
columns without alias; `none` for anything else. -/
def onTree : Expr → Option (Cond (Str × Str))
  | .onClause l r => if l.alias = [] ∧ r.alias = [] then some (.atom (l.name, r.name)) else none
  | .infx l (.logical op) r =>
    match onTree l, onTree r with
    | some x, some y =>
      if op = s%"AND" then some (.and x y) else if op = s%"OR" then some (.or x y) else none
    | _, _ => none
  | _ => none

/-- The comparison `literal = literal` at the front of a sequence of tokens. -/
def comparisonAt : List Tok → List (Str × Str)
  | a :: e :: b :: _ =>
    if a.type = s%"Literal" ∧ e.type = s%"=" ∧ b.type = s%"Literal" then [(a.value, b.value)]
    else []
  | _ => []

/-- The comparisons `literal = literal` found in a sequence of tokens, from the left. -/
def comparisons : List Tok → List (Str × Str)
  | [] => []
  | a :: rest => comparisonAt (a :: rest) ++ comparisons rest

end Verif.Spec
