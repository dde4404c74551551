import Verif.Basic
import Verif.Spec.Weave

/-!
# Comparison methods and the SQL operators they stand for

Apart from the types of expressions and values, nothing here refers to the model.
-/

namespace Verif.Spec

/-- The comparison methods with one operand. -/
inductive Cmp where
  | Contains | IsContainedBy | Overlap | Equal | NotEqual | Is | IsNot | GreaterThan
  | GreaterThanOrEqual | LessThan | LessThanOrEqual | Like | NotLike | ILike | NotILike
  | IsDistinctFrom | IsNotDistinctFrom
deriving DecidableEq, Repr

/-- The SQL operator. -/
def Cmp.sql : Cmp → Str
  | .Contains => s%"@>"
  | .IsContainedBy => s%"<@"
  | .Overlap => s%"&&"
  | .Equal => s%"="
  | .NotEqual => s%"!="
  | .Is => s%"IS"
  | .IsNot => s%"IS NOT"
  | .GreaterThan => s%">"
  | .GreaterThanOrEqual => s%">="
  | .LessThan => s%"<"
  | .LessThanOrEqual => s%"<="
  | .Like => s%"LIKE"
  | .NotLike => s%"NOT LIKE"
  | .ILike => s%"ILIKE"
  | .NotILike => s%"NOT ILIKE"
  | .IsDistinctFrom => s%"IS DISTINCT FROM"
  | .IsNotDistinctFrom => s%"IS NOT DISTINCT FROM"

/-- The methods that put parentheses around a sub-select. -/
def Cmp.wraps : Cmp → Bool
  | .Contains | .IsContainedBy | .Overlap | .Equal | .NotEqual | .GreaterThan
  | .GreaterThanOrEqual | .LessThan | .LessThanOrEqual => true
  | _ => false

/-- Put parentheses around a text. -/
def paren (t : Str) : Str := s%"(" ++ t ++ s%")"

/-- A sub-select, or EXISTS of one. -/
def isSub : Expr → Bool
  | .select _ => true
  | .exist _ => true
  | .notExist _ => true
  | _ => false

/-- The text of a comparison, given the texts of its operands. -/
def comparisonText (left op right : Str) : Str := paren (left ++ s%" " ++ op ++ s%" " ++ right)

/-- The text of an operand `e` whose own text is `t`: between parentheses when it is a
sub-select and the position asks for it. -/
def operandOf (wraps : Bool) (e : Expr) (t : Str) : Str := if wraps && isSub e then paren t else t

/-- Texts separated by a comma and a space. -/
def commaText (l : List Str) : Str := List.intercalate s%", " l

/-- How values are shown, from placeholder `k` on: `NULL` for nil, otherwise the next
placeholder. -/
def marks (k : Nat) : List Val → List Str
  | [] => []
  | .nil :: l => s%"NULL" :: marks k l
  | _ :: l => (s%"$" ++ numeral k) :: marks (k + 1) l

/-- The values that are not nil. -/
def nonNil : List Val → List Val
  | [] => []
  | .nil :: l => nonNil l
  | v :: l => v :: nonNil l

/-- `IN` or `NOT IN`. -/
def inWord (negated : Bool) : Str := if negated then s%"NOT IN" else s%"IN"

/-- `BETWEEN` or `NOT BETWEEN`. -/
def betweenWord (negated : Bool) : Str := if negated then s%"NOT BETWEEN" else s%"BETWEEN"

end Verif.Spec
