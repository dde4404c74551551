import Verif.Spec.Read

/-!
# The text of a slice

Go prints a slice as its elements, with spaces between them, in brackets.
-/

namespace Verif.Spec

/-- The parts of a text between its spaces. -/
def splitBlanks : Str → List Str
  | [] => [[]]
  | c :: t =>
    if c = ' ' then [] :: splitBlanks t
    else
      match splitBlanks t with
      | [] => [[c]]
      | p :: ps => (c :: p) :: ps

/-- The elements of a slice as far as its text shows them. -/
def readItems : Str → Option (List Str)
  | '[' :: t =>
    match t.reverse with
    | ']' :: u => some (if u = [] then [] else splitBlanks u.reverse)
    | _ => none
  | _ => none

/-- Numbers read from their numerals. -/
def readInts : List Str → Option (List Int)
  | [] => some []
  | t :: l => (readInt t).bind fun n => (readInts l).map (n :: ·)

end Verif.Spec
