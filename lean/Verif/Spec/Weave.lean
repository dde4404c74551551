import Verif.Spec.Layout

/-!
# Texts made of fixed fragments and placeholders
-/

namespace Verif.Spec

/-- The decimal numeral of a number (Lean's own `Nat.toDigits`). -/
def numeral (n : Nat) : Str := Nat.toDigits 10 n

/-- Fragments and placeholders in alternation, starting with a fragment. -/
def weave : List Str → List Str → Str
  | [], _ => []
  | f :: _, [] => f
  | f :: fs, h :: hs => f ++ h ++ weave fs hs

/-- `$k, $(k+1), ..., $(k+n-1)` -/
def dollars (k n : Nat) : List Str := (List.range' k n).map fun i => s%"$" ++ numeral i

/-- `:arg_k, :arg_(k+1), ..., :arg_(k+n-1)` -/
def colons (k n : Nat) : List Str := (List.range' k n).map fun i => s%":arg_" ++ numeral i

/-- `arg_1, ..., arg_n` -/
def argNames (n : Nat) : List Str := (List.range' 1 n).map fun i => s%"arg_" ++ numeral i

/-- The arguments of a named query: no map at all when there is no argument. -/
def namedArgs (args : List Val) : Option (List (Str × Val)) :=
  if args.isEmpty then none else some ((argNames args.length).zip args)

/-- Put a text in front of the first fragment. -/
def prepend (t : Str) : List Str → List Str
  | [] => [t]
  | f :: fs => (t ++ f) :: fs

/-- The texts before, between and after the placeholders. -/
def fragments [GoRuntime] : List Piece → List Str
  | [] => [[]]
  | .sql t :: l => prepend t (fragments l)
  | .name s :: l => prepend (quote s) (fragments l)
  | .raw t :: l => prepend t (fragments l)
  | .note c :: l => prepend (s%"; -- " ++ c) (fragments l)
  | .val v :: l =>
    match v with
    | .nil => prepend s%"NULL" (fragments l)
    | _ => [] :: fragments l

end Verif.Spec
