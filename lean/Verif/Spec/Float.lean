import Verif.Spec.Read

/-!
# Binary floating-point numbers and decimal numerals

IEEE 754 numbers are given by their bits. All comparisons are between integers: a numeral denotes
`N / 10 ^ k`, and a number of a format is a multiple of the smallest positive number of the format,
which is `1 / 2 ^ s`.
-/

namespace Verif.Spec

/-- The magnitude of the number with these bits (the sign left out) in a format with `f` fraction
bits, as a multiple of the smallest positive number of the format. The bits of infinity give the
number that would follow the largest one. -/
def ieeeUnits (f n : Nat) : Nat :=
  if n < 2 ^ f then n else (2 ^ f + n % 2 ^ f) * 2 ^ (n / 2 ^ f - 1)

/-- A binary format: the number of fraction bits, the exponent `s` of the smallest positive number
`1 / 2 ^ s`, and the bits of infinity. -/
structure FloatFormat where
  fraction : Nat
  smallest : Nat
  infinity : Nat

/-- Go `float64`, PostgreSQL `double precision`. -/
def binary64 : FloatFormat := ⟨52, 1074, 2047 * 2 ^ 52⟩

/-- Go `float32`, PostgreSQL `real`. -/
def binary32 : FloatFormat := ⟨23, 149, 255 * 2 ^ 23⟩

/-- The distance between the decimal `N / 10 ^ k` and the number with the bits `n`, multiplied by
`10 ^ k * 2 ^ s`. -/
def distance (F : FloatFormat) (N k n : Nat) : Nat :=
  ((N * 2 ^ F.smallest : Nat) - (ieeeUnits F.fraction n * 10 ^ k : Nat) : Int).natAbs

/-- Round to nearest, ties to even (IEEE 754): converted to the format, `N / 10 ^ k` becomes the
finite number with the bits `n`. -/
def RoundsTo (F : FloatFormat) (N k n : Nat) : Prop :=
  n < F.infinity ∧ ∀ m ≤ F.infinity, m ≠ n →
    distance F N k n < distance F N k m ∨ (distance F N k n = distance F N k m ∧ n % 2 = 0)

/-- A numeral, digits with or without a point and digits after it: `(N, k)` for `N / 10 ^ k`. -/
def readDecimal (t : Str) : Option (Nat × Nat) :=
  match t.dropWhile (· ≠ '.') with
  | [] => (readNat t).map fun n => (n, 0)
  | _ :: fs =>
    (readNat (t.takeWhile (· ≠ '.'))).bind fun i =>
      (readNat fs).map fun f => (i * 10 ^ fs.length + f, fs.length)

/-- A numeral with or without a minus sign. -/
def readNumeral : Str → Option (Bool × Nat × Nat)
  | '-' :: t => (readDecimal t).map fun d => (true, d)
  | t => (readDecimal t).map fun d => (false, d)

/-- The text is a numeral that becomes the finite number with this sign and these bits when it is
read as a number of the format. -/
def Denotes (F : FloatFormat) (t : Str) (negative : Bool) (n : Nat) : Prop :=
  ∃ N k, readNumeral t = some (negative, N, k) ∧ RoundsTo F N k n

end Verif.Spec
