import Verif.Basic

/-!
# How PostgreSQL reads quoted identifiers, literals and numerals

Small readers written from the PostgreSQL documentation (4.1. Lexical Structure), independent
of the model.  Each returns what was read and the rest of the text.
-/

namespace Verif.Spec

/-! ## Quoted text -/

/-- The inside of a text quoted by `q`, where `q` is written `qq`, up to the closing `q`. -/
def readBody (q : Char) : Str → Option (Str × Str)
  | [] => none
  | c :: s =>
    if c = q then
      match s with
      | [] => some ([], [])
      | d :: s' =>
        if d = q then
          match readBody q s' with
          | none => none
          | some (x, r) => some (q :: x, r)
        else some ([], d :: s')
    else
      match readBody q s with
      | none => none
      | some (x, r) => some (c :: x, r)

/-- A text quoted by `q`. -/
def readQuoted (q : Char) : Str → Option (Str × Str)
  | [] => none
  | c :: s => if c = q then readBody q s else none

/-- A quoted identifier; the empty identifier is refused. -/
def readIdent (s : Str) : Option (Str × Str) :=
  match readQuoted '"' s with
  | some ([], _) => none
  | r => r

/-- Quoted identifiers separated by dots (at most `n` of them). -/
def readNameUpTo : Nat → Str → Option (List Str × Str)
  | 0, _ => none
  | n + 1, s =>
    match readIdent s with
    | none => none
    | some (x, '.' :: r) =>
      match readNameUpTo n r with
      | none => none
      | some (xs, r') => some (x :: xs, r')
    | some (x, r) => some ([x], r)

/-- A dotted name. -/
def readName (s : Str) : Option (List Str × Str) := readNameUpTo s.length s

/-- Printable ASCII other than double quote, backslash and dot. -/
def ordinary (c : Char) : Prop :=
  32 ≤ c.toNat ∧ c.toNat ≤ 126 ∧ c ≠ '"' ∧ c ≠ '\\' ∧ c ≠ '.'

instance (c : Char) : Decidable (ordinary c) := inferInstanceAs (Decidable (_ ∧ _))

/-- A string literal under `standard_conforming_strings = on`: backslash is an ordinary
character. -/
def readStd (s : Str) : Option (Str × Str) := readQuoted '\'' s

/-- The inside of a literal with backslash escapes (`E'...'`, or any literal under
`standard_conforming_strings = off`). Escapes with digits, `x`, `u` and `U` are refused. -/
def readEscBody : Str → Option (Str × Str)
  | [] => none
  | '\'' :: s =>
    match s with
    | '\'' :: s' =>
      match readEscBody s' with
      | none => none
      | some (x, r) => some ('\'' :: x, r)
    | s => some ([], s)
  | '\\' :: s =>
    match s with
    | [] => none
    | d :: s' =>
      let e : Option Char :=
        if d = 'b' then some '\x08'
        else if d = 'f' then some '\x0c'
        else if d = 'n' then some '\n'
        else if d = 'r' then some '\r'
        else if d = 't' then some '\t'
        else if d = 'x' || d = 'u' || d = 'U' || ('0' ≤ d && d ≤ '9') then none
        else some d
      match e with
      | none => none
      | some e =>
        match readEscBody s' with
        | none => none
        | some (x, r) => some (e :: x, r)
  | c :: s =>
    match readEscBody s with
    | none => none
    | some (x, r) => some (c :: x, r)

/-- A literal with backslash escapes. -/
def readEsc : Str → Option (Str × Str)
  | '\'' :: s => readEscBody s
  | _ => none

/-! ## Numerals -/

/-- The value of a decimal digit. -/
def digitValue (c : Char) : Option Nat :=
  if '0' ≤ c ∧ c ≤ '9' then some (c.toNat - 48) else none

/-- The value of a sequence of decimal digits, most significant first. -/
def digitsValue (acc : Nat) : Str → Option Nat
  | [] => some acc
  | c :: s =>
    match digitValue c with
    | none => none
    | some d => digitsValue (10 * acc + d) s

/-- The number denoted by a non-empty sequence of digits. -/
def readNat : Str → Option Nat
  | [] => none
  | s => digitsValue 0 s

/-- The number denoted by an optional minus sign and digits. -/
def readInt : Str → Option Int
  | '-' :: s => (readNat s).map fun n => -(n : Int)
  | s => (readNat s).map fun n => (n : Int)

/-- No superfluous characters: no leading zero, no negative zero. -/
def canonical : Str → Bool
  | ['0'] => true
  | '-' :: c :: s => '1' ≤ c && c ≤ '9' && s.all fun d => '0' ≤ d && d ≤ '9'
  | c :: s => '1' ≤ c && c ≤ '9' && s.all fun d => '0' ≤ d && d ≤ '9'
  | [] => false

/-! ## Hexadecimal -/

/-- The value of a lower-case hexadecimal digit. -/
def hexValue (c : Char) : Option Nat :=
  if '0' ≤ c ∧ c ≤ '9' then some (c.toNat - 48)
  else if 'a' ≤ c ∧ c ≤ 'f' then some (c.toNat - 87)
  else none

/-- PostgreSQL `decode(text, 'hex')` on lower-case digits. -/
def unhex : Str → Option (List UInt8)
  | [] => some []
  | [_] => none
  | a :: b :: s =>
    match hexValue a, hexValue b, unhex s with
    | some x, some y, some l => some (UInt8.ofNat (16 * x + y) :: l)
    | _, _, _ => none

end Verif.Spec
