import Verif.Spec.Sql
import Verif.Spec.Calendar
import Verif.Spec.Float

/-!
# Reading statements whose values are named, or written as literals

The reader of `Verif.Spec.Sql` puts arguments in the place of `$1`, `$2`, ... Here are the readers
of the two other texts: of one with named placeholders `:name` and a map of arguments, and of one
that contains its values as literals.

Nothing here refers to the model, except for the type of argument values.
-/

namespace Verif.Spec

/-- The statement that these lexemes are, with or without a semicolon at the end. -/
def readLexemes (ls : List Lexeme) : Option SqlStmt :=
  match readAny (10 * ls.length + 10) ls with
  | some (s, []) => some s
  | some (s, [.tok (.sym ';')]) => some s
  | _ => none

/-! ## Named placeholders -/

/-- The argument with a name. -/
def argumentNamed (args : List (Str × Val)) (w : Str) : Option Val :=
  match args with
  | [] => none
  | (n, v) :: l => if n = w then some v else argumentNamed l w

/-- Put the argument called `w` in the place of `:w`. Numbered placeholders are refused. -/
def supplyNamed (args : List (Str × Val)) : List SqlTok → Option (List Lexeme)
  | [] => some []
  | .param _ :: _ => none
  | .sym c :: l =>
    if c = ':' then
      match l with
      | .word w :: r =>
        match argumentNamed args w, supplyNamed args r with
        | some v, some ls => some (.value v :: ls)
        | _, _ => none
      | _ => none
    else (supplyNamed args l).map (.tok (.sym c) :: ·)
  | t :: l => (supplyNamed args l).map (.tok t :: ·)

/-- The statement that a text stands for with these named arguments. -/
def readNamed (backslash : Bool) (text : Str) (args : List (Str × Val)) : Option SqlStmt :=
  (tokens backslash text).bind fun ts => (supplyNamed args ts).bind readLexemes

/-! ## Literals -/

/-- The string that a literal denotes, given what is between its quotes. -/
def literalText (backslash : Bool) (t : Str) : Option Str :=
  match (if backslash then readEsc else readStd) ('\'' :: t ++ ['\'']) with
  | some (s, []) => some s
  | _ => none

/-- What follows the word `decode` if it is a byte string: `('...', 'hex')` -/
def readHex (backslash : Bool) : List SqlTok → Option (List UInt8 × List SqlTok)
  | .sym p :: .literal t :: .sym c :: .literal u :: .sym q :: r =>
    if p = '(' ∧ c = ',' ∧ u = s%"hex" ∧ q = ')' then
      match (literalText backslash t).bind unhex with
      | some x => some (x, r)
      | none => none
    else none
  | _ => none

/-- A word: a key word or a name, unless it is a boolean. -/
def wordLexeme (w : Str) : Lexeme :=
  if w.map Char.toUpper = s%"TRUE" then .value (.bool true)
  else if w.map Char.toUpper = s%"FALSE" then .value (.bool false)
  else .tok (.word w)

/-- A number at the beginning, digits with or without a point and digits after it: `N` and `k` for
`N / 10 ^ k`, and the rest. -/
def numberTokens : List SqlTok → Option (Nat × Nat × List SqlTok)
  | .word w :: r =>
    match readNat w with
    | none => none
    | some i =>
      match r with
      | .sym c :: .word fs :: r' =>
        match if c = '.' then readNat fs else none with
        | some f => some (i * 10 ^ fs.length + f, fs.length, r')
        | none => some (i, 0, r)
      | _ => some (i, 0, r)
  | _ => none

open Classical in
/-- The number of the format that `N / 10 ^ k` becomes. -/
noncomputable def nearest (F : FloatFormat) (N k : Nat) : Nat :=
  if h : ∃ n, RoundsTo F N k n then h.choose else F.infinity

/-- The value of a number: an integer if it has no point, otherwise the `double precision` that it
becomes. -/
noncomputable def numberValue (negative : Bool) (N k : Nat) : Val :=
  if k = 0 then .int .int64 (if negative then -(N : Int) else N)
  else .float64 (BitVec.ofNat 64 ((if negative then 2 ^ 63 else 0) + nearest binary64 N k))

/-- What comes first among the tokens, and the rest: a string literal, a number with or without
sign, a boolean, a byte string `decode('...', 'hex')`, or any other token. The number after `LIMIT`
and `OFFSET` is left to the reader of these clauses. Placeholders are refused. -/
noncomputable def constant (backslash : Bool) : List SqlTok → Option (List Lexeme × List SqlTok)
  | [] => none
  | .param _ :: _ => none
  | .name n :: r => some ([.tok (.name n)], r)
  | .literal t :: r =>
    match literalText backslash t with
    | some s => some ([.value (.str s)], r)
    | none => none
  | .sym c :: r =>
    match if c = '-' then numberTokens r else none with
    | some (N, k, r') => some ([.value (numberValue true N k)], r')
    | none => some ([.tok (.sym c)], r)
  | .word w :: r =>
    if w = s%"LIMIT" ∨ w = s%"OFFSET" then
      match r with
      | .word ds :: r' => some ([.tok (.word w), .tok (.word ds)], r')
      | _ => none
    else if w = s%"decode" then
      match readHex backslash r with
      | some (x, r') => some ([.value (.bytes x)], r')
      | none => some ([.tok (.word w)], r)
    else
      match numberTokens (.word w :: r) with
      | some (N, k, r') => some ([.value (numberValue false N k)], r')
      | none => some ([wordLexeme w], r)

/-- The tokens with values in the place of literals (at most the number of steps given). -/
noncomputable def constants (backslash : Bool) : Nat → List SqlTok → Option (List Lexeme)
  | _, [] => some []
  | 0, _ => none
  | n + 1, ts =>
    match constant backslash ts with
    | none => none
    | some (x, r) => (constants backslash n r).map (x ++ ·)

/-- The statement that a text without placeholders stands for. -/
noncomputable def readText (backslash : Bool) (text : Str) : Option SqlStmt :=
  (tokens backslash text).bind fun ts => (constants backslash ts.length ts).bind readLexemes

/-! ## What literals keep of values -/

/-- The values that can be read from literals. Without backslash escapes, strings may not contain
the characters that are written with a backslash. NaN and the infinities are left out (they are
printed as bare words, C67), slices and other types (their texts are made by the Go runtime, C68),
and valuers that fail. -/
def Legible (backslash : Bool) : Val → Prop
  | .nil | .bytes _ | .bool _ | .int _ _ | .uint _ _ | .time _ _ | .valuerNil _ => True
  | .str s => backslash = true ∨ ∀ c ∈ s, c ≠ '\'' ∧ c ≠ '\\' ∧ c ≠ '\n' ∧ c ≠ '\r' ∧ c ≠ '\t'
  | .float64 x => x.toNat % 2 ^ 63 < 2047 * 2 ^ 52
  | .float32 x => x.toNat % 2 ^ 31 < 255 * 2 ^ 23
  | .valuerOk _ v => Legible backslash v
  | .valuerErr _ | .slice _ _ | .opaque _ _ => False

/-- `w` is the number of double precision with this sign and these bits, or an integer that becomes
this number (an integer does not tell minus zero from zero). -/
def SaysDouble (negative : Bool) (n : Nat) (w : Val) : Prop :=
  (∃ y : BitVec 64, w = .float64 y ∧ y.toNat % 2 ^ 63 = n ∧ decide (2 ^ 63 ≤ y.toNat) = negative) ∨
    ∃ z : Int, w = .int .int64 z ∧ RoundsTo binary64 z.natAbs 0 n ∧ (z ≠ 0 → decide (z < 0) = negative)

/-- `w` is what the literal of `v` says: the same string, bytes, boolean or number (of an integer
that fits its type, or of a finite float), a string that denotes the instant up to the microsecond
(for the years 0 to 9999), and for a valuer what the literal of its value says, `NULL` if it has
none. A number of single precision becomes the same number of double precision (`ieeeUnits` counts
multiples of `2 ^ -149` for the one and of `2 ^ -1074` for the other). -/
def SaidBy : Val → Val → Prop
  | .nil, w => w = .nil
  | .str s, w => w = .str s
  | .bytes x, w => w = .bytes x
  | .bool x, w => w = .bool x
  | .int k n, w => (Val.int k n).InRange → w = .int .int64 n
  | .uint k n, w => (Val.uint k n).InRange → w = .int .int64 n
  | .float64 x, w => x.toNat % 2 ^ 63 < 2047 * 2 ^ 52 →
      SaysDouble (decide (2 ^ 63 ≤ x.toNat)) (x.toNat % 2 ^ 63) w
  | .float32 x, w => x.toNat % 2 ^ 31 < 255 * 2 ^ 23 →
      ∃ n, SaysDouble (decide (2 ^ 31 ≤ x.toNat)) n w ∧
        ieeeUnits 52 n = ieeeUnits 23 (x.toNat % 2 ^ 31) * 2 ^ (1074 - 149)
  | .time ns _, w => ∃ t, w = .str t ∧
      (-62167219200 * 1000000000 ≤ ns → ns < 253402300800 * 1000000000 →
        ∃ us, readTimestamp ('\'' :: t ++ ['\'']) = some (us, []) ∧ us * 1000 ≤ ns ∧
          ns < (us + 1) * 1000)
  | .valuerNil _, w => w = .nil
  | .valuerOk _ v, w => SaidBy v w
  | _, _ => True

end Verif.Spec
