import Verif.Model.Construct
import Verif.Model.ParseJoin

/-!
# Strings as bytes

The rest of the model takes a Go string as the sequence of its runes. Here are the functions that
look into strings once more, on bytes, as they are in the code and in the Go library: package
`unicode/utf8`, `for range` over a string, `strings.Split`, `strings.TrimSpace`, `strings.Join`,
`strconv.Quote`, `strconv.ParseInt`, the comparison of strings. Bytes are combined with `|` and `>>`
in the library; this is written with `+` and `/`, as the bits of the operands are disjoint.
-/

namespace Verif.Raw

/-- A Go string. -/
abbrev Bytes := List UInt8

/-- `utf8.RuneError` -/
def runeError : Char := '�'

/-- `utf8.AppendRune` (Go library; used by `bytes.Buffer.WriteRune` at format/format.go:126, by the
conversion `string(buffer)` at lexer/lexer.go:186 and by `strconv.Quote`). Only for runes that are
characters; the others are never written by this code. -/
def appendRune (c : Char) : Bytes :=
  let n := c.toNat
  if n < 0x80 then [.ofNat n]
  else if n < 0x800 then [.ofNat (0xC0 + n / 64), .ofNat (0x80 + n % 64)]
  else if n < 0x10000 then
    [.ofNat (0xE0 + n / 4096), .ofNat (0x80 + n / 64 % 64), .ofNat (0x80 + n % 64)]
  else [.ofNat (0xF0 + n / 262144), .ofNat (0x80 + n / 4096 % 64), .ofNat (0x80 + n / 64 % 64),
    .ofNat (0x80 + n % 64)]

/-- The tables `first` and `acceptRanges` of package `utf8` for a byte that is not ASCII: the number
of bytes of the encoding that it begins, and the range of the second byte. -/
def leading (b : Nat) : Option (Nat × Nat × Nat) :=
  if b < 0xC2 then none
  else if b < 0xE0 then some (2, 0x80, 0xBF)
  else if b = 0xE0 then some (3, 0xA0, 0xBF)
  else if b = 0xED then some (3, 0x80, 0x9F)
  else if b < 0xF0 then some (3, 0x80, 0xBF)
  else if b = 0xF0 then some (4, 0x90, 0xBF)
  else if b < 0xF4 then some (4, 0x80, 0xBF)
  else if b = 0xF4 then some (4, 0x80, 0x8F)
  else none

/-- A continuation byte (`locb`, `hicb`). -/
def cont (b : Nat) : Bool := 0x80 ≤ b && b ≤ 0xBF

/-- `utf8.DecodeRune`, `utf8.DecodeRuneInString` (Go library): the rune at the front and the number
of bytes it takes; `(RuneError, 1)` for an invalid encoding. -/
def decodeRune : Bytes → Char × Nat
  | [] => (runeError, 0)
  | b0 :: rest =>
    if b0.toNat < 0x80 then (Char.ofNat b0.toNat, 1)
    else
      match leading b0.toNat with
      | none => (runeError, 1)
      | some (size, lo, hi) =>
        match rest with
        | [] => (runeError, 1)
        | b1 :: rest =>
          if b1.toNat < lo || hi < b1.toNat then (runeError, 1)
          else if size ≤ 2 then (Char.ofNat (b0.toNat % 32 * 64 + b1.toNat % 64), 2)
          else
            match rest with
            | [] => (runeError, 1)
            | b2 :: rest =>
              if !cont b2.toNat then (runeError, 1)
              else if size ≤ 3 then
                (Char.ofNat (b0.toNat % 16 * 4096 + b1.toNat % 64 * 64 + b2.toNat % 64), 3)
              else
                match rest with
                | [] => (runeError, 1)
                | b3 :: _ =>
                  if !cont b3.toNat then (runeError, 1)
                  else (Char.ofNat (b0.toNat % 8 * 262144 + b1.toNat % 64 * 4096
                    + b2.toNat % 64 * 64 + b3.toNat % 64), 4)

/-- The loop `for len(s) > 0 { r, w := utf8.DecodeRune(s); ...; s = s[w:] }`, with a bound: each rune
with the bytes it takes. -/
def unitsFuel : Nat → Bytes → List (Char × Bytes)
  | 0, _ => []
  | _, [] => []
  | n + 1, b :: rest =>
    let (c, w) := decodeRune (b :: rest)
    (c, (b :: rest).take w) :: unitsFuel n ((b :: rest).drop w)

/-- The runes of a string with the bytes they take. Each takes at least one. -/
def units (b : Bytes) : List (Char × Bytes) := unitsFuel b.length b

/-- `for _, char := range value` (format/format.go:73); also the runes read by
`bufio.Reader.ReadRune` (lexer/lexer.go:39). -/
def runes (b : Bytes) : Str := (units b).map (·.1)

/-- `string(buffer)` of a slice of runes (lexer/lexer.go:186), and a Go string literal. -/
def ofRunes (s : Str) : Bytes := s.flatMap appendRune

/-! ## format/format.go -/

/-- format/format.go:74-87, one rune. -/
def formatStringRune (c : Char) : Bytes :=
  if c = '\'' then [0x5C, 0x27]
  else if c = '\\' then [0x5C, 0x5C]
  else if c = '\n' then [0x5C, 0x6E]
  else if c = '\r' then [0x5C, 0x72]
  else if c = '\t' then [0x5C, 0x74]
  else appendRune c

/-- format/format.go:70-91 `String` -/
def formatString (b : Bytes) : Bytes := [0x27] ++ (runes b).flatMap formatStringRune ++ [0x27]

/-! ## Package strings -/

/-- `strings.Split(s, sep)` for a separator of one byte (stmt/stmt.go:20, builder/builder.go:98,
:154). -/
def splitOn (sep : UInt8) : Bytes → List Bytes
  | [] => [[]]
  | c :: cs =>
    if c = sep then [] :: splitOn sep cs
    else match splitOn sep cs with
      | [] => [[c]]
      | p :: ps => (c :: p) :: ps

/-- `strings.Join(parts, sep)` (stmt/stmt.go:25). -/
def joinWith (sep : Bytes) : List Bytes → Bytes
  | [] => []
  | [p] => p
  | p :: q :: ps => p ++ sep ++ joinWith sep (q :: ps)

/-- `<` on strings (stmt/set.go:131-134). -/
def less : Bytes → Bytes → Bool
  | [], [] => false
  | [], _ :: _ => true
  | _ :: _, [] => false
  | a :: s, b :: t => a.toNat < b.toNat || (a.toNat = b.toNat && less s t)

/-! ### strings.TrimSpace -/

/-- The table `asciiSpace` of package strings. -/
def asciiSpace (b : UInt8) : Bool :=
  b = 0x09 || b = 0x0A || b = 0x0B || b = 0x0C || b = 0x0D || b = 0x20

/-- `strings.TrimLeftFunc(s, unicode.IsSpace)`, with a bound. -/
def trimLeftFuel : Nat → Bytes → Bytes
  | 0, b => b
  | _, [] => []
  | n + 1, b :: rest =>
    let (c, w) := decodeRune (b :: rest)
    if isSpace c then trimLeftFuel n ((b :: rest).drop w) else b :: rest

/-- `strings.TrimLeftFunc(s, unicode.IsSpace)` -/
def trimLeft (b : Bytes) : Bytes := trimLeftFuel b.length b

/-- `utf8.RuneStart`: not a continuation byte. -/
def runeStart (b : UInt8) : Bool := !cont b.toNat

/-- The loop of `utf8.DecodeLastRune` that looks for the beginning of the last rune: how many bytes
before the last one, at most `k` tried. `rev` are the bytes before the last one, from the last to the
first. If none of `k` bytes begins a rune, one more byte is taken if there is one. -/
def lastStart : Nat → Bytes → Nat
  | _, [] => 0
  | 0, _ :: _ => 1
  | k + 1, b :: rev => if runeStart b then 1 else 1 + lastStart k rev

/-- `utf8.DecodeLastRuneInString` (Go library): the last rune and the number of bytes it takes. -/
def decodeLastRune (b : Bytes) : Char × Nat :=
  match b.reverse with
  | [] => (runeError, 0)
  | x :: rev =>
    if x.toNat < 0x80 then (Char.ofNat x.toNat, 1)
    else
      let n := lastStart 3 rev + 1
      let (c, w) := decodeRune (b.drop (b.length - n))
      if w ≠ n then (runeError, 1) else (c, w)

/-- `strings.TrimRightFunc(s, unicode.IsSpace)`, with a bound. The library computes the index of the
last rune that is not a space and cuts behind that rune; here the last rune is dropped as long as it
is a space, which is the same, as what remains ends with the same rune. -/
def trimRightFuel : Nat → Bytes → Bytes
  | 0, b => b
  | n + 1, b =>
    if b = [] then []
    else
      let (c, w) := decodeLastRune b
      if isSpace c then trimRightFuel n (b.take (b.length - w)) else b

/-- `strings.TrimRightFunc(s, unicode.IsSpace)` -/
def trimRight (b : Bytes) : Bytes := trimRightFuel b.length b

/-- The second loop of `strings.TrimSpace`, on the reversed string. -/
def trimSpaceEnd : Bytes → Bytes
  | [] => []
  | x :: rev =>
    if 0x80 ≤ x.toNat then trimRight (x :: rev).reverse
    else if asciiSpace x then trimSpaceEnd rev
    else (x :: rev).reverse

/-- `strings.TrimSpace` (Go library; builder/builder.go:58, :100, :156): ASCII white space first, and
all white space from the first other byte on. -/
def trimSpace : Bytes → Bytes
  | [] => []
  | x :: b =>
    if 0x80 ≤ x.toNat then trimRight (trimLeft (x :: b))
    else if asciiSpace x then trimSpace b
    else trimSpaceEnd (x :: b).reverse

/-! ### strconv.ParseInt -/

/-- The digits of `strconv.ParseUint(s, 10, 64)` (Go library), as in `Verif.parseDigits`. -/
def parseDigits (acc : Nat) : Bytes → Option Nat
  | [] => some acc
  | x :: b =>
    if 0x30 ≤ x.toNat ∧ x.toNat ≤ 0x39 then parseDigits (acc * 10 + (x.toNat - 0x30)) b else none

/-- `strconv.ParseInt(s, 10, 64)` (Go library; builder/builder.go:315), as in `Verif.parseInt64`. -/
def parseInt64 (b : Bytes) : Option Int :=
  let sign : Bool × Bytes :=
    match b with
    | 0x2B :: r => (false, r)
    | 0x2D :: r => (true, r)
    | r => (false, r)
  match sign with
  | (_, []) => none
  | (neg, ds) =>
    match parseDigits 0 ds with
    | none => none
    | some n =>
      if neg then (if n ≤ 2 ^ 63 then some (-(n : Int)) else none)
      else (if n < 2 ^ 63 then some (n : Int) else none)

/-! ## strconv.Quote and identifiers -/

section
variable [GoRuntime]

/-- One step of `strconv.Quote` (Go library, `appendQuotedWith`, `appendEscapedRune` with quote `"`):
an invalid byte is written `\xHH`. -/
def quoteUnit (u : Char × Bytes) : Bytes :=
  let c := u.1
  if u.2.length = 1 ∧ c = runeError then
    ofRunes (s%"\\x" ++ hexFixed 2 ((u.2.headD 0).toNat))
  else if c = '"' || c = '\\' then [0x5C] ++ appendRune c
  else if GoRuntime.isPrint c then appendRune c
  else if c.toNat = 7 then ofRunes s%"\\a"
  else if c.toNat = 8 then ofRunes s%"\\b"
  else if c.toNat = 12 then ofRunes s%"\\f"
  else if c = '\n' then ofRunes s%"\\n"
  else if c = '\r' then ofRunes s%"\\r"
  else if c = '\t' then ofRunes s%"\\t"
  else if c.toNat = 11 then ofRunes s%"\\v"
  else if c.toNat < 32 || c.toNat = 0x7f then ofRunes (s%"\\x" ++ hexFixed 2 c.toNat)
  else if c.toNat < 0x10000 then ofRunes (s%"\\u" ++ hexFixed 4 c.toNat)
  else ofRunes (s%"\\U" ++ hexFixed 8 c.toNat)

/-- `strconv.Quote` (Go library; stmt/stmt.go:23). -/
def goQuote (b : Bytes) : Bytes := [0x22] ++ (units b).flatMap quoteUnit ++ [0x22]

/-- stmt/stmt.go:19-26 `quote` -/
def quote (ident : Bytes) : Bytes := joinWith [0x2E] ((splitOn 0x2E ident).map goQuote)

end

/-! ## Join strings -/

/-- lexer/lexer.go:69-79 `Iterator` on the runes that the reader delivers, with the values of the
tokens as bytes. -/
def lexAll (b : Bytes) : List (TokType × Bytes) :=
  (Verif.lexAll (runes b)).map fun t => (t.type, ofRunes t.value)

end Verif.Raw
