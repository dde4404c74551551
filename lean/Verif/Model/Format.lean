import Verif.Model.Types

/-!
# `format/format.go`, `stmt/stmt.go: quote` and the library functions they use.
-/

namespace Verif

/-! ## Numbers -/

/-- `strconv.FormatUint(n, 10)` (Go library; used at format/format.go:106). -/
def formatNat (n : Nat) : Str := Nat.toDigits 10 n

/-- `strconv.FormatInt(n, 10)` (Go library; used at format/format.go:101,
stmt/limit.go:29, stmt/offset.go:29). -/
def formatInt (n : Int) : Str :=
  match n with
  | .ofNat m => formatNat m
  | .negSucc m => '-' :: formatNat (m + 1)

/-- Go conversion `int64(x)` of an integer: two's complement wrap-around. -/
def toInt64Wrap (n : Int) : Int := n.bmod (2 ^ 64)

/-- Go conversion `uint64(x)` of a non-negative integer: wrap-around. -/
def toUint64Wrap (n : Nat) : Nat := n % 2 ^ 64

/-! ## Hexadecimal -/

/-- Lower-case hex digit of a number below 16 (Go's `"0123456789abcdef"[n]`). -/
def hexDigit (n : Nat) : Char := Nat.digitChar n

/-- `hex.EncodeToString` (Go library; used at format/format.go:95). -/
def hexEncode (b : List UInt8) : Str :=
  b.flatMap (fun x => [hexDigit (x.toNat / 16), hexDigit (x.toNat % 16)])

/-- `width` hex digits of `n`, most significant first. -/
def hexFixed : Nat → Nat → Str
  | 0, _ => []
  | w + 1, n => hexFixed w (n / 16) ++ [hexDigit (n % 16)]

/-! ## strings package -/

/-- `strings.Split(s, string(sep))` for a one-rune separator: always at least one part. -/
def splitOn (sep : Char) : Str → List Str
  | [] => [[]]
  | c :: cs =>
    if c = sep then [] :: splitOn sep cs
    else match splitOn sep cs with
      | [] => [[c]]
      | p :: ps => (c :: p) :: ps

/-- `strings.Join(parts, sep)`. -/
def joinWith (sep : Str) : List Str → Str
  | [] => []
  | [p] => p
  | p :: q :: ps => p ++ sep ++ joinWith sep (q :: ps)

/-- `unicode.IsSpace`. -/
def isSpace (c : Char) : Bool :=
  c = '\t' || c = '\n' || c = '\x0b' || c = '\x0c' || c = '\r' || c = ' ' ||
  c.toNat = 0x85 || c.toNat = 0xA0 || c.toNat = 0x1680 ||
  (0x2000 ≤ c.toNat && c.toNat ≤ 0x200a) ||
  c.toNat = 0x2028 || c.toNat = 0x2029 || c.toNat = 0x202f || c.toNat = 0x205f ||
  c.toNat = 0x3000

/-- `strings.TrimSpace`. -/
def trimSpace (s : Str) : Str :=
  (s.dropWhile isSpace).reverse.dropWhile isSpace |>.reverse

/-! ## strconv.Quote and identifiers -/

section
variable [GoRuntime]

/-- One rune of `strconv.Quote` (Go library, `appendEscapedRune` with quote `"`). -/
def quoteRune (c : Char) : Str :=
  if c = '"' || c = '\\' then ['\\', c]
  else if GoRuntime.isPrint c then [c]
  else if c.toNat = 7 then s%"\\a"
  else if c.toNat = 8 then s%"\\b"
  else if c.toNat = 12 then s%"\\f"
  else if c = '\n' then s%"\\n"
  else if c = '\r' then s%"\\r"
  else if c = '\t' then s%"\\t"
  else if c.toNat = 11 then s%"\\v"
  else if c.toNat < 32 || c.toNat = 0x7f then s%"\\x" ++ hexFixed 2 c.toNat
  else if c.toNat < 0x10000 then s%"\\u" ++ hexFixed 4 c.toNat
  else s%"\\U" ++ hexFixed 8 c.toNat

/-- `strconv.Quote` (Go library; used at stmt/stmt.go:23). -/
def goQuote (s : Str) : Str := s%"\"" ++ s.flatMap quoteRune ++ s%"\""

/-- stmt/stmt.go:19-26 `quote` -/
def quote (ident : Str) : Str :=
  joinWith s%"." ((splitOn '.' ident).map goQuote)

end

/-! ## format/format.go -/

/-- format/format.go:70-91 `String`, one rune of the loop body. -/
def formatStringRune (c : Char) : Str :=
  if c = '\'' then s%"\\'"
  else if c = '\\' then s%"\\\\"
  else if c = '\n' then s%"\\n"
  else if c = '\r' then s%"\\r"
  else if c = '\t' then s%"\\t"
  else [c]

/-- format/format.go:70-91 `String` -/
def formatString (s : Str) : Str := s%"'" ++ s.flatMap formatStringRune ++ s%"'"

/-- format/format.go:94-97 `Bytes` -/
def formatBytes (b : List UInt8) : Str := s%"decode('" ++ hexEncode b ++ s%"', 'hex')"

/-- format/format.go:110-112 `Bool` -/
def formatBool (b : Bool) : Str := if b then s%"true" else s%"false"

/-! ### Time -/

/-- Calendar fields of an instant in UTC. -/
structure Civil where
  year : Int
  month : Nat
  day : Nat
  hour : Nat
  minute : Nat
  second : Nat
  nano : Nat
deriving DecidableEq, Repr

/-- `time.Time.UTC()` followed by field extraction (Go library; used at
format/format.go:121): proleptic Gregorian date of an instant given in
nanoseconds since 1970-01-01T00:00:00Z. -/
def civilOf (ns : Int) : Civil :=
  let secs := ns.fdiv 1000000000
  let nano := (ns.fmod 1000000000).toNat
  let days := secs.fdiv 86400
  let sod := (secs.fmod 86400).toNat
  -- days since 0000-03-01
  let z := days + 719468
  let era := z.fdiv 146097
  let doe := (z.fmod 146097).toNat
  let yoe := (doe - doe / 1460 + doe / 36524 - doe / 146096) / 365
  let doy := doe - (365 * yoe + yoe / 4 - yoe / 100)
  let mp := (5 * doy + 2) / 153
  let d := doy - (153 * mp + 2) / 5 + 1
  let m := if mp < 10 then mp + 3 else mp - 9
  let y := (yoe : Int) + era * 400 + (if m ≤ 2 then 1 else 0)
  { year := y, month := m, day := d, hour := sod / 3600, minute := sod % 3600 / 60,
    second := sod % 60, nano := nano }

/-- Decimal numeral padded with zeros to at least `w` digits (Go library
`appendInt` for non-negative numbers). -/
def padNat (w n : Nat) : Str :=
  let d := formatNat n
  List.replicate (w - d.length) '0' ++ d

/-- Go `appendInt(year, 4)`: sign, then at least four digits. -/
def padYear (y : Int) : Str :=
  match y with
  | .ofNat n => padNat 4 n
  | .negSucc n => '-' :: padNat 4 (n + 1)

/-- Drop trailing zeros (layout `.999999`). -/
def dropTrailingZeros (s : Str) : Str := (s.reverse.dropWhile (· = '0')).reverse

/-- The fraction written for layout `.999999`: microseconds, truncated, without
trailing zeros, nothing at all when zero. -/
def formatMicros (nano : Nat) : Str :=
  match dropTrailingZeros (padNat 6 (nano / 1000)) with
  | [] => []
  | ds => '.' :: ds

/-- format/format.go:120-122 `Time` -/
def formatTime (ns : Int) : Str :=
  let c := civilOf ns
  s%"'" ++ padYear c.year ++ s%"-" ++ padNat 2 c.month ++ s%"-" ++ padNat 2 c.day ++ s%" "
    ++ padNat 2 c.hour ++ s%":" ++ padNat 2 c.minute ++ s%":" ++ padNat 2 c.second
    ++ formatMicros c.nano ++ s%"+00'"

/-! ### Floats

`strconv.FormatFloat(x, 'f', -1, 64)` is a function of the Go library. What is modelled is its
documented result, the decimal with the fewest digits that reads back as the number; the search is
that of `roundShortest` of the Go library (the one used there when the faster methods do not apply). -/

/-- The magnitude of the binary64 number with these bits (the sign left out), as a multiple of the
smallest positive one. The bits of infinity give the number that would come next. -/
def floatUnits (n : Nat) : Nat :=
  if n / 2 ^ 52 = 0 then n % 2 ^ 52 else (2 ^ 52 + n % 2 ^ 52) * 2 ^ (n / 2 ^ 52 - 1)

/-- `d` times `10 ^ p` is so close to the number with these bits that it reads back as that number:
between the points half-way to the neighbours. These points themselves qualify if the last bit is
zero. -/
def readsBack (n : Nat) (d : Nat) (p : Int) : Bool :=
  let lower := (floatUnits (n - 1) + floatUnits n) * 10 ^ (-p).toNat
  let upper := (floatUnits n + floatUnits (n + 1)) * 10 ^ (-p).toNat
  let x := d * 10 ^ p.toNat * 2 ^ 1075
  if n % 2 = 0 then lower ≤ x && x ≤ upper else lower < x && x < upper

/-- The search from the power of ten `p` downwards: the multiples of `10 ^ p` next to the number,
below and above, are tried; if both read back then the nearer one is taken (the even one if there is
no nearer one). -/
def shortest (n : Nat) : Nat → Int → Nat × Int
  | 0, p => (0, p)
  | fuel + 1, p =>
    let num := 2 * floatUnits n * 10 ^ (-p).toNat
    let den := 2 ^ 1075 * 10 ^ p.toNat
    let d := num / den
    match readsBack n d p, readsBack n (d + 1) p with
    | true, true =>
      if 2 * (num % den) < den then (d, p)
      else if 2 * (num % den) > den then (d + 1, p)
      else if d % 2 = 0 then (d, p) else (d + 1, p)
    | true, false => (d, p)
    | false, true => (d + 1, p)
    | false, false => shortest n fuel (p - 1)

/-- `d` times `10 ^ p` without exponent (Go library, `fmtF`). -/
def formatDecimal (d : Nat) (p : Int) : Str :=
  if 0 ≤ p then formatNat (d * 10 ^ p.toNat)
  else
    formatNat (d / 10 ^ (-p).toNat) ++ s%"." ++ padNat (-p).toNat (d % 10 ^ (-p).toNat)

/-- format/format.go:115-117 `Float`. The numbers are below `10 ^ 309`, and all are multiples of
`10 ^ -1074`, so 1384 powers of ten suffice (`shortest_reads` in `Verif.Lemmas.Float`). -/
def formatFloat (x : BitVec 64) : Str :=
  let n := x.toNat % 2 ^ 63
  let neg : Bool := 2 ^ 63 ≤ x.toNat
  if n > 2047 * 2 ^ 52 then s%"NaN"
  else if n = 2047 * 2 ^ 52 then (if neg then s%"-Inf" else s%"+Inf")
  else
    (if neg then s%"-" else []) ++
      (if n = 0 then s%"0"
       else
        let r := shortest n 1384 309
        formatDecimal r.1 r.2)

/-- The bits (without sign) of the binary64 number equal to the finite binary32 number with these
bits: a number below the smallest normal one is normalised. -/
def widenBits (n : Nat) : Nat :=
  if n / 2 ^ 23 = 0 then
    if n = 0 then 0 else (n.log2 + 874) * 2 ^ 52 + (n - 2 ^ n.log2) * 2 ^ (52 - n.log2)
  else (n / 2 ^ 23 + 896) * 2 ^ 52 + n % 2 ^ 23 * 2 ^ 29

/-- The conversion `float64(x)` of a float32 (format/format.go:61). -/
def widen (x : BitVec 32) : BitVec 64 :=
  let n := x.toNat % 2 ^ 31
  let sign := x.toNat / 2 ^ 31 * 2 ^ 63
  if 255 * 2 ^ 23 ≤ n then BitVec.ofNat 64 (sign + 2047 * 2 ^ 52 + n % 2 ^ 23 * 2 ^ 29)
  else BitVec.ofNat 64 (sign + widenBits n)

section
variable [GoRuntime]

/-- An element of a slice as `fmt.Sprint` prints it: a string as it is, without quotes. (The
elements of a slice all have its type.) -/
def sprintElem : ElemKind → Val → Str
  | .string, .str s => s
  | .int _, .int _ n => formatInt n
  | .uint _, .uint _ n => formatNat n
  | .bool, .bool b => formatBool b
  | _, _ => []

/-- `fmt.Sprint` of a slice (format/format.go:65): the elements with spaces between them, in
brackets. For slices of floats and of byte slices it is left to the runtime. -/
def formatSlice (k : ElemKind) (l : List Val) : Str :=
  match k with
  | .string | .int _ | .uint _ | .bool => s%"[" ++ joinWith s%" " (l.map (sprintElem k)) ++ s%"]"
  | _ => GoRuntime.sprint (.slice k l)

/-- format/format.go:14-67 `Value` -/
def formatValue : Val → Go Str
  | .nil => .ok s%"NULL"
  | .str s => .ok (formatString s)
  | .bytes b => .ok (formatBytes b)
  | .time ns _ => .ok (formatTime ns)
  | .valuerNil _ => .ok s%"NULL"
  | .valuerErr _ => Go.panic "loukoum: was not able to retrieve valuer value"
  | .valuerOk _ v => formatValue v
  | .int .int64 n => .ok (formatInt n)
  | .int _ n => .ok (formatInt (toInt64Wrap n))
  | .uint .uint64 n => .ok (formatNat n)
  | .uint _ n => .ok (formatNat (toUint64Wrap n))
  | .bool b => .ok (formatBool b)
  | .float32 x => .ok (formatFloat (widen x))
  | .float64 x => .ok (formatFloat x)
  | .slice k l => .ok (formatSlice k l)
  | .opaque ty id => .ok (GoRuntime.sprint (.opaque ty id))

end

end Verif
