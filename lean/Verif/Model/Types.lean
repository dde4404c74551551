import Verif.Basic

/-!
# `types/`, `token/` constants and the Go values that can be bound.
-/

namespace Verif

/-! ## Logical and comparison operators (types/operator.go) -/
namespace Types

/-- types/operator.go:12 -/ def And : Str := s%"AND"
/-- types/operator.go:13 -/ def Or : Str := s%"OR"
/-- types/operator.go:14 -/ def Not : Str := s%"NOT"
/-- types/operator.go:26 -/ def Equal : Str := s%"="
/-- types/operator.go:27 -/ def NotEqual : Str := s%"!="
/-- types/operator.go:28 -/ def Is : Str := s%"IS"
/-- types/operator.go:29 -/ def IsNot : Str := s%"IS NOT"
/-- types/operator.go:30 -/ def GreaterThan : Str := s%">"
/-- types/operator.go:31 -/ def GreaterThanOrEqual : Str := s%">="
/-- types/operator.go:32 -/ def LessThan : Str := s%"<"
/-- types/operator.go:33 -/ def LessThanOrEqual : Str := s%"<="
/-- types/operator.go:34 -/ def In : Str := s%"IN"
/-- types/operator.go:35 -/ def NotIn : Str := s%"NOT IN"
/-- types/operator.go:36 -/ def Like : Str := s%"LIKE"
/-- types/operator.go:37 -/ def NotLike : Str := s%"NOT LIKE"
/-- types/operator.go:38 -/ def ILike : Str := s%"ILIKE"
/-- types/operator.go:39 -/ def NotILike : Str := s%"NOT ILIKE"
/-- types/operator.go:40 -/ def Between : Str := s%"BETWEEN"
/-- types/operator.go:41 -/ def NotBetween : Str := s%"NOT BETWEEN"
/-- types/operator.go:42 -/ def IsDistinctFrom : Str := s%"IS DISTINCT FROM"
/-- types/operator.go:43 -/ def IsNotDistinctFrom : Str := s%"IS NOT DISTINCT FROM"
/-- types/operator.go:44 -/ def Contains : Str := s%"@>"
/-- types/operator.go:45 -/ def IsContainedBy : Str := s%"<@"
/-- types/operator.go:46 -/ def Overlap : Str := s%"&&"

/-! ## Join types (types/join.go) -/
/-- types/join.go:13 -/ def InnerJoin : Str := s%"INNER JOIN"
/-- types/join.go:15 -/ def LeftJoin : Str := s%"LEFT JOIN"
/-- types/join.go:17 -/ def RightJoin : Str := s%"RIGHT JOIN"
/-- types/join.go:19 -/ def LeftOuterJoin : Str := s%"LEFT OUTER JOIN"
/-- types/join.go:21 -/ def RightOuterJoin : Str := s%"RIGHT OUTER JOIN"

/-! ## Order types (types/order.go) -/
/-- types/order.go:13 -/ def Asc : Str := s%"ASC"
/-- types/order.go:15 -/ def Desc : Str := s%"DESC"

end Types

/-! ## Keyword tokens written by the statements (token/token.go) -/
namespace Token

/-- token/token.go:28 -/ def Comment : Str := s%"--"
/-- token/token.go:30 -/ def Semicolon : Str := s%";"
/-- token/token.go:34 -/ def Equals : Str := s%"="
/-- token/token.go:40 -/ def Select : Str := s%"SELECT"
/-- token/token.go:41 -/ def Update : Str := s%"UPDATE"
/-- token/token.go:42 -/ def Insert : Str := s%"INSERT"
/-- token/token.go:43 -/ def Delete : Str := s%"DELETE"
/-- token/token.go:44 -/ def From : Str := s%"FROM"
/-- token/token.go:45 -/ def Where : Str := s%"WHERE"
/-- token/token.go:48 -/ def Limit : Str := s%"LIMIT"
/-- token/token.go:49 -/ def Offset : Str := s%"OFFSET"
/-- token/token.go:50 -/ def Set : Str := s%"SET"
/-- token/token.go:51 -/ def As : Str := s%"AS"
/-- token/token.go:57 -/ def On : Str := s%"ON"
/-- token/token.go:58 -/ def Group : Str := s%"GROUP"
/-- token/token.go:59 -/ def By : Str := s%"BY"
/-- token/token.go:60 -/ def Having : Str := s%"HAVING"
/-- token/token.go:61 -/ def Order : Str := s%"ORDER"
/-- token/token.go:62 -/ def Distinct : Str := s%"DISTINCT"
/-- token/token.go:63 -/ def DistinctOn : Str := s%"DISTINCT ON"
/-- token/token.go:64 -/ def Only : Str := s%"ONLY"
/-- token/token.go:65 -/ def Using : Str := s%"USING"
/-- token/token.go:66 -/ def Returning : Str := s%"RETURNING"
/-- token/token.go:67 -/ def Values : Str := s%"VALUES"
/-- token/token.go:68 -/ def Into : Str := s%"INTO"
/-- token/token.go:69 -/ def Conflict : Str := s%"CONFLICT"
/-- token/token.go:70 -/ def Do : Str := s%"DO"
/-- token/token.go:71 -/ def Nothing : Str := s%"NOTHING"
/-- token/token.go:72 -/ def With : Str := s%"WITH"
/-- token/token.go:73 -/ def Not : Str := s%"NOT"
/-- token/token.go:74 -/ def Exists : Str := s%"EXISTS"
/-- token/token.go:75 -/ def Count : Str := s%"COUNT"
/-- token/token.go:76 -/ def Max : Str := s%"MAX"
/-- token/token.go:77 -/ def Min : Str := s%"MIN"
/-- token/token.go:78 -/ def Sum : Str := s%"SUM"

end Token

/-! ## Go values -/

/-- The signed integer types of the type switches (format/format.go:38-47,
stmt/expression.go:26, builder/builder.go:294-303). -/
inductive IntKind where
  | int | int8 | int16 | int32 | int64
deriving DecidableEq, Repr

/-- The unsigned integer types of the type switches (format/format.go:48-57,
stmt/expression.go:27, builder/builder.go:304-313). -/
inductive UintKind where
  | uint | uint8 | uint16 | uint32 | uint64
deriving DecidableEq, Repr

/-- Element types of the slices distinguished by `toArray`
(stmt/expression.go:408-472), except `[]byte` which is `Val.bytes`. -/
inductive ElemKind where
  | string | int (k : IntKind) | uint (k : UintKind) | bool | float32 | float64 | bytes
deriving DecidableEq, Repr

/-- Types without internal structure in the model. The first five are accepted
by `NewExpression` (stmt/expression.go:28-30), `other` is any type that matches
no case of any type switch. -/
inductive OpaqueTy where
  | rangeValuer | flatArrayString | flatArrayInt64 | mapStringString | mapStringAny | other
deriving DecidableEq, Repr

/-- A Go value as handled by `Bind` (types/context.go:13) and `format.Value`
(format/format.go:14-67).  Integers carry the mathematical number; `Val.InRange`
says it fits its type.  Floats carry their bit patterns.  A time carries its instant in nanoseconds since the Unix epoch
and an identifier of its location.  A `driver.Valuer` is a nil pointer, one whose
`Value()` fails, or one whose `Value()` succeeds; `id` distinguishes objects. -/
inductive Val where
  | nil
  | str (s : Str)
  | bytes (b : List UInt8)
  | bool (b : Bool)
  | int (k : IntKind) (n : Int)
  | uint (k : UintKind) (n : Nat)
  | float32 (bits : BitVec 32)
  | float64 (bits : BitVec 64)
  | time (ns : Int) (loc : Nat)
  | slice (k : ElemKind) (l : List Val)
  | valuerNil (id : Nat)
  | valuerErr (id : Nat)
  | valuerOk (id : Nat) (v : Val)
  | opaque (ty : OpaqueTy) (id : Nat)

/-- Number of bits of a signed type (`int` is 64-bit on the supported platforms). -/
def IntKind.bits : IntKind → Nat
  | .int => 64 | .int8 => 8 | .int16 => 16 | .int32 => 32 | .int64 => 64

/-- Number of bits of an unsigned type. -/
def UintKind.bits : UintKind → Nat
  | .uint => 64 | .uint8 => 8 | .uint16 => 16 | .uint32 => 32 | .uint64 => 64

/-- The number carried by an integer value fits its Go type. -/
def Val.InRange : Val → Prop
  | .int k n => -(2 ^ (k.bits - 1) : Int) ≤ n ∧ n < 2 ^ (k.bits - 1)
  | .uint k n => n < 2 ^ k.bits
  | _ => True

/-- Behaviour of the Go runtime and standard library that the model leaves open.
Theorems quantify over all instances, so they hold whatever these functions do
as long as the stated facts about them hold. -/
class GoRuntime : Type 1 where
  /-- `strconv.IsPrint` -/
  isPrint : Char → Bool
  /-- on ASCII, exactly 0x20..0x7e is printable -/
  isPrint_ascii : ∀ c : Char, c.toNat < 128 → isPrint c = (32 ≤ c.toNat && c.toNat ≤ 126)
  /-- `fmt.Sprint` of values of types without a case of their own in `format.Value` -/
  sprint : Val → Str
  /-- `sort.Slice`, as a function of the comparator and the list -/
  sortSlice : {α : Type} → (α → α → Bool) → List α → List α
  /-- the result is a rearrangement -/
  sortSlice_perm : ∀ {α : Type} (lt : α → α → Bool) (l : List α), (sortSlice lt l).Perm l
  /-- if the comparator is a strict weak order on the elements, the result is sorted -/
  sortSlice_sorted : ∀ {α : Type} (lt : α → α → Bool) (l : List α),
    (∀ a ∈ l, lt a a = false) →
    (∀ a ∈ l, ∀ b ∈ l, ∀ c ∈ l, lt a b = true → lt b c = true → lt a c = true) →
    (∀ a ∈ l, ∀ b ∈ l, ∀ c ∈ l, lt a b = false → lt b a = false → lt b c = false →
      lt c b = false → lt a c = false ∧ lt c a = false) →
    (sortSlice lt l).Pairwise (fun a b => lt b a = false)

end Verif
