import Verif.Model.Construct

/-!
# What arguments of builder methods mean
-/

namespace Verif.Spec

/-! ## Numbers -/

/-- A decimal digit. -/
def Digit (c : Char) : Prop := '0' ≤ c ∧ c ≤ '9'

/-- The number written by digits, most significant first. -/
def digitsNumber : Str → Nat
  | [] => 0
  | c :: s => (c.toNat - '0'.toNat) * 10 ^ s.length + digitsNumber s

/-- `s` is an optional sign and at least one digit, and denotes `n`. -/
def Decimal (s : Str) (n : Int) : Prop :=
  ∃ sign ds, s = sign ++ ds ∧ ds ≠ [] ∧ (∀ c ∈ ds, Digit c) ∧
    ((sign = s%"" ∨ sign = s%"+") ∧ n = digitsNumber ds ∨ sign = s%"-" ∧ n = -(digitsNumber ds : Int))

/-- The argument is a number of one of the accepted types, or a text denoting a number, and its
mathematical value is `n`. (`uint` is not among the accepted types.) -/
def IntArg : Any → Int → Prop
  | .val (.int _ m), n => n = m
  | .val (.uint k m), n => k ≠ .uint ∧ n = m
  | .val (.str s), n => Decimal s n
  | _, _ => False

/-- The argument is a value of its Go type. -/
def GoArg : Any → Prop
  | .val v => v.InRange
  | _ => True

/-! ## Lists of names -/

/-- Unicode white space. -/
def White (c : Char) : Prop :=
  c.toNat ∈ [0x09, 0x0a, 0x0b, 0x0c, 0x0d, 0x20, 0x85, 0xa0, 0x1680, 0x2000, 0x2001, 0x2002, 0x2003,
    0x2004, 0x2005, 0x2006, 0x2007, 0x2008, 0x2009, 0x200a, 0x2028, 0x2029, 0x202f, 0x205f, 0x3000]

/-- `u` is `s` without the white space around it. -/
def Trimmed (s u : Str) : Prop :=
  ∃ a b, s = a ++ u ++ b ∧ (∀ c ∈ a, White c) ∧ (∀ c ∈ b, White c) ∧
    (∀ c, u.head? = some c → ¬ White c) ∧ (∀ c, u.getLast? = some c → ¬ White c)

/-- The two lists are related element by element. -/
inductive Each {α β : Type} (R : α → β → Prop) : List α → List β → Prop where
  | nil : Each R [] []
  | cons {a : α} {b : β} {l : List α} {m : List β} : R a b → Each R l m → Each R (a :: l) (b :: m)

/-- `names` are the trimmed parts of `s` between commas, none of them empty. -/
def Names (s : Str) (names : List Str) : Prop :=
  ∃ parts, parts ≠ [] ∧ s = List.intercalate s%"," parts ∧ (∀ p ∈ parts, ',' ∉ p) ∧
    Each Trimmed parts names ∧ ∀ n ∈ names, n ≠ []

/-- The columns given by one argument: the names in a string, or a column with a name. -/
def ColumnsArg : Any → List Column → Prop
  | .val (.str s), cs => ∃ names, Names s names ∧ cs = names.map fun n => { name := n }
  | .selExpr (.column c), cs => c.name ≠ [] ∧ cs = [c]
  | _, _ => False

/-- A select expression without content. -/
def selBlank : SelExpr → Bool
  | .nil => true
  | .column c => c.name.isEmpty
  | .raw s => s.isEmpty
  | .count v _ _ | .max v _ | .min v _ | .sum v _ => v.isEmpty
  | .exist _ | .notExist _ => false

/-- The select expressions given by one argument: the names in a string, or a column, an
aggregate, a raw fragment or an EXISTS expression as it is. -/
def SelectsArg : Any → List SelExpr → Prop
  | .val (.str s), es => ∃ names, Names s names ∧ es = names.map fun n => .column { name := n }
  | .selExpr e, es => selBlank e = false ∧ es = [e]
  | .expr (.raw s), es => s ≠ [] ∧ es = [.raw s]
  | .expr (.exist e), es => es = [.exist e]
  | .expr (.notExist e), es => es = [.notExist e]
  | _, _ => False

/-- The entry of FROM given by one argument: a table named by the string, a table, or a raw
fragment. -/
def FromArg : Any → FromItem → Prop
  | .val (.str s), i => i = .table { name := s }
  | .table t, i => i = .table t
  | .expr (.raw s), i => i = .raw s
  | .selExpr (.raw s), i => i = .raw s
  | _, _ => False

/-- Not a value of type `stmt.From`. -/
def NotFromClause : Any → Prop
  | .fromClause _ => False
  | _ => True

/-- A table: a non-empty name or a table with a name. -/
def TableArg : Any → Table → Prop
  | .val (.str s), t => s ≠ [] ∧ t = { name := s }
  | .table u, t => u.name ≠ [] ∧ t = u
  | _, _ => False

/-- Several arguments, none of which is alone and a slice. -/
def Separate (args : List Any) : Prop :=
  match args with
  | [.columns _] | [.selExprs _] | [.val (.slice .string _)] => False
  | _ => True

end Verif.Spec
