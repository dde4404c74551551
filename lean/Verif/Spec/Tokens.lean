import Verif.Spec.Scan
import Verif.Spec.Read

/-!
# The tokens of a SQL text

The scanner of `Verif.Spec.Scan` says where texts begin and end. The tokenizer here also says what
they are: it turns a text into words, quoted names, string literals, placeholders and single
characters, without white space and comments. Where its rules do not suffice (see there) it gives
up. Not represented: continuation of a literal by another one after a line break, and the prefix
`U&` of names and literals.
-/

namespace Verif.Spec

/-- A token. -/
inductive SqlTok where
  /-- a key word, a name without quotes or a number -/
  | word (t : Str)
  /-- a quoted name, with what is between its quotes -/
  | name (t : Str)
  /-- a string literal, with what is between its quotes -/
  | literal (t : Str)
  /-- a placeholder `$digits` -/
  | param (digits : Str)
  /-- any other character -/
  | sym (c : Char)
deriving DecidableEq

/-- Where the tokenizer is, with what it has read of the token. -/
inductive TokMode where
  | free
  | word (t : Str)
  | dash
  | slash
  | dollar (digits : Str)
  | name (t : Str)
  /-- after a double quote in a name: the end of the name, unless another one follows -/
  | nameQuote (t : Str)
  | literal (t : Str)
  /-- in a literal, after a backslash that escapes -/
  | escape (t : Str)
  /-- after a single quote in a literal -/
  | literalQuote (t : Str)
  | comment
  | bad
deriving DecidableEq

/-- White space. -/
def isBlank (c : Char) : Bool := c = ' ' || c = '\t' || c = '\n' || c = '\r' || c = '\x0c' || c = '\x0b'

/-- The character begins a new token: the new mode, and the character as a token of its own. -/
def tokStart (c : Char) : TokMode × List SqlTok :=
  if c = '"' then (.name [], [])
  else if c = '\'' then (.literal [], [])
  else if c = '$' then (.dollar [], [])
  else if c = '-' then (.dash, [])
  else if c = '/' then (.slash, [])
  else if wordStart c then (.word [c], [])
  else if isBlank c then (.free, [])
  else (.free, [.sym c])

/-- The tokens are complete before the character, which begins a new one. -/
def tokAfter (done : List SqlTok) (c : Char) : TokMode × List SqlTok :=
  ((tokStart c).1, done ++ (tokStart c).2)

/-- One character: the new mode and the tokens it completes. -/
def tokStep (backslash : Bool) (m : TokMode) (c : Char) : TokMode × List SqlTok :=
  match m with
  | .free => tokAfter [] c
  | .word t =>
    if wordStart c || c = '$' then (.word (t ++ [c]), [])
    else if c = '\'' then (.bad, [])
    else tokAfter [.word t] c
  | .dash => if c = '-' then (.comment, []) else tokAfter [.sym '-'] c
  | .slash => if c = '*' then (.bad, []) else tokAfter [.sym '/'] c
  | .dollar ds =>
    if isDigit c then (.dollar (ds ++ [c]), [])
    else if ds = [] || wordStart c || c = '$' then (.bad, [])
    else tokAfter [.param ds] c
  | .name t => if c = '"' then (.nameQuote t, []) else (.name (t ++ [c]), [])
  | .nameQuote t => if c = '"' then (.name (t ++ ['"', '"']), []) else tokAfter [.name t] c
  | .literal t =>
    if c = '\'' then (.literalQuote t, [])
    else if backslash && c = '\\' then (.escape t, [])
    else (.literal (t ++ [c]), [])
  | .escape t => (.literal (t ++ ['\\', c]), [])
  | .literalQuote t =>
    if c = '\'' then (.literal (t ++ ['\'', '\'']), []) else tokAfter [.literal t] c
  | .comment => if c = '\n' || c = '\r' then (.free, []) else (.comment, [])
  | .bad => (.bad, [])

/-- Read a text from a mode on: the mode at its end and the tokens completed. -/
def tokRun (backslash : Bool) : TokMode → Str → TokMode × List SqlTok
  | m, [] => (m, [])
  | m, c :: t =>
    let r := tokStep backslash m c
    let q := tokRun backslash r.1 t
    (q.1, r.2 ++ q.2)

/-- The text ends: the token that this completes. A name or a literal cannot end here. -/
def tokEnd : TokMode → Option (List SqlTok)
  | .free => some []
  | .word t => some [.word t]
  | .dash => some [.sym '-']
  | .slash => some [.sym '/']
  | .dollar ds => if ds = [] then none else some [.param ds]
  | .nameQuote t => some [.name t]
  | .literalQuote t => some [.literal t]
  | .comment => some []
  | .name _ | .literal _ | .escape _ | .bad => none

/-- The tokens of a text. -/
def tokens (backslash : Bool) (t : Str) : Option (List SqlTok) :=
  (tokEnd (tokRun backslash .free t).1).map ((tokRun backslash .free t).2 ++ ·)

/-- The placeholders among tokens. -/
def params : List SqlTok → List Str
  | [] => []
  | .param ds :: l => ds :: params l
  | _ :: l => params l

/-- The tokens with each placeholder `$n` replaced by the `n`-th of these token lists. -/
def fillTokens (what : List (List SqlTok)) (ts : List SqlTok) : List SqlTok :=
  ts.flatMap fun t =>
    match t with
    | .param ds =>
      match readNat ds with
      | some (n + 1) => (what[n]?).getD [t]
      | _ => [t]
    | t => [t]

/-- The tokens of the text of a floating-point number: a sign and a number with or without a point;
words for what is not finite. -/
def FloatTokens (ts : List SqlTok) : Prop :=
  ts = [.word s%"NaN"] ∨ ts = [.sym '+', .word s%"Inf"] ∨ ts = [.sym '-', .word s%"Inf"] ∨
    ∃ sign ds, (sign = [] ∨ sign = [.sym '-']) ∧ (∀ c ∈ ds, isDigit c = true) ∧
      (ts = sign ++ [.word ds] ∨
        ∃ fs, (∀ c ∈ fs, isDigit c = true) ∧ ts = sign ++ [.word ds, .sym '.', .word fs])

/-- The tokens of an integer: its digits, after a sign if it is negative. -/
def IntTokens (n : Int) (ts : List SqlTok) : Prop :=
  ∃ ds, (∀ c ∈ ds, isDigit c = true) ∧ readNat ds = some n.natAbs ∧
    ts = (if n < 0 then [.sym '-'] else []) ++ [.word ds]

/-- The tokens of an element of a slice of integers or booleans. (A slice of Go has no other elements.) -/
def ElemTokens : ElemKind → Val → List SqlTok → Prop
  | .int _, .int _ n, ts => IntTokens n ts
  | .uint _, .uint _ n, ts => IntTokens n ts
  | .bool, .bool x, ts => ts = [.word (if x then s%"true" else s%"false")]
  | _, _, ts => ts = []

/-- The tokens of a slice of integers or booleans: those of its elements one after the other, in
brackets. -/
def SliceTokens (k : ElemKind) (l : List Val) (ts : List SqlTok) : Prop :=
  ∃ parts : List (List SqlTok), ts = .sym '[' :: (parts.flatten ++ [.sym ']']) ∧
    parts.length = l.length ∧
    ∀ (i : Nat) v p, l[i]? = some v → parts[i]? = some p → ElemTokens k v p

/-- The tokens that a value may become as a literal: one string literal for a string (which, read
with backslash escapes, denotes the string) and for a time, a number with or without sign for an
integer (the integer itself, if it is one of Go), one word for a boolean and for nil, a call of
`decode` for bytes, `FloatTokens` for a floating-point number, `SliceTokens` for a slice of integers or
booleans. Nothing is said of other slices, of which see C68, and of values that the Go runtime
prints. -/
def LiteralShape (backslash : Bool) : Val → List SqlTok → Prop
  | .str s, ts => ∃ t, ts = [.literal t] ∧
      (backslash = true → readEsc ('\'' :: t ++ ['\'']) = some (s, []))
  | .time _ _, ts => ∃ t, ts = [.literal t]
  | .bytes x, ts => ∃ t,
      ts = [.word s%"decode", .sym '(', .literal t, .sym ',', .literal s%"hex", .sym ')'] ∧
      unhex t = some x
  | .bool x, ts => ts = [.word (if x then s%"true" else s%"false")]
  | .int _ n, ts => (∃ m, IntTokens m ts) ∧ (-(2 ^ 63) ≤ n → n < 2 ^ 63 → IntTokens n ts)
  | .uint _ n, ts => (∃ m : Nat, IntTokens m ts) ∧ (n < 2 ^ 64 → IntTokens n ts)
  | .nil, ts => ts = [.word s%"NULL"]
  | .valuerNil _, ts => ts = [.word s%"NULL"]
  | .valuerOk _ v, ts => LiteralShape backslash v ts
  | .float32 _, ts | .float64 _, ts => FloatTokens ts
  | .slice (.int k) l, ts => SliceTokens (.int k) l ts
  | .slice (.uint k) l, ts => SliceTokens (.uint k) l ts
  | .slice .bool l, ts => SliceTokens .bool l ts
  | .valuerErr _, _ | .slice _ _, _ | .opaque _ _, _ => True

section
variable [GoRuntime]

/-- The tokens of a name: its parts between the dots, each a quoted name, with dots between them.
(What is between the quotes is the part as Go writes it, that is the part itself if it consists of
printable characters without backslash.) -/
def nameTokens : List Str → List SqlTok
  | [] => []
  | [p] => [.name (p.flatMap quoteRune)]
  | p :: q :: l => .name (p.flatMap quoteRune) :: .sym '.' :: nameTokens (q :: l)

/-- The tokens of pieces, where the value with the number `i` stands for the tokens `what i v`. -/
def pieceTokens (backslash : Bool) (what : Nat → Val → List SqlTok) : Nat → List Piece → List SqlTok
  | _, [] => []
  | k, .sql t :: l => (tokens backslash t).getD [] ++ pieceTokens backslash what k l
  | k, .name s :: l => nameTokens (splitOn '.' s) ++ pieceTokens backslash what k l
  | k, .raw t :: l => (tokens backslash t).getD [] ++ pieceTokens backslash what k l
  | k, .note _ :: l => pieceTokens backslash what k l
  | k, .val v :: l =>
    match v with
    | .nil => .word s%"NULL" :: pieceTokens backslash what k l
    | v => what k v ++ pieceTokens backslash what (k + 1) l

end

/-- Pieces that differ only in the names, not in how many parts a name has. -/
inductive SameButNames : List Piece → List Piece → Prop where
  | nil : SameButNames [] []
  | cons (p : Piece) {l m : List Piece} : SameButNames l m → SameButNames (p :: l) (p :: m)
  | name {n n' : Str} {l m : List Piece} : (splitOn '.' n).length = (splitOn '.' n').length →
      SameButNames l m → SameButNames (.name n :: l) (.name n' :: m)

/-- A token without the content of a quoted name. -/
def SqlTok.anonymous : SqlTok → SqlTok
  | .name _ => .name []
  | t => t

end Verif.Spec
