import Verif.Model.ParseJoin

/-!
# The lexer and `ParseJoin`, statement by statement

`lexNext`, `lexAll` and `parseLoop` are functions on what is left of the text or of the tokens. Here
the code is written down as it is: a lexer with two runes read ahead, an iterator with a cursor, and
loops over them. That both compute the same is `C38_transcript` and `C41_transcript`.

Simplification: a loop has a bound on the number of its iterations; the theorems say that any bound
above the length of the text gives the same, so the loop ends by itself.
-/

namespace Verif.Transcript

/-- token/token.go:20 -/
def EOF : TokType := s%"EOF"

/-- lexer/lexer.go:12 -/
def eof : Char := '\x00'

/-- lexer/lexer.go:18-21 `Lexer` -/
structure Lexer where
  input : Str
  e0 : Char
  en : Char

/-- lexer/lexer.go:38-55 `read`. The reader is a `strings.Reader`, which has no errors other than
`io.EOF`. -/
def Lexer.read (l : Lexer) : Lexer :=
  match l.input with
  | [] => { l with e0 := l.en, en := eof }
  | e :: input => { input, e0 := l.en, en := e }

/-- lexer/lexer.go:24-36 `New` -/
def Lexer.new (input : Str) : Lexer := (Lexer.mk input eof eof).read.read

/-- lexer/lexer.go:107-117 `getToken`; the deferred `read` comes last. -/
def Lexer.getToken (l : Lexer) (t : TokType) : Tok × Lexer :=
  if t = EOF then (⟨t, []⟩, l.read)
  else if t = Token.Semicolon then (⟨t, s%";"⟩, l.read)
  else (⟨t, [l.e0]⟩, l.read)

/-- lexer/lexer.go:119-128 `getOperatorToken` -/
def Lexer.getOperatorToken (l : Lexer) : Option (Tok × Lexer) :=
  if l.e0 = '*' then some (l.getToken Token.Asterisk)
  else if l.e0 = '=' then some (l.getToken Token.Equals)
  else none

/-- lexer/lexer.go:130-145 `getDelimiterToken` -/
def Lexer.getDelimiterToken (l : Lexer) : Option (Tok × Lexer) :=
  if l.e0 = ';' then some (l.getToken Token.Semicolon)
  else if l.e0 = ',' then some (l.getToken Token.Comma)
  else if l.e0 = ':' then some (l.getToken Token.Colon)
  else if l.e0 = '(' then some (l.getToken Token.LParen)
  else if l.e0 = ')' then some (l.getToken Token.RParen)
  else none

/-- lexer/lexer.go:177-187 `readIdentifier`: the loop. -/
def Lexer.readIdentifier : Nat → Lexer → Str → Str × Lexer
  | 0, l, buffer => (buffer, l)
  | n + 1, l, buffer =>
    if isLetter l.e0 || isDigit l.e0 then Lexer.readIdentifier n l.read (buffer ++ [l.e0])
    else (buffer, l)

/-- lexer/lexer.go:171-175 `skipWhitespace` -/
def Lexer.skipWhitespace : Nat → Lexer → Lexer
  | 0, l => l
  | n + 1, l => if isWhitespace l.e0 then Lexer.skipWhitespace n l.read else l

/-- lexer/lexer.go:156-169 `getIdentifier` -/
def Lexer.getIdentifier (n : Nat) (l : Lexer) : Tok × Lexer :=
  (⟨lookup (l.readIdentifier n []).1, (l.readIdentifier n []).1⟩, (l.readIdentifier n []).2)

/-- lexer/lexer.go:147-154 `getDefaultToken` -/
def Lexer.getDefaultToken (n : Nat) (l : Lexer) : Tok × Lexer :=
  if isLetter l.e0 || isDigit l.e0 then l.getIdentifier n else l.getToken Token.Illegal

/-- lexer/lexer.go:82-105 `Next` -/
def Lexer.next (n : Nat) (l : Lexer) : Tok × Lexer :=
  let l := l.skipWhitespace n
  if l.e0 = eof then l.getToken EOF
  else if l.e0 = '\n' then l.getToken Token.Semicolon
  else
    match l.getOperatorToken with
    | some r => r
    | none =>
      match l.getDelimiterToken with
      | some r => r
      | none => l.getDefaultToken n

/-- lexer/lexer.go:69-79 `Iterator`: the loop; `n` bounds the loops of `Next`. -/
def Lexer.iterator (n : Nat) : Nat → Lexer → List Tok → List Tok
  | 0, _, list => list
  | k + 1, l, list =>
    if (l.next n).1.type = EOF then list
    else Lexer.iterator n k (l.next n).2 (list ++ [(l.next n).1])

/-- lexer/iteratee.go:8-11 `Iteratee` -/
structure Iteratee where
  cursor : Nat
  list : List Tok

/-- lexer/iteratee.go:14-16 `HasNext` -/
def Iteratee.HasNext (it : Iteratee) : Bool := it.cursor < it.list.length

/-- lexer/iteratee.go:19-24 `Is` -/
def Iteratee.Is (it : Iteratee) (next : TokType) : Bool :=
  if !it.HasNext then false
  else
    match it.list[it.cursor]? with
    | some t => t.type = next
    | none => false

/-- lexer/iteratee.go:27-31 `Next`: panics past the end of the list. -/
def Iteratee.Next (it : Iteratee) : Go (Tok × Iteratee) :=
  match it.list[it.cursor]? with
  | none => .error .index
  | some element => .ok (element, { it with cursor := it.cursor + 1 })

/-- parser/join.go:81-104 and 106-129: the next condition after AND, or after OR, if there is one;
`none` is the returned error. -/
def further (t : TokType) (op : Str) (cond : Expr) (it : Iteratee) : Go (Option (Expr × Iteratee)) := do
  if it.Is t then
    let (e, it) ← it.Next
    if e.type ≠ t || !it.Is Token.Literal then return none
    let (left, it) ← it.Next
    let (e, it) ← it.Next
    if e.type ≠ Token.Equals || !it.Is Token.Literal then return none
    let (right, it) ← it.Next
    return some (.infx cond (.logical op) (.onClause { name := left.value } { name := right.value }), it)
  else return some (cond, it)

/-- parser/join.go:79-130: the inner loop. -/
def inner : Nat → Expr → Iteratee → Go (Option (Expr × Iteratee))
  | 0, cond, it => .ok (some (cond, it))
  | n + 1, cond, it =>
    if it.Is Token.And || it.Is Token.Or then do
      let some (cond, it) ← further Token.And Types.And cond it | return none
      let some (cond, it) ← further Token.Or Types.Or cond it | return none
      inner n cond it
    else .ok (some (cond, it))

/-- parser/join.go:27-141: the outer loop. `none` is the returned error. -/
def outer : Nat → Join → Iteratee → Go (Option Join)
  | 0, join, _ => .ok (some join)
  | n + 1, join, it =>
    if !it.HasNext then .ok (some join)
    else do
      let (e, it) ← it.Next
      if e.type = Token.Join then outer n join it
      else if e.type = Token.Inner then
        if it.Is Token.Join then
          let (_, it) ← it.Next
          outer n { join with type := Types.InnerJoin } it
        else return some join
      else if e.type = Token.Left then
        if it.Is Token.Join then
          let (_, it) ← it.Next
          outer n { join with type := Types.LeftJoin } it
        else return some join
      else if e.type = Token.Right then
        if it.Is Token.Join then
          let (_, it) ← it.Next
          outer n { join with type := Types.RightJoin } it
        else return some join
      else if e.type = Token.Literal then
        if it.Is Token.On then
          let (_, it) ← it.Next
          outer n { join with table := { name := e.value } } it
        else if it.Is Token.Equals then
          let left := e
          let (e, it) ← it.Next
          if e.type ≠ Token.Equals || !it.Is Token.Literal then return none
          else
            let (right, it) ← it.Next
            let some (cond, it) ←
              inner n (.onClause { name := left.value } { name := right.value }) it
              | return none
            outer n { join with cond := cond } it
        else return some join
      else if e.type = Token.On || e.type = Token.LParen || e.type = Token.RParen then
        outer n join it
      else return some join

/-- The tokens of a text: lexer/lexer.go:24 `New` and :69 `Iterator`; `n` bounds the loops. -/
def tokens (n : Nat) (text : Str) : List Tok := Lexer.iterator n n (Lexer.new text) []

/-- parser/join.go:19-144 `ParseJoin`; `n` bounds the loops. -/
def ParseJoin (n : Nat) (subquery : Str) : Go (Option Join) :=
  outer n { type := Types.InnerJoin, table := { name := [] }, cond := .nil }
    ⟨0, tokens n subquery⟩

end Verif.Transcript
