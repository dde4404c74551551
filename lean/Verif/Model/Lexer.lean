import Verif.Model.Types

/-!
# `token/token.go` and `lexer/`.
-/

namespace Verif

/-- token/token.go:9 `Type` is a string. -/
abbrev TokType := Str

/-- token/token.go:82-85 `Token` -/
structure Tok where
  type : TokType
  value : Str
deriving DecidableEq, Repr

namespace Token
/-- token/token.go:17 -/ def Illegal : TokType := s%"Illegal"
/-- token/token.go:23 -/ def Literal : TokType := s%"Literal"
/-- token/token.go:29 -/ def Comma : TokType := s%","
/-- token/token.go:31 -/ def Colon : TokType := s%":"
/-- token/token.go:32 -/ def LParen : TokType := s%"("
/-- token/token.go:33 -/ def RParen : TokType := s%")"
/-- token/token.go:35 -/ def Asterisk : TokType := s%"*"
/-- token/token.go:46 -/ def And : TokType := s%"AND"
/-- token/token.go:47 -/ def Or : TokType := s%"OR"
/-- token/token.go:52 -/ def Inner : TokType := s%"INNER"
/-- token/token.go:53 -/ def Cross : TokType := s%"CROSS"
/-- token/token.go:54 -/ def Left : TokType := s%"LEFT"
/-- token/token.go:55 -/ def Right : TokType := s%"RIGHT"
/-- token/token.go:56 -/ def Join : TokType := s%"JOIN"
end Token

/-- token/token.go:91-131 `keywords`. In that table every key is mapped to the type
that has the same text, so the table is a list of texts. -/
def keywords : List Str :=
  [Token.Select, Token.Update, Token.Insert, Token.Delete, Token.From, Token.Where, Token.And,
   Token.Or, Token.Limit, Token.Offset, Token.Set, Token.As, Token.Inner, Token.Cross, Token.Left,
   Token.Right, Token.Join, Token.On, Token.Group, Token.By, Token.Having, Token.Order,
   Token.Distinct, Token.DistinctOn, Token.Only, Token.Using, Token.Returning, Token.Values,
   Token.Into, Token.Conflict, Token.Do, Token.Nothing, Token.With, Token.Not, Token.Exists,
   Token.Count, Token.Max, Token.Min, Token.Sum]

/-- Upper-case form of one rune. Simplification: only ASCII letters are changed;
`strings.ToUpper` is only applied to words made of ASCII letters, digits, `_`
and `.` (token/token.go:135, called from lexer/lexer.go:162). -/
def upperRune (c : Char) : Char :=
  if 'a'.toNat ≤ c.toNat ∧ c.toNat ≤ 'z'.toNat then Char.ofNat (c.toNat - 32) else c

/-- `strings.ToUpper` (see `upperRune`). -/
def toUpper (s : Str) : Str := s.map upperRune

/-- token/token.go:134-141 `Lookup` -/
def lookup (e : Str) : TokType :=
  let n := toUpper e
  if n ∈ keywords then n else Token.Literal

/-- lexer/lexer.go:189-191 -/
def isLetter (c : Char) : Bool :=
  ('a'.toNat ≤ c.toNat && c.toNat ≤ 'z'.toNat) || ('A'.toNat ≤ c.toNat && c.toNat ≤ 'Z'.toNat) ||
    c = '_' || c = '.'

/-- lexer/lexer.go:193-195 -/
def isWhitespace (c : Char) : Bool := c = ' ' || c = '\t' || c = '\n' || c = '\r'

/-- lexer/lexer.go:197-199 -/
def isDigit (c : Char) : Bool := '0'.toNat ≤ c.toNat && c.toNat ≤ '9'.toNat

/-- lexer/lexer.go:149, :181 -/
def isWordRune (c : Char) : Bool := isLetter c || isDigit c

/-- lexer/lexer.go:82-169 `Next` with `getToken`, `getOperatorToken`,
`getDelimiterToken`, `getDefaultToken`, `getIdentifier`, `readIdentifier`.
The lexer state (current and next rune, reader; lexer/lexer.go:18-55) is
represented by the list of runes from the current one on; past the end the
current rune is 0, which is also how a NUL in the input is read. `none` is the EOF
token. The test `current == '\n'` of line 90 follows `skipWhitespace`, which
consumes newlines, so its branch is never taken; it is kept. -/
def lexNext (s : Str) : Option (Tok × Str) :=
  match s.dropWhile isWhitespace with
  | [] => none
  | c :: rest =>
    if c = '\x00' then none
    else if c = '\n' then some (⟨Token.Semicolon, s%";"⟩, rest)
    else if c = '*' then some (⟨Token.Asterisk, [c]⟩, rest)
    else if c = '=' then some (⟨Token.Equals, [c]⟩, rest)
    else if c = ';' then some (⟨Token.Semicolon, s%";"⟩, rest)
    else if c = ',' then some (⟨Token.Comma, [c]⟩, rest)
    else if c = ':' then some (⟨Token.Colon, [c]⟩, rest)
    else if c = '(' then some (⟨Token.LParen, [c]⟩, rest)
    else if c = ')' then some (⟨Token.RParen, [c]⟩, rest)
    else if isWordRune c then
      let w := (c :: rest).takeWhile isWordRune
      some (⟨lookup w, w⟩, (c :: rest).dropWhile isWordRune)
    else some (⟨Token.Illegal, [c]⟩, rest)

/-- lexer/lexer.go:69-79 `Iterator`, the loop with an explicit bound. -/
def lexFuel : Nat → Str → List Tok
  | 0, _ => []
  | n + 1, s =>
    match lexNext s with
    | none => []
    | some (t, rest) => t :: lexFuel n rest

/-- lexer/lexer.go:69-79 `Iterator`. Every token consumes at least one rune, so
`s.length` iterations suffice (`lexAll_eq` in `Verif.Lemmas.Lexer`). -/
def lexAll (s : Str) : List Tok := lexFuel (s.length + 1) s

end Verif
