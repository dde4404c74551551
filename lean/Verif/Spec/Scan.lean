import Verif.Spec.Weave

/-!
# A SQL scanner

A left-to-right scan of a SQL text by the lexical rules of PostgreSQL: quoted names, string
literals, comments up to the end of the line, words and numbers, `$n` placeholders, parentheses.
Where the rules go beyond this (block comments, dollar quoting, literals with a prefix such as
`E'...'`, anything directly after a placeholder) the scan gives up, which is the state `bad`.
-/

namespace Verif.Spec

/-- Where the scanner is. -/
inductive Mode where
  /-- between tokens -/
  | free
  /-- in a word or a number -/
  | word
  /-- after a minus sign, which may begin a comment -/
  | dash
  /-- after a slash, which may begin a block comment -/
  | slash
  /-- after a dollar sign and these digits -/
  | dollar (digits : Str)
  /-- in a quoted name -/
  | name
  /-- in a string literal -/
  | literal
  /-- in a string literal, after a backslash that escapes the next character -/
  | escape
  /-- in a comment -/
  | comment
  /-- given up -/
  | bad
deriving DecidableEq

/-- The state of the scanner: where it is, how many parentheses are open, and the numbers of the
placeholders seen. -/
structure Scan where
  mode : Mode
  depth : Nat
  found : List Str
deriving DecidableEq

/-- At the beginning of a text. -/
def Scan.init : Scan := ⟨.free, 0, []⟩

/-- Characters of words and numbers; a word can also contain dollar signs. -/
def wordStart (c : Char) : Bool :=
  ('a' ≤ c && c ≤ 'z') || ('A' ≤ c && c ≤ 'Z') || ('0' ≤ c && c ≤ '9') || c = '_' ||
    128 ≤ c.toNat

/-- A decimal digit. -/
def isDigit (c : Char) : Bool := '0' ≤ c && c ≤ '9'

/-- The character begins a new token. A closing parenthesis without an open one is an error. -/
def Scan.start (s : Scan) (c : Char) : Scan :=
  if c = '"' then { s with mode := .name }
  else if c = '\'' then { s with mode := .literal }
  else if c = '(' then { s with mode := .free, depth := s.depth + 1 }
  else if c = ')' then
    if s.depth = 0 then { s with mode := .bad }
    else { s with mode := .free, depth := s.depth - 1 }
  else if c = '$' then { s with mode := .dollar [] }
  else if c = '-' then { s with mode := .dash }
  else if c = '/' then { s with mode := .slash }
  else if wordStart c then { s with mode := .word }
  else { s with mode := .free }

/-- One character. `backslash` says whether a backslash escapes the next character of a string
literal (PostgreSQL's `standard_conforming_strings = off`, MySQL) or stands for itself. Two quotes
in a row inside a name or literal close and reopen it, which comes to the same. -/
def Scan.step (backslash : Bool) (s : Scan) (c : Char) : Scan :=
  match s.mode with
  | .free => s.start c
  | .word =>
    if wordStart c || c = '$' then s
    else if c = '\'' then { s with mode := .bad }
    else s.start c
  | .dash => if c = '-' then { s with mode := .comment } else s.start c
  | .slash => if c = '*' then { s with mode := .bad } else s.start c
  | .dollar ds =>
    if isDigit c then { s with mode := .dollar (ds ++ [c]) }
    else if ds = [] || wordStart c || c = '$' then { s with mode := .bad }
    else Scan.start { s with found := s.found ++ [ds] } c
  | .name => if c = '"' then { s with mode := .free } else s
  | .literal =>
    if c = '\'' then { s with mode := .free }
    else if backslash && c = '\\' then { s with mode := .escape }
    else s
  | .escape => { s with mode := .literal }
  | .comment => if c = '\n' || c = '\r' then { s with mode := .free } else s
  | .bad => s

/-- Scan a text. -/
def scan (backslash : Bool) (s : Scan) (t : Str) : Scan := t.foldl (Scan.step backslash) s

/-- The token being read, if any, ends here. A name, literal or comment cannot end here. -/
def Scan.settle (s : Scan) : Scan :=
  match s.mode with
  | .free | .word | .dash | .slash => { s with mode := .free }
  | .dollar ds => if ds = [] then { s with mode := .bad } else ⟨.free, s.depth, s.found ++ [ds]⟩
  | .name | .literal | .escape | .comment | .bad => { s with mode := .bad }

/-- The text is closed and contains exactly these placeholders: all its quotes are closed, each
parenthesis it opens is closed, none is closed that it has not opened, and it ends outside of
comments. -/
def ClosedWith (backslash : Bool) (t : Str) (placeholders : List Str) : Prop :=
  (scan backslash .init t).settle = ⟨.free, 0, placeholders⟩

/-- The text contains exactly these placeholders, its quotes are closed, and of the parentheses it
opens `e` stay open. -/
def ClosedUpTo (backslash : Bool) (t : Str) (e : Nat) (placeholders : List Str) : Prop :=
  (scan backslash .init t).settle = ⟨.free, e, placeholders⟩

/-- A text that can stand where an expression, a word or an operator is expected without having an
effect on what surrounds it. -/
def SelfContained (backslash : Bool) (t : Str) : Prop := ClosedWith backslash t []

instance (b : Bool) (t : Str) : Decidable (SelfContained b t) :=
  inferInstanceAs (Decidable (_ = _))

/-- What is asked of the pieces given by the user: names contain no double quote, raw fragments are
self-contained, and there is no comment before the end of the statement. -/
def Tame (backslash : Bool) : Piece → Prop
  | .sql _ => True
  | .name n => '"' ∉ n
  | .raw t => SelfContained backslash t
  | .note _ => False
  | .val _ => True

/-- The same, whatever the comments. -/
def TameButComments (backslash : Bool) : Piece → Prop
  | .note _ => True
  | p => Tame backslash p

instance (b : Bool) : (p : Piece) → Decidable (Tame b p)
  | .sql _ => inferInstanceAs (Decidable True)
  | .name n => inferInstanceAs (Decidable (¬ '"' ∈ n))
  | .raw t => inferInstanceAs (Decidable (SelfContained b t))
  | .note _ => inferInstanceAs (Decidable False)
  | .val _ => inferInstanceAs (Decidable True)

instance (b : Bool) : (p : Piece) → Decidable (TameButComments b p)
  | .note _ => inferInstanceAs (Decidable True)
  | .sql t => inferInstanceAs (Decidable (Tame b (.sql t)))
  | .name n => inferInstanceAs (Decidable (Tame b (.name n)))
  | .raw t => inferInstanceAs (Decidable (Tame b (.raw t)))
  | .val v => inferInstanceAs (Decidable (Tame b (.val v)))

/-- The string that a value is. -/
def stringOf : Val → Str
  | .str s => s
  | _ => []

/-- What is asked of a value to be written as a literal: without backslash escapes a string may not
contain a quote; the elements of a slice of strings with spaces between them, and the texts that the
Go runtime makes of values of other types without a literal of their own, are self-contained. -/
def TameVal [GoRuntime] (backslash : Bool) : Val → Prop
  | .str s => backslash = true ∨ '\'' ∉ s
  | .slice .string l => SelfContained backslash (List.intercalate s%" " (l.map stringOf))
  | .slice .float32 l => SelfContained backslash (GoRuntime.sprint (.slice .float32 l))
  | .slice .float64 l => SelfContained backslash (GoRuntime.sprint (.slice .float64 l))
  | .slice .bytes l => SelfContained backslash (GoRuntime.sprint (.slice .bytes l))
  | .opaque ty id => SelfContained backslash (GoRuntime.sprint (.opaque ty id))
  | .valuerOk _ v => TameVal backslash v
  | _ => True

/-- A text on one line. -/
def OneLine (t : Str) : Prop := '\n' ∉ t ∧ '\r' ∉ t

/-- The statement without its comment. -/
def uncommented : Stmt → Stmt
  | .select ⟨pfx, withs, distinct, distinctOn, exprs, tables, joins, whr, groupBy, having, orderBy,
      limit, offset, sfx, _⟩ =>
    .select ⟨pfx, withs, distinct, distinctOn, exprs, tables, joins, whr, groupBy, having, orderBy,
      limit, offset, sfx, []⟩
  | .insert i => .insert { i with comment := [] }
  | .update u => .update { u with comment := [] }
  | .delete d => .delete { d with comment := [] }

/-- The comment of a statement. -/
def commentOf : Stmt → Str
  | .select s => s.comment
  | .insert i => i.comment
  | .update u => u.comment
  | .delete d => d.comment

/-- The text contains exactly these placeholders and is closed, except that it may end with a
comment. -/
def EndsWith (backslash : Bool) (t : Str) (placeholders : List Str) : Prop :=
  ClosedWith backslash t placeholders ∨ scan backslash .init t = ⟨.comment, 0, placeholders⟩

instance (b : Bool) (t : Str) (ps : List Str) : Decidable (ClosedWith b t ps) :=
  inferInstanceAs (Decidable (_ = _))

instance (b : Bool) (t : Str) (ps : List Str) : Decidable (EndsWith b t ps) :=
  inferInstanceAs (Decidable (_ ∨ _))

/-- The statement whose names contain no double quote, whose raw fragments are self-contained, and
that has no comment except possibly one line at its end. -/
def TameStmt [GoRuntime] (backslash : Bool) (s : Stmt) : Prop :=
  (∀ p ∈ layout (uncommented s), Tame backslash p) ∧ OneLine (commentOf s)

instance [GoRuntime] (b : Bool) (s : Stmt) : Decidable (TameStmt b s) :=
  inferInstanceAs (Decidable ((∀ p ∈ layout (uncommented s), Tame b p) ∧ _ ∉ _ ∧ _ ∉ _))

/-- What a reader who skips comments sees, from a state of the scanner on. -/
def visible (backslash : Bool) : Scan → Str → Str
  | s, [] => if s.mode = .dash then ['-'] else []
  | s, c :: t =>
    let s' := s.step backslash c
    if s'.mode = .comment then visible backslash s' t
    else (if s.mode = .dash then ['-'] else []) ++ (if s'.mode = .dash then [] else [c])
      ++ visible backslash s' t

/-- What is left of a text from its first line break on. -/
def fromLineBreak (t : Str) : Str := t.dropWhile fun c => c ≠ '\n' && c ≠ '\r'

end Verif.Spec
