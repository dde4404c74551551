import Verif.Basic

/-!
# Words, blanks and keywords: what the texts given to the tokenizer are made of

Nothing here refers to the model.
-/

namespace Verif.Spec

/-- Blank, tab, newline, carriage return. -/
def blankRune (c : Char) : Bool := c ∈ [' ', '\t', '\n', '\r']

/-- ASCII letters and digits, underscore and dot. -/
def wordRune (c : Char) : Bool := c.isAlphanum || c = '_' || c = '.'

/-- The keywords. -/
def sqlKeywords : List Str :=
  [s%"SELECT", s%"UPDATE", s%"INSERT", s%"DELETE", s%"FROM", s%"WHERE", s%"AND", s%"OR",
   s%"LIMIT", s%"OFFSET", s%"SET", s%"AS", s%"INNER", s%"CROSS", s%"LEFT", s%"RIGHT", s%"JOIN",
   s%"ON", s%"GROUP", s%"BY", s%"HAVING", s%"ORDER", s%"DISTINCT", s%"ONLY", s%"USING",
   s%"RETURNING", s%"VALUES", s%"INTO", s%"CONFLICT", s%"DO", s%"NOTHING", s%"WITH", s%"NOT",
   s%"EXISTS", s%"COUNT", s%"MAX", s%"MIN", s%"SUM"]

/-- The text is the upper-case text `k` in some mix of cases. -/
def spells (w k : Str) : Prop := w.map Char.toUpper = k

instance (w k : Str) : Decidable (spells w k) := inferInstanceAs (Decidable (_ = _))

/-- A word: one or more word runes. -/
def isWord (w : Str) : Prop := w ≠ [] ∧ ∀ c ∈ w, wordRune c = true

/-- A word that is not a keyword. -/
def isName (w : Str) : Prop := isWord w ∧ ∀ k ∈ sqlKeywords, ¬ spells w k

/-- A rune that is a token of its own. -/
def symbolRune (c : Char) : Prop := wordRune c = false ∧ blankRune c = false ∧ c ≠ '\x00'

/-- A word or a symbol. -/
def isLexeme (x : Str) : Prop := isWord x ∨ ∃ c, symbolRune c ∧ x = [c]

/-- `Spelled xs text`: the text is the lexemes `xs` with any blanks around them, where two
adjacent words are separated by at least one blank. -/
inductive Spelled : List Str → Str → Prop
  | done (w : Str) : (∀ c ∈ w, blankRune c = true) → Spelled [] w
  | more (w x : Str) (xs : List Str) (text : Str) : (∀ c ∈ w, blankRune c = true) → isLexeme x →
      Spelled xs text →
      (isWord x → ∀ c, text.head? = some c → wordRune c = false) →
      Spelled (x :: xs) (w ++ x ++ text)

end Verif.Spec
