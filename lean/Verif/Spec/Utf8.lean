import Verif.Basic

/-!
# UTF-8

The encoding of a sequence of characters, with the encoding of one character taken from Lean's core
library. Nothing here refers to the model.
-/

namespace Verif.Spec

/-- A Go string as the bytes it holds. -/
abbrev Bytes := List UInt8

/-- The UTF-8 encoding of a sequence of characters. -/
def utf8 (s : Str) : Bytes := s.flatMap String.utf8EncodeChar

/-- The bytes are the encoding of some characters. -/
def ValidUtf8 (b : Bytes) : Prop := ∃ s, b = utf8 s

/-- How a decoder with replacement reads bytes: characters that are encoded are taken, and a byte
with which no encoded character begins is read as U+FFFD. -/
inductive Decodes : Bytes → Str → Prop
  | done : Decodes [] []
  | char (c : Char) (b : Bytes) (s : Str) : Decodes b s → Decodes (String.utf8EncodeChar c ++ b) (c :: s)
  | bad (x : UInt8) (b : Bytes) (s : Str) : (∀ c r, x :: b ≠ String.utf8EncodeChar c ++ r) →
      Decodes b s → Decodes (x :: b) ('�' :: s)

end Verif.Spec
