import Verif.Lemmas.Transcript

/-!
# C38, C41: the code of the lexer and of `ParseJoin`, statement by statement

The theorems on tokens and joins are about `lexAll` and `parseJoin`, which work on what is left of a
text. These are what the code computes with its look-ahead, its cursor and its loops.
-/

namespace Verif.Props
open Spec

/-- C38, the code of `Next` and `Iterator`: a lexer with two runes read ahead gives the tokens of
`lexAll`, whatever larger bound the loops have. -/
theorem C38_transcript (s : Str) (n : Nat) (h : s.length < n) : Transcript.tokens n s = lexAll s :=
  Transcript.tokens_eq n s h

/-- C41, the code of `ParseJoin`: with a cursor and two nested loops it gives the join, the error or
the panic of `parseJoin`, whatever larger bound the loops have. -/
theorem C41_transcript (s : Str) (n : Nat) (h : s.length < n) :
    Transcript.ParseJoin n s = parseJoin s :=
  Transcript.parseJoin_eq n s h

example : Transcript.tokens 30 s%"t ON\ta=b.c" =
    [⟨s%"Literal", s%"t"⟩, ⟨s%"ON", s%"ON"⟩, ⟨s%"Literal", s%"a"⟩, ⟨s%"=", s%"="⟩,
      ⟨s%"Literal", s%"b.c"⟩] := by rfl

example : Transcript.ParseJoin 60 s%"LEFT JOIN t ON a = b AND c = d OR e = f" =
    .ok (some ⟨s%"LEFT JOIN", { name := s%"t" },
      .infx (.infx (.onClause { name := s%"a" } { name := s%"b" }) (.logical s%"AND")
        (.onClause { name := s%"c" } { name := s%"d" })) (.logical s%"OR")
        (.onClause { name := s%"e" } { name := s%"f" })⟩) := by rfl

example : Transcript.ParseJoin 60 s%"JOIN t ON a = b AND c" = .error .index := by rfl
example : Transcript.ParseJoin 60 s%"JOIN t ON a = b AND = c" = .ok none := by rfl

end Verif.Props
