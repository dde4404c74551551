import Verif.Spec.Lex
import Verif.Spec.Condition

/-!
# Join strings

The texts `[INNER|LEFT|RIGHT] JOIN <table> ON <a> = <b> (AND|OR <c> = <d>)*` as sequences of
lexemes, and what they mean.  Nothing here refers to the model.
-/

namespace Verif.Spec

/-- The word before `JOIN` and the type of join it asks for. -/
def kindOf (w type : Str) : Prop :=
  (spells w s%"INNER" ∧ type = s%"INNER JOIN") ∨ (spells w s%"LEFT" ∧ type = s%"LEFT JOIN") ∨
  (spells w s%"RIGHT" ∧ type = s%"RIGHT JOIN")

/-- What comes before the condition: the lexemes, the type of join and the table they give. -/
inductive JoinHead : List Str → Str → Str → Prop
  | kind (k j t o type : Str) : kindOf k type → spells j s%"JOIN" → isName t → spells o s%"ON" →
      JoinHead [k, j, t, o] type t
  | plain (j t o : Str) : spells j s%"JOIN" → isName t → spells o s%"ON" →
      JoinHead [j, t, o] s%"INNER JOIN" t
  | table (t o : Str) : isName t → spells o s%"ON" → JoinHead [t, o] s%"INNER JOIN" t
  | on (o : Str) : spells o s%"ON" → JoinHead [o] s%"INNER JOIN" []
  | bare : JoinHead [] s%"INNER JOIN" []

/-- A comparison with the connective before it. -/
structure JoinLink where
  word : Str
  conn : Conn
  left : Str
  right : Str

/-- The connective is spelled in any case, the operands are names. -/
def JoinLink.good (l : JoinLink) : Prop :=
  spells l.word l.conn.word ∧ isName l.left ∧ isName l.right

/-- The lexemes of a further comparison. -/
def JoinLink.lexemes (l : JoinLink) : List Str := [l.word, l.left, s%"=", l.right]

/-- No `AND` comes after an `OR`. -/
def noAndAfterOr : List Conn → Prop
  | [] => True
  | .and :: l => noAndAfterOr l
  | .or :: l => ∀ c ∈ l, c = .or

/-- The tree that groups from the left. -/
def leftTree {α : Type} (acc : Cond α) : List (Conn × α) → Cond α
  | [] => acc
  | (c, a) :: l => leftTree (acc.join c (.atom a)) l

/-- The names `a` and `b` given as dotted names. -/
def dotted (name : Str) (parts : List Str) : Prop :=
  name = List.intercalate s%"." parts ∧ parts ≠ [] ∧ ∀ p ∈ parts, p ≠ [] ∧ ∀ c ∈ p, ordinary c

end Verif.Spec
