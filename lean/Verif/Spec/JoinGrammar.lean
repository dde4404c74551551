import Verif.Spec.JoinText

/-!
# The texts that are read as joins, exactly

Any text is a sequence of lexemes. The reader of join strings takes items from it, as long as there
is one; the rest decides whether the text is accepted. Nothing here refers to the model.
-/

namespace Verif.Spec

/-- `AND` or `OR`, in any case. -/
def isConnective (x : Str) : Prop := spells x s%"AND" ∨ spells x s%"OR"

/-- `INNER`, `LEFT` or `RIGHT`, in any case. -/
def isKind (x : Str) : Prop := ∃ type, kindOf x type

/-- The parts of a join string. -/
inductive JoinItem where
  /-- `JOIN` -/
  | join (j : Str)
  /-- `LEFT JOIN` and the like -/
  | kind (k j type : Str)
  /-- `table ON` -/
  | table (t o : Str)
  /-- `a = b AND c = d OR ...` -/
  | cond (a b : Str) (ls : List JoinLink)
  /-- `ON` -/
  | on (o : Str)
  /-- `(` or `)` -/
  | paren (p : Str)

/-- The lexemes of an item. -/
def JoinItem.lexemes : JoinItem → List Str
  | .join j => [j]
  | .kind k j _ => [k, j]
  | .table t o => [t, o]
  | .cond a b ls => [a, s%"=", b] ++ ls.flatMap JoinLink.lexemes
  | .on o => [o]
  | .paren p => [p]

/-- The lexemes are what the item says. -/
def JoinItem.good : JoinItem → Prop
  | .join j => spells j s%"JOIN"
  | .kind k j type => kindOf k type ∧ spells j s%"JOIN"
  | .table t o => isName t ∧ spells o s%"ON"
  | .cond a b ls => isName a ∧ isName b ∧ ∀ l ∈ ls, l.good
  | .on o => spells o s%"ON"
  | .paren p => p = s%"(" ∨ p = s%")"

/-- The type of join that the items ask for: the last one given, INNER JOIN without. -/
def typeOfItems : List JoinItem → Str → Str
  | [], type => type
  | .kind _ _ type :: l, _ => typeOfItems l type
  | _ :: l, type => typeOfItems l type

/-- The table: the last one given, none without. -/
def tableOfItems : List JoinItem → Str → Str
  | [], table => table
  | .table t _ :: l, _ => tableOfItems l t
  | _ :: l, table => tableOfItems l table

/-- The condition: the last one given, grouped from the left. -/
def condOfItems : List JoinItem → Option (Cond (Str × Str)) → Option (Cond (Str × Str))
  | [], cond => cond
  | .cond a b ls :: l, _ =>
    condOfItems l (some (leftTree (.atom (a, b)) (ls.map fun x => (x.conn, (x.left, x.right)))))
  | _ :: l, cond => condOfItems l cond

/-- Is the last item a condition? (`b` if there is no item.) -/
def endsInCond (b : Bool) : List JoinItem → Bool
  | [] => b
  | .cond _ _ _ :: l => endsInCond true l
  | _ :: l => endsInCond false l

/-- What becomes of a join string. -/
inductive JoinVerdict where
  | accepted | refused | crash
deriving DecidableEq, Repr

/-- The lexemes after the last item and what becomes of the text; `afterCond` says that the last
item is a condition. -/
inductive JoinRest : Bool → List Str → JoinVerdict → Prop
  /-- Nothing is left. -/
  | done (afterCond : Bool) : JoinRest afterCond [] .accepted
  /-- A lexeme that begins no item: it is ignored with all that follows. -/
  | other (afterCond : Bool) (x : Str) (r : List Str) : ¬ isName x → ¬ isKind x →
      ¬ spells x s%"JOIN" → ¬ spells x s%"ON" → x ≠ s%"(" → x ≠ s%")" →
      (afterCond = true → ¬ isConnective x) → JoinRest afterCond (x :: r) .accepted
  /-- `LEFT` without `JOIN`: ignored likewise. -/
  | noJoin (afterCond : Bool) (x : Str) (r : List Str) : isKind x →
      (∀ y, r.head? = some y → ¬ spells y s%"JOIN") → JoinRest afterCond (x :: r) .accepted
  /-- A name before neither `ON` nor `=`: ignored likewise. -/
  | noOn (afterCond : Bool) (x : Str) (r : List Str) : isName x →
      (∀ y, r.head? = some y → ¬ spells y s%"ON" ∧ y ≠ s%"=") → JoinRest afterCond (x :: r) .accepted
  /-- A first comparison without right operand. -/
  | noRight (afterCond : Bool) (x : Str) (r : List Str) : isName x →
      (∀ y, r.head? = some y → ¬ isName y) → JoinRest afterCond (x :: s%"=" :: r) .refused
  /-- A connective without comparison. -/
  | linkNoLeft (x : Str) (r : List Str) : isConnective x →
      (∀ y, r.head? = some y → ¬ isName y) → JoinRest true (x :: r) .refused
  /-- A connective with a name that is not compared. -/
  | linkNoEquals (x a y : Str) (r : List Str) : isConnective x → isName a → y ≠ s%"=" →
      JoinRest true (x :: a :: y :: r) .refused
  /-- A further comparison without right operand. -/
  | linkNoRight (x a : Str) (r : List Str) : isConnective x → isName a →
      (∀ y, r.head? = some y → ¬ isName y) → JoinRest true (x :: a :: s%"=" :: r) .refused
  /-- A connective and a name at the end of the text. -/
  | linkEnds (x a : Str) : isConnective x → isName a → JoinRest true [x, a] .crash

end Verif.Spec
