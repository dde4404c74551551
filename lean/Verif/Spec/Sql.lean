import Verif.Spec.Tokens

/-!
# A reader of SQL statements

From the tokens of a text and the arguments sent along with it to the statement they stand for: a
recursive-descent reader with the precedence of SQL (`OR`, `AND`, `NOT`, comparisons), for the part
of the language that loukoum produces. Key words are upper case, other names are quoted, or single
words that are not reserved. The readers carry a bound on the depth of their recursion.

Nothing here refers to the model, except for the type of argument values.
-/

namespace Verif.Spec

/-! ## Statements -/

/-- A name, quoted or not, with its parts between the dots. -/
inductive Ref where
  | quoted (parts : List Str)
  | bare (parts : List Str)
deriving DecidableEq

/-- `[ONLY] name [AS alias]` -/
structure SqlTable where
  only : Bool
  name : Ref
  alias : Option Ref
deriving DecidableEq

/-- `DISTINCT`, `DISTINCT ON (columns)` or neither. -/
inductive SqlDistinct where
  | no
  | yes
  | on (columns : List Ref)
deriving DecidableEq

/-- `expression direction` -/
structure SqlOrder where
  name : Ref
  descending : Bool
deriving DecidableEq

mutual

/-- An expression. -/
inductive Sql where
  | ref (r : Ref)
  | star
  | null
  | value (v : Val)
  | binary (op : Str) (l r : Sql)
  | not (e : Sql)
  /-- `e [NOT] IN (set)`, the set being a list or a query -/
  | isIn (negated : Bool) (e set : Sql)
  | between (negated : Bool) (e lo hi : Sql)
  | exist (q : SqlSelect)
  | list (es : List Sql)
  | call (f : Str) (distinct : Bool) (args : List Sql)
  | query (q : SqlSelect)

/-- An entry of a column list: `expression [AS alias]` -/
inductive SqlItem where
  | mk (e : Sql) (alias : Option Ref)

/-- `kind table ON condition` -/
inductive SqlJoin where
  | mk (kind : Str) (table : SqlTable) (cond : Sql)

/-- `name AS (query)` -/
inductive SqlWith where
  | mk (name : Str) (q : SqlSelect)

/-- A query. -/
inductive SqlSelect where
  | mk (withs : List SqlWith) (distinct : SqlDistinct) (items : List SqlItem)
      (tables : List SqlTable) (joins : List SqlJoin) (whr : Option Sql) (groupBy : List Ref)
      (having : Option Sql) (orderBy : List SqlOrder) (limit offset : Option Nat)

end

/-- `column = expression`, or `(columns) = (expressions)` -/
inductive SqlSet where
  | pairs (l : List (Ref × Sql))
  | columns (l : List Ref) (value : Sql)

/-- `DO NOTHING` or `DO UPDATE SET ...` -/
inductive SqlAction where
  | nothing
  | update (set : SqlSet)

/-- A statement. -/
inductive SqlStmt where
  | select (q : SqlSelect)
  | insert (into : SqlTable) (columns : List Ref) (rows : List (List Sql))
      (conflict : Option (List Ref × SqlAction)) (returning : List SqlItem)
  | update (withs : List SqlWith) (table : SqlTable) (set : SqlSet) (tables : List SqlTable)
      (whr : Option Sql) (returning : List SqlItem)
  | delete (tables usings : List SqlTable) (whr : Option Sql) (returning : List SqlItem)

/-! ## Tokens with the arguments in place of the placeholders -/

/-- A token that is not a placeholder, or the value that a placeholder stands for. -/
inductive Lexeme where
  | tok (t : SqlTok)
  | value (v : Val)

/-- Put the `k`-th argument in the place of `$k`. -/
def supply (args : List Val) : List SqlTok → Option (List Lexeme)
  | [] => some []
  | .param ds :: l =>
    match readNat ds with
    | some (k + 1) =>
      match args[k]?, supply args l with
      | some v, some r => some (.value v :: r)
      | _, _ => none
    | _ => none
  | t :: l =>
    match supply args l with
    | some r => some (.tok t :: r)
    | none => none

/-! ## Parts of readers -/

/-- A reader takes what it reads from the beginning and returns the rest. -/
abbrev Reader (α : Type) := List Lexeme → Option (α × List Lexeme)

/-- This token is next. -/
def eat (t : SqlTok) : List Lexeme → Option (List Lexeme)
  | .tok x :: r => if x = t then some r else none
  | _ => none

/-- These tokens are next. -/
def eats : List SqlTok → List Lexeme → Option (List Lexeme)
  | [], r => some r
  | t :: l, r =>
    match eat t r with
    | some r' => eats l r'
    | none => none

/-- One or more, with a separator between them (at most the number given). -/
def sepList {α : Type} (sep : SqlTok) (p : Reader α) : Nat → Reader (List α)
  | 0, _ => none
  | n + 1, ts =>
    match p ts with
    | none => none
    | some (x, r) =>
      match eat sep r with
      | none => some ([x], r)
      | some r' =>
        match sepList sep p n r' with
        | none => none
        | some (xs, r'') => some (x :: xs, r'')

/-- One or more with commas between them. -/
abbrev commaList {α : Type} (p : Reader α) : Nat → Reader (List α) := sepList (.sym ',') p

/-- Between parentheses. -/
def parens {α : Type} (p : Reader α) : Reader α := fun ts =>
  match eat (.sym '(') ts with
  | none => none
  | some r =>
    match p r with
    | none => none
    | some (x, r') =>
      match eat (.sym ')') r' with
      | none => none
      | some r'' => some (x, r'')

/-- If the key words are next, what follows them. -/
def ifNext {α : Type} (words : List SqlTok) (p : Reader α) : Reader (Option α) := fun ts =>
  match eats words ts with
  | none => some (none, ts)
  | some r =>
    match p r with
    | none => none
    | some (x, r') => some (some x, r')

/-- A list that may be absent. -/
def ifNextList {α : Type} (words : List SqlTok) (p : Reader (List α)) : Reader (List α) := fun ts =>
  match eats words ts with
  | none => some ([], ts)
  | some r => p r

/-- Words that cannot be names. -/
def reservedWords : List Str :=
  [s%"ALL", s%"AND", s%"AS", s%"ASC", s%"BETWEEN", s%"BY", s%"CONFLICT", s%"DELETE", s%"DESC",
   s%"DISTINCT", s%"DO", s%"EXISTS", s%"FALSE", s%"FROM", s%"GROUP", s%"HAVING", s%"ILIKE", s%"IN",
   s%"INNER", s%"INSERT", s%"INTO", s%"IS", s%"JOIN", s%"LEFT", s%"LIKE", s%"LIMIT", s%"NOT",
   s%"NULL", s%"OFFSET", s%"ON", s%"ONLY", s%"OR", s%"ORDER", s%"OUTER", s%"RETURNING", s%"RIGHT",
   s%"SELECT", s%"SET", s%"TRUE", s%"UPDATE", s%"USING", s%"VALUES", s%"WHERE", s%"WITH"]

/-- A word that can be a name: it begins with no digit and is not reserved. -/
def isNameWord (w : Str) : Bool :=
  !w.isEmpty && !(w.head?.any isDigit) && !(reservedWords.contains (w.map Char.toUpper))

/-- A quoted part of a name. -/
def readQuotedPart : Reader Str
  | .tok (.name a) :: r => some (a, r)
  | _ => none

/-- A part of a name without quotes. -/
def readBarePart : Reader Str
  | .tok (.word a) :: r => if isNameWord a then some (a, r) else none
  | _ => none

/-- A name. -/
def readRef (n : Nat) : Reader Ref := fun ts =>
  match ts with
  | .tok (.name _) :: _ =>
    match sepList (.sym '.') readQuotedPart n ts with
    | none => none
    | some (ps, r) => some (.quoted ps, r)
  | _ =>
    match sepList (.sym '.') readBarePart n ts with
    | none => none
    | some (ps, r) => some (.bare ps, r)

/-- `[AS alias]` -/
def readAlias (n : Nat) : Reader (Option Ref) := ifNext [.word s%"AS"] (readRef n)

/-- `[ONLY] name [AS alias]` -/
def readTable (n : Nat) : Reader SqlTable := fun ts =>
  let (only, r) :=
    match eat (.word s%"ONLY") ts with
    | some r => (true, r)
    | none => (false, ts)
  match readRef n r with
  | none => none
  | some (name, r') =>
    match readAlias n r' with
    | none => none
    | some (alias, r'') => some (⟨only, name, alias⟩, r'')

/-- A number without sign. -/
def readNumber : Reader Nat
  | .tok (.word ds) :: r =>
    match readNat ds with
    | none => none
    | some n => some (n, r)
  | _ => none

/-- `name ASC` or `name DESC` -/
def readOrder (n : Nat) : Reader SqlOrder := fun ts =>
  match readRef n ts with
  | none => none
  | some (name, r) =>
    match eat (.word s%"ASC") r with
    | some r' => some (⟨name, false⟩, r')
    | none =>
      match eat (.word s%"DESC") r with
      | some r' => some (⟨name, true⟩, r')
      | none => none

/-- `[DISTINCT]` or `DISTINCT ON (columns)` -/
def readDistinct (n : Nat) : Reader SqlDistinct := fun ts =>
  match eat (.word s%"DISTINCT") ts with
  | none => some (.no, ts)
  | some r =>
    match eat (.word s%"ON") r with
    | none => some (.yes, r)
    | some r' =>
      match parens (commaList (readRef n) n) r' with
      | none => none
      | some (columns, r'') => some (.on columns, r'')

/-- The comparison operators with their tokens. One that extends another comes before it. -/
def operatorTable : List (Str × List SqlTok) :=
  [(s%"IS NOT DISTINCT FROM",
      [.word s%"IS", .word s%"NOT", .word s%"DISTINCT", .word s%"FROM"]),
   (s%"IS DISTINCT FROM", [.word s%"IS", .word s%"DISTINCT", .word s%"FROM"]),
   (s%"IS NOT", [.word s%"IS", .word s%"NOT"]),
   (s%"IS", [.word s%"IS"]),
   (s%"NOT ILIKE", [.word s%"NOT", .word s%"ILIKE"]),
   (s%"NOT LIKE", [.word s%"NOT", .word s%"LIKE"]),
   (s%"ILIKE", [.word s%"ILIKE"]),
   (s%"LIKE", [.word s%"LIKE"]),
   (s%"!=", [.sym '!', .sym '=']),
   (s%">=", [.sym '>', .sym '=']),
   (s%"<=", [.sym '<', .sym '=']),
   (s%"<@", [.sym '<', .sym '@']),
   (s%"@>", [.sym '@', .sym '>']),
   (s%"&&", [.sym '&', .sym '&']),
   (s%"=", [.sym '=']),
   (s%">", [.sym '>']),
   (s%"<", [.sym '<'])]

/-- The first of these operators that is next. -/
def readOperator : List (Str × List SqlTok) → Reader Str
  | [], _ => none
  | (op, ts) :: l, r =>
    match eats ts r with
    | some r' => some (op, r')
    | none => readOperator l r

/-- The types of joins with their tokens. -/
def joinTable : List (Str × List SqlTok) :=
  [(s%"INNER JOIN", [.word s%"INNER", .word s%"JOIN"]),
   (s%"LEFT JOIN", [.word s%"LEFT", .word s%"JOIN"]),
   (s%"RIGHT JOIN", [.word s%"RIGHT", .word s%"JOIN"]),
   (s%"LEFT OUTER JOIN", [.word s%"LEFT", .word s%"OUTER", .word s%"JOIN"]),
   (s%"RIGHT OUTER JOIN", [.word s%"RIGHT", .word s%"OUTER", .word s%"JOIN"])]

/-- A query begins here. -/
def queryNext (ts : List Lexeme) : Bool :=
  (eat (.word s%"SELECT") ts).isSome || (eat (.word s%"WITH") ts).isSome

/-! ## The grammar -/

mutual

/-- Conditions separated by `OR`. -/
def readExpr : Nat → Reader Sql
  | 0, _ => none
  | n + 1, ts =>
    match readConj n ts with
    | none => none
    | some (l, r) => readOrTail n l r

/-- What follows a condition among conditions separated by `OR`. -/
def readOrTail : Nat → Sql → Reader Sql
  | 0, _, _ => none
  | n + 1, l, ts =>
    match eat (.word s%"OR") ts with
    | none => some (l, ts)
    | some r =>
      match readConj n r with
      | none => none
      | some (x, r') => readOrTail n (.binary s%"OR" l x) r'

/-- Conditions separated by `AND`. -/
def readConj : Nat → Reader Sql
  | 0, _ => none
  | n + 1, ts =>
    match readNot n ts with
    | none => none
    | some (l, r) => readAndTail n l r

/-- What follows a condition among conditions separated by `AND`. -/
def readAndTail : Nat → Sql → Reader Sql
  | 0, _, _ => none
  | n + 1, l, ts =>
    match eat (.word s%"AND") ts with
    | none => some (l, ts)
    | some r =>
      match readNot n r with
      | none => none
      | some (x, r') => readAndTail n (.binary s%"AND" l x) r'

/-- `[NOT] condition` -/
def readNot : Nat → Reader Sql
  | 0, _ => none
  | n + 1, ts =>
    match eat (.word s%"NOT") ts with
    | none => readPredicate n ts
    | some r =>
      match readNot n r with
      | none => none
      | some (x, r') => some (.not x, r')

/-- `operand`, `operand [NOT] IN (...)`, `operand [NOT] BETWEEN operand AND operand`,
`operand operator operand` -/
def readPredicate : Nat → Reader Sql
  | 0, _ => none
  | n + 1, ts =>
    match readOperandOf n ts with
    | none => none
    | some (l, r) =>
      match eats [.word s%"IN"] r with
      | some r' => readInTail n false l r'
      | none =>
      match eats [.word s%"NOT", .word s%"IN"] r with
      | some r' => readInTail n true l r'
      | none =>
      match eats [.word s%"BETWEEN"] r with
      | some r' => readBetweenTail n false l r'
      | none =>
      match eats [.word s%"NOT", .word s%"BETWEEN"] r with
      | some r' => readBetweenTail n true l r'
      | none =>
      match readOperator operatorTable r with
      | none => some (l, r)
      | some (op, r') =>
        match readOperandOf n r' with
        | none => none
        | some (x, r'') => some (.binary op l x, r'')

/-- What follows `IN`. -/
def readInTail : Nat → Bool → Sql → Reader Sql
  | 0, _, _, _ => none
  | n + 1, negated, l, ts =>
    match parens (readSet n) ts with
    | none => none
    | some (x, r) => some (.isIn negated l x, r)

/-- What follows `BETWEEN`. -/
def readBetweenTail : Nat → Bool → Sql → Reader Sql
  | 0, _, _, _ => none
  | n + 1, negated, l, ts =>
    match readOperandOf n ts with
    | none => none
    | some (lo, r) =>
      match eat (.word s%"AND") r with
      | none => none
      | some r' =>
        match readOperandOf n r' with
        | none => none
        | some (hi, r'') => some (.between negated l lo hi, r'')

/-- A query or a list of expressions. -/
def readSet : Nat → Reader Sql
  | 0, _ => none
  | n + 1, ts =>
    if queryNext ts then
      match readSelect n ts with
      | none => none
      | some (q, r) => some (.query q, r)
    else
      match commaList (readExpr n) n ts with
      | none => none
      | some (es, r) => some (.list es, r)

/-- An operand: a name, a value, `NULL`, `EXISTS (query)`, a call, or a query or an expression
between parentheses. -/
def readOperandOf : Nat → Reader Sql
  | 0, _ => none
  | n + 1, ts =>
    match ts with
    | .value v :: r => some (.value v, r)
    | .tok (.name _) :: _ =>
      match readRef n ts with
      | none => none
      | some (x, r) => some (.ref x, r)
    | .tok (.sym _) :: _ =>
      parens (fun r =>
        if queryNext r then
          match readSelect n r with
          | none => none
          | some (q, r') => some (.query q, r')
        else readExpr n r) ts
    | .tok (.word w) :: r =>
      if w = s%"NULL" then some (.null, r)
      else if w = s%"EXISTS" then
        match parens (readSelect n) r with
        | none => none
        | some (q, r') => some (.exist q, r')
      else if (eat (.sym '(') r).isSome then
        if isNameWord w then parens (readArgs n w) r else none
      else
        match readRef n ts with
        | none => none
        | some (x, r') => some (.ref x, r')
    | _ => none

/-- The arguments of a call: nothing, `*` or `[DISTINCT]` expressions. -/
def readArgs : Nat → Str → Reader Sql
  | 0, _, _ => none
  | n + 1, f, ts =>
    if (eat (.sym ')') ts).isSome then some (.call f false [], ts)
    else
      match eat (.sym '*') ts with
      | some r => some (.call f false [.star], r)
      | none =>
        match eat (.word s%"DISTINCT") ts with
        | some r =>
          match eat (.sym '*') r with
          | some r' => some (.call f true [.star], r')
          | none =>
            match commaList (readExpr n) n r with
            | none => none
            | some (es, r') => some (.call f true es, r')
        | none =>
          match commaList (readExpr n) n ts with
          | none => none
          | some (es, r) => some (.call f false es, r)

/-- `expression [AS alias]` -/
def readItem : Nat → Reader SqlItem
  | 0, _ => none
  | n + 1, ts =>
    match readExpr n ts with
    | none => none
    | some (e, r) =>
      match readAlias n r with
      | none => none
      | some (alias, r') => some (.mk e alias, r')

/-- `name AS (query)` -/
def readWith : Nat → Reader SqlWith
  | 0, _ => none
  | n + 1, ts =>
    match readBarePart ts with
    | none => none
    | some (name, r) =>
      match eat (.word s%"AS") r with
      | none => none
      | some r' =>
        match parens (readSelect n) r' with
        | none => none
        | some (q, r'') => some (.mk name q, r'')

/-- Joins. -/
def readJoins : Nat → Reader (List SqlJoin)
  | 0, _ => none
  | n + 1, ts =>
    match readOperator joinTable ts with
    | none => some ([], ts)
    | some (kind, r) =>
      match readTable n r with
      | none => none
      | some (table, r1) =>
        match eat (.word s%"ON") r1 with
        | none => none
        | some r2 =>
          match readExpr n r2 with
          | none => none
          | some (cond, r3) =>
            match readJoins n r3 with
            | none => none
            | some (l, r4) => some (.mk kind table cond :: l, r4)

/-- A query. -/
def readSelect : Nat → Reader SqlSelect
  | 0, _ => none
  | n + 1, ts => do
    let (withs, r) ← ifNextList [.word s%"WITH"] (commaList (readWith n) n) ts
    let r ← eat (.word s%"SELECT") r
    let (distinct, r) ← readDistinct n r
    let (items, r) ← commaList (readItem n) n r
    let (tables, r) ← ifNextList [.word s%"FROM"] (commaList (readTable n) n) r
    let (joins, r) ← readJoins n r
    let (whr, r) ← ifNext [.word s%"WHERE"] (readExpr n) r
    let (groupBy, r) ← ifNextList [.word s%"GROUP", .word s%"BY"] (commaList (readRef n) n) r
    let (having, r) ← ifNext [.word s%"HAVING"] (readExpr n) r
    let (orderBy, r) ← ifNextList [.word s%"ORDER", .word s%"BY"] (commaList (readOrder n) n) r
    let (limit, r) ← ifNext [.word s%"LIMIT"] readNumber r
    let (offset, r) ← ifNext [.word s%"OFFSET"] readNumber r
    some (.mk withs distinct items tables joins whr groupBy having orderBy limit offset, r)

end

/-- `name = expression` -/
def readPair (n : Nat) : Reader (Ref × Sql) := fun ts =>
  match readRef n ts with
  | none => none
  | some (c, r) =>
    match eat (.sym '=') r with
    | none => none
    | some r' =>
      match readExpr n r' with
      | none => none
      | some (e, r'') => some ((c, e), r'')

/-- What follows `SET`. -/
def readAssignments (n : Nat) : Reader SqlSet := fun ts =>
  if (eat (.sym '(') ts).isSome then do
    let (cs, r) ← parens (commaList (readRef n) n) ts
    let r ← eat (.sym '=') r
    let (e, r) ← parens (readSet n) r
    some (.columns cs e, r)
  else do
    let (l, r) ← commaList (readPair n) n ts
    some (.pairs l, r)

/-- `RETURNING ...` -/
def readReturning (n : Nat) : Reader (List SqlItem) :=
  ifNextList [.word s%"RETURNING"] (commaList (readItem n) n)

/-- `(columns)`, or nothing. -/
def readColumns (n : Nat) : Reader (List Ref) := fun ts =>
  if (eat (.sym '(') ts).isSome then parens (commaList (readRef n) n) ts else some ([], ts)

/-- What follows `ON CONFLICT`. -/
def readConflict (n : Nat) : Reader (List Ref × SqlAction) := fun ts => do
  let (targets, r) ← readColumns n ts
  let r ← eat (.word s%"DO") r
  match eat (.word s%"NOTHING") r with
  | some r => some ((targets, .nothing), r)
  | none => do
    let r ← eats [.word s%"UPDATE", .word s%"SET"] r
    let (set, r) ← readAssignments n r
    some ((targets, .update set), r)

/-- `INSERT INTO table [(columns)] [VALUES rows] [ON CONFLICT ...] [RETURNING ...]` -/
def readInsert (n : Nat) : Reader SqlStmt := fun ts => do
  let r ← eats [.word s%"INSERT", .word s%"INTO"] ts
  let (into, r) ← readTable n r
  let (columns, r) ← readColumns n r
  let (rows, r) ← ifNextList [.word s%"VALUES"] (commaList (parens (commaList (readExpr n) n)) n) r
  let (conflict, r) ← ifNext [.word s%"ON", .word s%"CONFLICT"] (readConflict n) r
  let (returning, r) ← readReturning n r
  some (.insert into columns rows conflict returning, r)

/-- `[WITH ...] UPDATE table SET ... [FROM tables] [WHERE ...] [RETURNING ...]` -/
def readUpdate (n : Nat) : Reader SqlStmt := fun ts => do
  let (withs, r) ← ifNextList [.word s%"WITH"] (commaList (readWith n) n) ts
  let r ← eat (.word s%"UPDATE") r
  let (table, r) ← readTable n r
  let r ← eat (.word s%"SET") r
  let (set, r) ← readAssignments n r
  let (tables, r) ← ifNextList [.word s%"FROM"] (commaList (readTable n) n) r
  let (whr, r) ← ifNext [.word s%"WHERE"] (readExpr n) r
  let (returning, r) ← readReturning n r
  some (.update withs table set tables whr returning, r)

/-- `DELETE FROM tables [USING tables] [WHERE ...] [RETURNING ...]` -/
def readDelete (n : Nat) : Reader SqlStmt := fun ts => do
  let r ← eats [.word s%"DELETE", .word s%"FROM"] ts
  let (tables, r) ← commaList (readTable n) n r
  let (usings, r) ← ifNextList [.word s%"USING"] (commaList (readTable n) n) r
  let (whr, r) ← ifNext [.word s%"WHERE"] (readExpr n) r
  let (returning, r) ← readReturning n r
  some (.delete tables usings whr returning, r)

/-- One of the four kinds of statements. -/
def readAny (n : Nat) : Reader SqlStmt := fun ts =>
  match readSelect n ts with
  | some (q, r) => some (.select q, r)
  | none =>
    match readInsert n ts with
    | some x => some x
    | none =>
      match readUpdate n ts with
      | some x => some x
      | none => readDelete n ts

/-- The statement that a text stands for with these arguments: its tokens, with the arguments in the
place of the placeholders, are those of exactly one statement, with or without a semicolon at the
end. -/
def readStmt (backslash : Bool) (text : Str) (args : List Val) : Option SqlStmt :=
  match tokens backslash text with
  | none => none
  | some ts =>
    match supply args ts with
    | none => none
    | some ls =>
      match readAny (10 * ls.length + 10) ls with
      | some (s, []) => some s
      | some (s, [.tok (.sym ';')]) => some s
      | _ => none

end Verif.Spec
