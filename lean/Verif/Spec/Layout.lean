import Verif.Model.SetPairs

/-!
# What a statement should look like as SQL

A specification, independent of the `Write` methods: the pieces of SQL a statement is made
of, in order.  A piece is fixed SQL text, a name to be quoted, a raw fragment, a comment, or a
value.  The texts of operators and of types of joins and orderings count as raw fragments, because
nothing stops a user from choosing them.
-/

namespace Verif.Spec

/-- A piece of a query. -/
inductive Piece where
  /-- fixed SQL text: keywords, operators, punctuation, numbers -/
  | sql (t : Str)
  /-- an identifier, to be quoted -/
  | name (s : Str)
  /-- text given by the user to be copied verbatim -/
  | raw (t : Str)
  /-- a comment, from the semicolon before it -/
  | note (c : Str)
  /-- a value: `NULL` for nil, a placeholder otherwise -/
  | val (v : Val)

/-- Lists separated by a comma and a space. -/
def commaSep : List (List Piece) → List Piece
  | [] => []
  | [a] => a
  | a :: b :: l => a ++ .sql s%", " :: commaSep (b :: l)

/-- The clauses that are present, separated by single spaces. -/
def spaced : List (Option (List Piece)) → List Piece
  | [] => []
  | none :: l => spaced l
  | some a :: l => a ++ (l.flatMap fun | none => [] | some c => .sql s%" " :: c)

/-- A clause that is present only under a condition. -/
def clause (present : Bool) (c : List Piece) : Option (List Piece) :=
  if present then some c else none

/-- An operator without text. -/
def opBlank : Op → Bool
  | .nil => true
  | .logical s => s.isEmpty
  | .comparison s => s.isEmpty

/-- The empty name. -/
def identBlank : Ident → Bool
  | .str s => s.isEmpty
  | .raw _ => false
  | .other => false

/-- No expression at all. -/
def absent : Expr → Bool
  | .nil => true
  | _ => false

/-- An expression that holds nothing: no name, no element, or a missing part. -/
def blank : Expr → Bool
  | .nil => true
  | .ident i => identBlank i
  | .value _ => false
  | .arrayList l => l.isEmpty
  | .array l => l.isEmpty
  | .raw s => s.isEmpty
  | .wrapper e => blank e
  | .call _ _ => false
  | .infx l op r => blank l || opBlank op || blank r
  | .inx e op v => blank e || op.isEmpty || absent v
  | .between i op lo and hi =>
    identBlank i || op.isEmpty || and.isEmpty || blank lo || blank hi
  | .exist _ => false
  | .notExist _ => false
  | .select ⟨_, _, _, _, exprs, _, _, _, _, _, _, _, _, _, _⟩ => exprs.isEmpty
  | .onClause l r => l.name.isEmpty || r.name.isEmpty
  | .infixOn l op r => blank l || op.isEmpty || blank r

/-- The name of an identifier. -/
def identL : Ident → List Piece
  | .str s => [.name s]
  | .raw s => [.raw s]
  | .other => []

/-- The text of an operator. -/
def opL : Op → Str
  | .nil => []
  | .logical s => s
  | .comparison s => s

/-- `name [AS alias]` -/
def aliased (name alias : Str) : List Piece :=
  .name name :: (if alias.isEmpty then [] else [.sql s%" AS ", .name alias])

/-- A column. -/
def columnL (c : Column) : List Piece := aliased c.name c.alias

/-- `[ONLY] name [AS alias]` -/
def tableL (t : Table) : List Piece :=
  (if t.only then [.sql s%"ONLY "] else []) ++ aliased t.name t.alias

/-- An entry of FROM. -/
def fromItemL : FromItem → List Piece
  | .nil => []
  | .table t => tableL t
  | .raw s => [.raw s]

/-- An entry of ORDER BY: the expression is copied verbatim. -/
def orderL (o : Order) : List Piece :=
  if o.expression.isEmpty then [] else [.raw o.expression, .sql s%" ", .raw o.type]

/-- `FROM a, b` -/
def fromL (ts : List FromItem) : List Piece := .sql s%"FROM " :: commaSep (ts.map fromItemL)

/-- Optional verbatim alias of an aggregate. -/
def aggAliasL (alias : Str) : List Piece :=
  if alias.isEmpty then [] else [.sql s%" AS ", .raw alias]

/-- A comment after the statement. -/
def commentL (c : Str) : List Piece := if c.isEmpty then [] else [.note c]

mutual

/-- An expression. -/
def exprL : Expr → List Piece
  | .nil => []
  | .ident i => identL i
  | .value v => [.val v]
  | .arrayList l => commaSep (rowsL l)
  | .array l => commaSep (exprsL l)
  | .raw s => [.raw s]
  | .wrapper e => .sql s%"(" :: exprL e ++ [.sql s%")"]
  | .call f args => .raw f :: .sql s%"(" :: commaSep (exprsL args) ++ [.sql s%")"]
  | .infx l op r =>
    .sql s%"(" :: exprL l ++ .sql s%" " :: .raw (opL op) :: .sql s%" " :: exprL r ++ [.sql s%")"]
  | .inx e op v =>
    .sql s%"(" :: exprL e ++ .sql s%" " :: .raw op :: .sql s%" (" ::
      (if blank v then [] else exprL v) ++ [.sql s%"))"]
  | .between i op lo and hi =>
    .sql s%"(" :: identL i ++ .sql s%" " :: .raw op :: .sql s%" " :: exprL lo
      ++ .sql s%" " :: .raw and :: .sql s%" " :: exprL hi ++ [.sql s%")"]
  | .exist e => .sql s%"EXISTS (" :: exprL e ++ [.sql s%")"]
  | .notExist e => .sql s%"NOT EXISTS (" :: exprL e ++ [.sql s%")"]
  | .select s => selectL s
  | .onClause l r => columnL l ++ .sql s%" = " :: columnL r
  | .infixOn l op r =>
    .sql s%"(" :: exprL l ++ .sql s%" " :: .raw op :: .sql s%" " :: exprL r ++ [.sql s%")"]

/-- Expressions. -/
def exprsL : List Expr → List (List Piece)
  | [] => []
  | e :: l => exprL e :: exprsL l

/-- Parenthesised expressions. -/
def rowsL : List Expr → List (List Piece)
  | [] => []
  | e :: l => (.sql s%"(" :: exprL e ++ [.sql s%")"]) :: rowsL l

/-- An entry of the column list of SELECT or RETURNING. -/
def selExprL : SelExpr → List Piece
  | .nil => []
  | .column c => columnL c
  | .raw s => [.raw s]
  | .count v distinct alias =>
    .sql s%"COUNT(" :: (if distinct then [.sql s%"DISTINCT "] else []) ++ .raw v :: .sql s%")"
      :: aggAliasL alias
  | .max v alias => .sql s%"MAX(" :: .raw v :: .sql s%")" :: aggAliasL alias
  | .min v alias => .sql s%"MIN(" :: .raw v :: .sql s%")" :: aggAliasL alias
  | .sum v alias => .sql s%"SUM(" :: .raw v :: .sql s%")" :: aggAliasL alias
  | .exist e => .sql s%"EXISTS (" :: exprL e ++ [.sql s%")"]
  | .notExist e => .sql s%"NOT EXISTS (" :: exprL e ++ [.sql s%")"]

/-- Entries of a column list. -/
def selExprsL : List SelExpr → List (List Piece)
  | [] => []
  | e :: l => selExprL e :: selExprsL l

/-- `<type> JOIN table ON condition` -/
def joinL : Join → List Piece
  | ⟨type, table, cond⟩ => .raw type :: .sql s%" " :: tableL table ++ .sql s%" ON " :: exprL cond

/-- Joins, one clause each. -/
def joinsL : List Join → List (Option (List Piece))
  | [] => []
  | j :: l => some (joinL j) :: joinsL l

/-- `name AS (query)`; the name is copied verbatim. -/
def withL : WithQuery → List Piece
  | ⟨name, sub⟩ =>
    if name.isEmpty || blank sub then []
    else .raw name :: .sql s%" AS (" :: exprL sub ++ [.sql s%")"]

/-- Common table expressions. -/
def withsL : List WithQuery → List (List Piece)
  | [] => []
  | w :: l => withL w :: withsL l

/-- SELECT: the clauses that are present, in SQL order, separated by single spaces. -/
def selectL : SelectStmt → List Piece
  | ⟨pfx, withs, distinct, distinctOn, exprs, tables, joins, whr, groupBy, having, orderBy,
      limit, offset, sfx, comment⟩ =>
    spaced
      ([clause (!pfx.isEmpty) [.raw pfx],
        clause (!withs.isEmpty) (.sql s%"WITH " :: commaSep (withsL withs)),
        some [.sql s%"SELECT"],
        clause (!distinctOn.isEmpty)
          (.sql s%"DISTINCT ON (" :: commaSep (distinctOn.map columnL) ++ [.sql s%")"]),
        clause distinct [.sql s%"DISTINCT"],
        some (commaSep (selExprsL exprs)),
        clause (!tables.isEmpty) (fromL tables)]
       ++ joinsL joins ++
       [clause (!blank whr) (.sql s%"WHERE " :: exprL whr),
        clause (!groupBy.isEmpty) (.sql s%"GROUP BY " :: commaSep (groupBy.map columnL)),
        clause (!blank having) (.sql s%"HAVING " :: exprL having),
        clause (!orderBy.isEmpty) (.sql s%"ORDER BY " :: commaSep (orderBy.map orderL)),
        clause (limit ≠ 0) [.sql (s%"LIMIT " ++ formatInt limit)],
        clause (offset ≠ 0) [.sql (s%"OFFSET " ++ formatInt offset)],
        clause (!sfx.isEmpty) [.raw sfx]])
    ++ commentL comment

end

section
variable [GoRuntime]

/-- The assignments of a key-value SET, in the order in which they are written. -/
def assignments (p : PairContainer) : List (Column × Expr) :=
  match p.values with
  | .ok (columns, expressions) => columns.zip expressions
  | .error _ => []

/-- `column = expression` -/
def assignL (ce : Column × Expr) : List Piece := columnL ce.1 ++ .sql s%" = " :: exprL ce.2

/-- `SET a = x, b = y` or `SET (a, b) = (x, y)` -/
def setL (p : PairContainer) : List Piece :=
  .sql s%"SET " ::
    match p.mode with
    | .unknown => []
    | .associative => commaSep ((assignments p).map assignL)
    | .array =>
      .sql s%"(" :: commaSep (p.columns.map columnL) ++ .sql s%") = (" ::
        commaSep (exprsL p.expressions) ++ [.sql s%")"]

/-- The SET clause holds nothing. -/
def setBlank (p : PairContainer) : Bool :=
  match p.mode with
  | .unknown => true
  | _ => p.map.isEmpty && p.expressions.isEmpty

/-- The action of ON CONFLICT. -/
def actionL : ConflictAction → List Piece
  | .nil => []
  | .nothing => [.sql s%"DO NOTHING"]
  | .update set => .sql s%"DO UPDATE " :: setL set

/-- There is no action (a DO UPDATE without assignment counts as none). -/
def actionBlank : ConflictAction → Bool
  | .nil => true
  | .nothing => false
  | .update set => setBlank set

/-- `ON CONFLICT [(targets)] action` -/
def conflictL (target : List Column) (action : ConflictAction) : List Piece :=
  .sql s%"ON CONFLICT " ::
    (if target.isEmpty then []
     else .sql s%"(" :: commaSep (target.map columnL) ++ [.sql s%") "]) ++ actionL action

/-- `RETURNING ...` -/
def returningL (es : List SelExpr) : List Piece := .sql s%"RETURNING " :: commaSep (selExprsL es)

/-- INSERT -/
def insertL (i : InsertStmt) : List Piece :=
  spaced
    [some (.sql s%"INSERT INTO " :: tableL i.into),
     clause (!i.columns.isEmpty) (.sql s%"(" :: commaSep (i.columns.map columnL) ++ [.sql s%")"]),
     clause (!blank i.values) (.sql s%"VALUES " :: exprL i.values),
     clause (!actionBlank i.action) (conflictL i.target i.action),
     clause (!i.returning.isEmpty) (returningL i.returning)]
  ++ commentL i.comment

/-- UPDATE -/
def updateL (u : UpdateStmt) : List Piece :=
  spaced
    [clause (!u.withs.isEmpty) (.sql s%"WITH " :: commaSep (withsL u.withs)),
     some [.sql s%"UPDATE"],
     clause u.only [.sql s%"ONLY"],
     some (tableL u.table),
     some (setL u.set),
     clause (!u.tables.isEmpty) (fromL u.tables),
     clause (!blank u.whr) (.sql s%"WHERE " :: exprL u.whr),
     clause (!u.returning.isEmpty) (returningL u.returning)]
  ++ commentL u.comment

/-- DELETE -/
def deleteL (d : DeleteStmt) : List Piece :=
  spaced
    [some [.sql s%"DELETE"],
     some (fromL d.tables),
     clause (!d.usings.isEmpty) (.sql s%"USING " :: commaSep (d.usings.map tableL)),
     clause (!blank d.whr) (.sql s%"WHERE " :: exprL d.whr),
     clause (!d.returning.isEmpty) (returningL d.returning)]
  ++ commentL d.comment

/-- Any of the four statements. -/
def layout : Stmt → List Piece
  | .select s => selectL s
  | .insert s => insertL s
  | .update s => updateL s
  | .delete s => deleteL s

/-! ## Reading off texts and arguments -/

/-- The fixed text of a piece, `none` for a placeholder. -/
def Piece.fixed : Piece → Option Str
  | .sql t => some t
  | .name s => some (quote s)
  | .raw t => some t
  | .note c => some (s%"; -- " ++ c)
  | .val .nil => some s%"NULL"
  | .val _ => none

/-- The text of a list of pieces, where the `i`-th placeholder (from `k` on) carrying value
`v` is shown as `ph i v`. -/
def render (ph : Nat → Val → Str) : Nat → List Piece → Str
  | _, [] => []
  | k, .sql t :: l => t ++ render ph k l
  | k, .name s :: l => quote s ++ render ph k l
  | k, .raw t :: l => t ++ render ph k l
  | k, .note c :: l => s%"; -- " ++ c ++ render ph k l
  | k, .val v :: l =>
    match v with
    | .nil => s%"NULL" ++ render ph k l
    | v => ph k v ++ render ph (k + 1) l

end

/-- The values that need a placeholder, in order. -/
def arguments : List Piece → List Val
  | [] => []
  | .val v :: l =>
    match v with
    | .nil => arguments l
    | v => v :: arguments l
  | _ :: l => arguments l

end Verif.Spec
