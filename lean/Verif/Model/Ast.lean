import Verif.Model.Types

/-!
# Data types of `stmt/`.
-/

namespace Verif

/-- stmt/column.go:9-12 `Column` -/
structure Column where
  name : Str
  alias : Str := []
deriving DecidableEq, Repr

/-- stmt/table.go:9-13 `Table` -/
structure Table where
  name : Str
  alias : Str := []
  only : Bool := false
deriving DecidableEq, Repr

/-- stmt/order.go:8-11 `Order` -/
structure Order where
  expression : Str
  type : Str
deriving DecidableEq, Repr

/-- stmt/expression.go:61-63 `Identifier`: the dynamic type of its only field is
a string, a `Raw`, or something else (for which `Write` writes nothing). -/
inductive Ident where
  | str (s : Str)
  | raw (s : Str)
  | other
deriving DecidableEq, Repr

/-- stmt/operator.go:8-11 `Operator`: nil, stmt/operator.go:14-16
`LogicalOperator`, or stmt/operator.go:51-53 `ComparisonOperator`. -/
inductive Op where
  | nil
  | logical (s : Str)
  | comparison (s : Str)
deriving DecidableEq, Repr

/-- stmt/from.go:9-11: an element of `From.Tables`. `ToFrom`
(builder/builder.go:202-227) only puts tables, raw fragments or nil there. -/
inductive FromItem where
  | nil
  | table (t : Table)
  | raw (s : Str)
deriving DecidableEq, Repr

mutual

/-- stmt/expression.go:13-16 `Expression`: the nil interface and every type of the
package implementing it (other than pointers; `*Wrapper` is identified with
`Wrapper`). -/
inductive Expr where
  /-- the nil interface -/
  | nil
  /-- stmt/expression.go:61 `Identifier` -/
  | ident (i : Ident)
  /-- stmt/expression.go:227 `Value` -/
  | value (v : Val)
  /-- stmt/expression.go:292 `ArrayList` -/
  | arrayList (l : List Expr)
  /-- stmt/expression.go:383 `Array` -/
  | array (l : List Expr)
  /-- stmt/expression.go:509 `Raw` -/
  | raw (s : Str)
  /-- stmt/expression.go:544 `Wrapper` -/
  | wrapper (e : Expr)
  /-- stmt/expression.go:590 `Call` -/
  | call (f : Str) (args : List Expr)
  /-- stmt/infix.go:9 `InfixExpression` -/
  | infx (l : Expr) (op : Op) (r : Expr)
  /-- stmt/in.go:8 `In` -/
  | inx (e : Expr) (op : Str) (v : Expr)
  /-- stmt/between.go:8 `Between` -/
  | between (i : Ident) (op : Str) (lo : Expr) (and : Str) (hi : Expr)
  /-- stmt/subquery.go:9 `Exists` -/
  | exist (e : Expr)
  /-- stmt/subquery.go:41 `NotExists` -/
  | notExist (e : Expr)
  /-- stmt/select.go:15 `Select` -/
  | select (s : SelectStmt)
  /-- stmt/on.go:17 `OnClause` -/
  | onClause (l r : Column)
  /-- stmt/on.go:64 `InfixOnExpression`; its operands are `OnExpression`s, which
  are expressions of the last two forms (or nil) -/
  | infixOn (l : Expr) (op : Str) (r : Expr)

/-- stmt/select.go:9-12 `SelectExpression`: the nil interface and every type of the
package implementing it. -/
inductive SelExpr where
  | nil
  /-- stmt/column.go:9 -/
  | column (c : Column)
  /-- stmt/expression.go:509 -/
  | raw (s : Str)
  /-- stmt/aggregate.go:9 -/
  | count (v : Str) (distinct : Bool) (alias : Str)
  /-- stmt/aggregate.go:63 -/
  | max (v : Str) (alias : Str)
  /-- stmt/aggregate.go:106 -/
  | min (v : Str) (alias : Str)
  /-- stmt/aggregate.go:149 -/
  | sum (v : Str) (alias : Str)
  /-- stmt/subquery.go:9 -/
  | exist (e : Expr)
  /-- stmt/subquery.go:41 -/
  | notExist (e : Expr)

/-- stmt/join.go:9-13 `Join` -/
structure Join where
  type : Str
  table : Table
  cond : Expr

/-- stmt/with.go:41-44 `WithQuery` -/
structure WithQuery where
  name : Str
  subquery : Expr

/-- stmt/select.go:15-31 `Select`.  The one-field wrapper structs `Prefix`,
`With`, `DistinctOn`, `From`, `Where`, `GroupBy`, `Having`, `OrderBy`, `Limit`,
`Offset`, `Suffix`, `Comment` are represented by their field. -/
structure SelectStmt where
  pfx : Str
  withs : List WithQuery
  distinct : Bool
  distinctOn : List Column
  exprs : List SelExpr
  tables : List FromItem
  joins : List Join
  whr : Expr
  groupBy : List Column
  having : Expr
  orderBy : List Order
  limit : Int
  offset : Int
  sfx : Str
  comment : Str

end

/-- The zero value of stmt/select.go:15-31 (`builder.NewSelect`, builder/select.go:17-19). -/
def SelectStmt.zero : SelectStmt :=
  { pfx := [], withs := [], distinct := false, distinctOn := [], exprs := [], tables := [],
    joins := [], whr := .nil, groupBy := [], having := .nil, orderBy := [], limit := 0,
    offset := 0, sfx := [], comment := [] }

/-- stmt/set.go:38-47 `PairMode` -/
inductive PairMode where
  | unknown | associative | array
deriving DecidableEq, Repr

/-- stmt/set.go:50-55 `PairContainer`. The Go map is an association list with at
most one entry per key (kept so by `Add`). -/
structure PairContainer where
  mode : PairMode
  map : List (Column × Expr)
  columns : List Column
  expressions : List Expr

/-- stmt/conflict.go:81-84 `ConflictAction`: nil, stmt/conflict.go:115
`ConflictNoAction`, stmt/conflict.go:87 `ConflictUpdateAction`. -/
inductive ConflictAction where
  | nil
  | nothing
  | update (set : PairContainer)

/-- stmt/insert.go:9-16 `Insert`, with stmt/into.go:9, stmt/values.go:9,
stmt/conflict.go:9, stmt/conflict.go:47, stmt/returning.go:9 flattened. -/
structure InsertStmt where
  into : Table
  columns : List Column
  values : Expr
  target : List Column
  action : ConflictAction
  returning : List SelExpr
  comment : Str

/-- stmt/update.go:9-18 `Update` -/
structure UpdateStmt where
  withs : List WithQuery
  table : Table
  only : Bool
  tables : List FromItem
  set : PairContainer
  whr : Expr
  returning : List SelExpr
  comment : Str

/-- stmt/delete.go:9-15 `Delete` -/
structure DeleteStmt where
  tables : List FromItem
  usings : List Table
  whr : Expr
  returning : List SelExpr
  comment : Str

/-- The four top-level statements (what `Statement()` of a builder returns). -/
inductive Stmt where
  | select (s : SelectStmt)
  | insert (s : InsertStmt)
  | update (s : UpdateStmt)
  | delete (s : DeleteStmt)

end Verif
