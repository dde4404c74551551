import Verif.Model.Builder

/-!
# `loukoum.go`: the functions that users call, and the constructors of `stmt/` behind them.

The functions that start a builder (`Select`, `Insert`, `Update`, `Delete`) and `DoUpdate` are in
`Verif.Model.Builder`.
-/

namespace Verif

/-- stmt/column.go:28-31 `Column.As` -/
def Column.as (c : Column) (alias : Str) : Column := { c with alias := alias }

/-- stmt/table.go:35-38 `Table.As` -/
def Table.as (t : Table) (alias : Str) : Table := { t with alias := alias }

/-- stmt/table.go:21-24 `Table.Only` -/
def Table.withOnly (t : Table) : Table := { t with only := true }

/-- stmt/having.go:38-47 `Having.And` -/
def havingAnd (having right : Expr) : Go Expr :=
  match having.isUnset with
  | .error p => .error p
  | .ok true => Go.panic "loukoum: two conditions are required for AND statement"
  | .ok false => .ok (.infx having (.logical Types.And) right)

/-- stmt/having.go:50-59 `Having.Or` -/
def havingOr (having right : Expr) : Go Expr :=
  match having.isUnset with
  | .error p => .error p
  | .ok true => Go.panic "loukoum: two conditions are required for OR statement"
  | .ok false => .ok (.infx having (.logical Types.Or) right)

/-- stmt/join.go:16-22 `NewJoin` -/
def newJoin (kind : Str) (table : Table) (cond : Expr) : Join :=
  { type := kind, table := table, cond := cond }

/-- stmt/join.go:25-27 `NewInnerJoin` -/
def newInnerJoin (table : Table) (cond : Expr) : Join := newJoin Types.InnerJoin table cond

/-- stmt/join.go:30-32 `NewLeftJoin` -/
def newLeftJoin (table : Table) (cond : Expr) : Join := newJoin Types.LeftJoin table cond

/-- stmt/join.go:35-37 `NewRightJoin` -/
def newRightJoin (table : Table) (cond : Expr) : Join := newJoin Types.RightJoin table cond

/-- stmt/expression.go:596-601 `NewCall` -/
def newCall (function : Str) (args : List Expr) : Expr := .call function args

namespace Api

/-- loukoum.go:30-32 `Pair` -/
def Pair (key value : Any) : Any := .pair key value

/-- loukoum.go:35-37 `Value`, stmt/expression.go:232-236 `NewValue` -/
def Value (v : Val) : Expr := .value v

/-- loukoum.go:45-47 `Column`, stmt/column.go:15-25 `NewColumn`, `NewColumnAlias` -/
def Column (name : Str) : Verif.Column := { name := name, alias := [] }

/-- loukoum.go:50-52 `Table`, stmt/table.go:16-32 `NewTable`, `NewTableAlias` -/
def Table (name : Str) : Verif.Table := { name := name, alias := [], only := false }

/-- loukoum.go:55-57 `On`, stmt/on.go:23-28 `NewOnClause` -/
def On (left right : Str) : Expr := .onClause (Column left) (Column right)

/-- loukoum.go:60-62 `AndOn`, stmt/on.go:71-77 `NewInfixOnExpression` -/
def AndOn (left right : Expr) : Expr := onAnd left right

/-- loukoum.go:65-67 `OrOn` -/
def OrOn (left right : Expr) : Expr := onOr left right

/-- loukoum.go:70-72 `Condition`, stmt/expression.go:66-70 `NewIdentifier` -/
def Condition (column : Any) : Ident :=
  match column with
  | .val (.str s) => .str s
  | .expr (.raw s) => .raw s
  | .selExpr (.raw s) => .raw s
  | _ => .other

/-- loukoum.go:84-86 `Offset`, stmt/offset.go:16-20 `NewOffset` -/
def Offset (start : Int) : Any := .offset start

/-- loukoum.go:89-91 `Limit`, stmt/limit.go:16-20 `NewLimit` -/
def Limit (count : Int) : Any := .limit count

/-- loukoum.go:94-96 `And` -/
def And (left right : Expr) : Expr := plainAnd left right

/-- loukoum.go:99-101 `Or` -/
def Or (left right : Expr) : Expr := plainOr left right

/-- loukoum.go:104-106 `Raw`, stmt/expression.go:514-518 `NewRaw` -/
def Raw (value : Str) : Expr := .raw value

/-- loukoum.go:109-111 `Exists` -/
def Exists (value : Any) : Go Expr := newExists value

/-- loukoum.go:114-116 `NotExists` -/
def NotExists (value : Any) : Go Expr := newNotExists value

/-- loukoum.go:119-121 `Count`, stmt/aggregate.go:16-20 `NewCount` -/
def Count (value : Str) : SelExpr := .count value false []

/-- loukoum.go:124-126 `Max`, stmt/aggregate.go:69-73 `NewMax` -/
def Max (value : Str) : SelExpr := .max value []

/-- loukoum.go:129-131 `Min`, stmt/aggregate.go:112-116 `NewMin` -/
def Min (value : Str) : SelExpr := .min value []

/-- loukoum.go:134-136 `Sum`, stmt/aggregate.go:155-159 `NewSum` -/
def Sum (value : Str) : SelExpr := .sum value []

/-- loukoum.go:139-141 `With` -/
def With (name : Str) (value : Any) : Go WithQuery := newWithQuery name value

/-- loukoum.go:159-161 `DoNothing`, stmt/conflict.go:118-120 `NewConflictNoAction` -/
def DoNothing : Any := .conflictNothing

end Api

/-! ## Kinds of builders -/

/-- The dynamic type of a `builder.Builder` (builder/builder.go:13-26): one of the four builders, or a
pointer to one, which has the same methods. -/
inductive BuilderType where
  | select | insert | update | delete
  | selectPtr | insertPtr | updatePtr | deletePtr
deriving DecidableEq, Repr

/-- builder/builder.go:29-32 `IsSelectBuilder` -/
def isSelectBuilder (b : BuilderType) : Bool := b = .selectPtr

/-- builder/builder.go:35-38 `IsInsertBuilder` -/
def isInsertBuilder (b : BuilderType) : Bool := b = .insertPtr

/-- builder/builder.go:41-44 `IsUpdateBuilder` -/
def isUpdateBuilder (b : BuilderType) : Bool := b = .updatePtr

/-- builder/builder.go:47-50 `IsDeleteBuilder` -/
def isDeleteBuilder (b : BuilderType) : Bool := b = .deletePtr

/-- The type of what loukoum.go:40-42 `Select`, :144-146 `Insert`, :154-156 `Update`, :149-151 `Delete`
return (and of what every method of the builders returns): the builder itself, not a pointer. -/
def typeOf : Stmt → BuilderType
  | .select _ => .select
  | .insert _ => .insert
  | .update _ => .update
  | .delete _ => .delete

/-- The type of `&b` for a builder `b`. -/
def pointerTo : Stmt → BuilderType
  | .select _ => .selectPtr
  | .insert _ => .insertPtr
  | .update _ => .updatePtr
  | .delete _ => .deletePtr

end Verif
