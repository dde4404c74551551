import Verif.Model.Convert

/-!
# `builder/select.go`, `insert.go`, `update.go`, `delete.go` and `loukoum.go`.

Each builder method is a function from the statement held by the builder to the
statement held by the returned builder.
-/

namespace Verif

/-! ## Select -/
namespace SelectStmt

/-- builder/select.go:22-36 `DistinctOn` (the guard tests GROUP BY) -/
def DistinctOn (b : SelectStmt) (args : List Any) : Go SelectStmt :=
  if !b.groupBy.isEmpty then
    Go.panic "loukoum: select builder has distinct on clause already defined"
  else
    match toColumns args with
    | .error p => .error p
    | .ok cs =>
      if cs.isEmpty then Go.panic "loukoum: given distinct on clause is undefined"
      else .ok { b with distinctOn := cs }

/-- builder/select.go:39-42 `Distinct` -/
def Distinct (b : SelectStmt) : Go SelectStmt := .ok { b with distinct := true }

/-- builder/select.go:45-53 `Columns` -/
def Columns (b : SelectStmt) (args : List Any) : Go SelectStmt :=
  let args := if args.isEmpty then [.val (.str s%"*")] else args
  match toSelectExpressions args with
  | .error p => .error p
  | .ok es => .ok { b with exprs := es }

/-- builder/select.go:56-64 `From` -/
def From (b : SelectStmt) (args : List Any) : Go SelectStmt :=
  if !b.tables.isEmpty then Go.panic "loukoum: select builder has from clause already defined"
  else
    match toFrom args with
    | .error p => .error p
    | .ok ts => .ok { b with tables := ts }

/-- builder/select.go:282-309 `handleSelectJoin` (called with two or three arguments) -/
def handleSelectJoin (arg0 arg1 : Any) : Go Verif.Join :=
  let table : Go Table :=
    match arg0 with
    | .val (.str s) => .ok { name := s }
    | .table t => .ok t
    | _ => Go.panic "loukoum: cannot use value as table argument for join clause"
  match table with
  | .error p => .error p
  | .ok t =>
    let join : Go Verif.Join :=
      match arg1 with
      | .val (.str s) => mustParseJoin s
      | .expr (.onClause l r) => .ok { type := Types.InnerJoin, table := t, cond := .onClause l r }
      | .expr (.infixOn l op r) =>
        .ok { type := Types.InnerJoin, table := t, cond := .infixOn l op r }
      | _ => Go.panic "loukoum: cannot use value as condition for join clause"
    match join with
    | .error p => .error p
    | .ok j => .ok { j with table := t }

/-- The tail of builder/select.go:92-98, :103-109, :122-128: refuse an empty join, else append. -/
def addJoin (b : SelectStmt) (j : Verif.Join) : Go SelectStmt :=
  match j.isEmpty with
  | .error p => .error p
  | .ok true => Go.panic "loukoum: given join clause is undefined"
  | .ok false => .ok { b with joins := b.joins ++ [j] }

/-- builder/select.go:82-89, the switch of `join1`. -/
def joinOfArg (a : Any) : Go Verif.Join :=
  match a with
  | .val (.str s) => mustParseJoin s
  | .join j => .ok j
  | _ => Go.panic "loukoum: cannot use value as join clause"

/-- builder/select.go:67-129 `Join`, `join1`, `join2`, `join3` -/
def Join (b : SelectStmt) (args : List Any) : Go SelectStmt :=
  match args with
  | [a] =>
    match joinOfArg a with
    | .error p => .error p
    | .ok j => b.addJoin j
  | [a0, a1] =>
    match handleSelectJoin a0 a1 with
    | .error p => .error p
    | .ok j => b.addJoin j
  | [a0, a1, a2] =>
    match handleSelectJoin a0 a1 with
    | .error p => .error p
    | .ok j =>
      match a2 with
      | .joinType t => b.addJoin { j with type := t }
      | _ => Go.panic "loukoum: cannot use value as join clause"
  | _ => Go.panic "loukoum: given join clause is invalid"

/-- builder/select.go:132-140 `With` -/
def With (b : SelectStmt) (args : List WithQuery) : Go SelectStmt :=
  if b.withs.isEmpty then .ok { b with withs := args }
  else .ok { b with withs := b.withs ++ args }

/-- builder/select.go:156-162 `And` -/
def And (b : SelectStmt) (cond : Expr) : Go SelectStmt :=
  if cond.isNil then Go.panic "loukoum: condition must be not nil"
  else
    match whereAnd b.whr cond with
    | .error p => .error p
    | .ok w => .ok { b with whr := w }

/-- builder/select.go:143-153 `Where` -/
def Where (b : SelectStmt) (cond : Expr) : Go SelectStmt :=
  if cond.isNil then Go.panic "loukoum: condition must be not nil"
  else
    match b.whr.isUnset with
    | .error p => .error p
    | .ok true => .ok { b with whr := newWhere cond }
    | .ok false => b.And cond

/-- builder/select.go:165-168 `Or` -/
def Or (b : SelectStmt) (cond : Expr) : Go SelectStmt :=
  match whereOr b.whr cond with
  | .error p => .error p
  | .ok w => .ok { b with whr := w }

/-- builder/select.go:171-185 `GroupBy` -/
def GroupBy (b : SelectStmt) (args : List Any) : Go SelectStmt :=
  if !b.groupBy.isEmpty then
    Go.panic "loukoum: select builder has group by clause already defined"
  else
    match toColumns args with
    | .error p => .error p
    | .ok cs =>
      if cs.isEmpty then Go.panic "loukoum: given join clause is undefined"
      else .ok { b with groupBy := cs }

/-- builder/select.go:188-196 `Having` -/
def Having (b : SelectStmt) (cond : Expr) : Go SelectStmt :=
  match b.having.isUnset with
  | .error p => .error p
  | .ok false => Go.panic "loukoum: select builder has having clause already defined"
  | .ok true => .ok { b with having := cond }

/-- builder/select.go:199-202 `OrderBy` -/
def OrderBy (b : SelectStmt) (orders : List Order) : Go SelectStmt :=
  .ok { b with orderBy := b.orderBy ++ orders }

/-- builder/select.go:205-212 `Limit` -/
def Limit (b : SelectStmt) (value : Any) : Go SelectStmt :=
  if b.limit ≠ 0 then Go.panic "loukoum: select builder has limit clause already defined"
  else
    match toLimit value with
    | .error p => .error p
    | .ok n => .ok { b with limit := n }

/-- builder/select.go:215-222 `Offset` -/
def Offset (b : SelectStmt) (value : Any) : Go SelectStmt :=
  if b.offset ≠ 0 then Go.panic "loukoum: select builder has offset clause already defined"
  else
    match toOffset value with
    | .error p => .error p
    | .ok n => .ok { b with offset := n }

/-- builder/select.go:225-233 `Suffix` (the guard tests OFFSET) -/
def Suffix (b : SelectStmt) (arg : Any) : Go SelectStmt :=
  if b.offset ≠ 0 then Go.panic "loukoum: select builder has suffixes clauses already defined"
  else
    match toSuffix arg with
    | .error p => .error p
    | .ok s => .ok { b with sfx := s }

/-- builder/select.go:236-244 `Prefix` (the guard tests OFFSET) -/
def Prefix (b : SelectStmt) (arg : Any) : Go SelectStmt :=
  if b.offset ≠ 0 then Go.panic "loukoum: select builder has prefixes clauses already defined"
  else
    match toPrefix arg with
    | .error p => .error p
    | .ok s => .ok { b with pfx := s }

/-- builder/select.go:247-251 `Comment` -/
def Comment (b : SelectStmt) (c : Str) : Go SelectStmt := .ok { b with comment := c }

end SelectStmt

/-- loukoum.go:40-42 `Select` -/
def select (columns : List Any) : Go SelectStmt := SelectStmt.zero.Columns columns

/-! ## Insert -/
namespace InsertStmt

/-- The zero value, stmt/insert.go:19-21. -/
def zero : InsertStmt :=
  { into := { name := [] }, columns := [], values := .nil, target := [], action := .nil,
    returning := [], comment := [] }

/-- builder/insert.go:23-31 `Into` -/
def Into (b : InsertStmt) (into : Any) : Go InsertStmt :=
  if !b.into.isEmpty then Go.panic "loukoum: insert builder has into clause already defined"
  else
    match toInto into with
    | .error p => .error p
    | .ok t => .ok { b with into := t }

/-- builder/insert.go:34-45 `Columns` -/
def Columns (b : InsertStmt) (args : List Any) : Go InsertStmt :=
  if args.isEmpty then .ok b
  else if !b.columns.isEmpty then
    Go.panic "loukoum: insert builder has columns clause already defined"
  else
    match toColumns args with
    | .error p => .error p
    | .ok cs => .ok { b with columns := cs }

/-- builder/insert.go:48-56 `Values` -/
def Values (b : InsertStmt) (args : List Any) : Go InsertStmt :=
  match b.values.isUnset with
  | .error p => .error p
  | .ok false => Go.panic "loukoum: insert builder has values clause already defined"
  | .ok true =>
    match newArrayListExpression args with
    | .error p => .error p
    | .ok e => .ok { b with values := e }

/-- builder/insert.go:59-67 `Returning` -/
def Returning (b : InsertStmt) (args : List Any) : Go InsertStmt :=
  if !b.returning.isEmpty then
    Go.panic "loukoum: insert builder has returning clause already defined"
  else
    match toSelectExpressions args with
    | .error p => .error p
    | .ok es => .ok { b with returning := es }

/-- builder/insert.go:70-74 `Comment` -/
def Comment (b : InsertStmt) (c : Str) : Go InsertStmt := .ok { b with comment := c }

/-- The loop of builder/insert.go:86-104. -/
def onConflictLoop (b : InsertStmt) : List Any → Go InsertStmt
  | [] => Go.panic "loukoum: on conflict clause requires an action"
  | a :: l =>
    match a with
    | .conflictNothing => .ok { b with action := .nothing }
    | .conflictUpdate set =>
      if b.target.isEmpty then
        Go.panic "loukoum: on conflict update clause requires at least one target"
      else .ok { b with action := .update set }
    | .val (.str s) =>
      match toColumn (.val (.str s)) with
      | .error p => .error p
      | .ok c => onConflictLoop { b with target := b.target ++ [c] } l
    | .selExpr (.column col) =>
      match toColumn (.selExpr (.column col)) with
      | .error p => .error p
      | .ok c => onConflictLoop { b with target := b.target ++ [c] } l
    | _ => Go.panic "loukoum: cannot use value as on conflict clause"

/-- builder/insert.go:77-105 `OnConflict` -/
def OnConflict (b : InsertStmt) (args : List Any) : Go InsertStmt :=
  if !b.action.isEmpty then
    Go.panic "loukoum: insert builder has on conflict clause already defined"
  else if args.isEmpty then Go.panic "loukoum: on conflict clause requires arguments"
  else b.onConflictLoop args

/-- builder/insert.go:108-126 `Set` -/
def Set [GoRuntime] (b : InsertStmt) (args : List Any) : Go InsertStmt :=
  if !b.columns.isEmpty then Go.panic "loukoum: insert builder has columns clause already defined"
  else
    match b.values.isUnset with
    | .error p => .error p
    | .ok false => Go.panic "loukoum: insert builder has values clause already defined"
    | .ok true =>
      match toSet args with
      | .error p => .error p
      | .ok set =>
        match set.values with
        | .error p => .error p
        | .ok (columns, expressions) =>
          match newArrayListExpression [.exprs expressions] with
          | .error p => .error p
          | .ok e => .ok { b with columns := columns, values := e }

end InsertStmt

/-- loukoum.go:144-146 `Insert` -/
def insert (into : Any) : Go InsertStmt := InsertStmt.zero.Into into

/-- loukoum.go:164-166 `DoUpdate` -/
def doUpdate (args : List Any) : Go Any :=
  match toSet args with
  | .error p => .error p
  | .ok set => .ok (.conflictUpdate set)

/-! ## Update -/
namespace UpdateStmt

/-- builder/update.go:14-18 `NewUpdate`, stmt/update.go:21-26 -/
def new (arg : Any) : Go UpdateStmt :=
  match toTable arg with
  | .error p => .error p
  | .ok t =>
    .ok { withs := [], table := t, only := false, tables := [], set := PairContainer.new,
          whr := .nil, returning := [], comment := [] }

/-- builder/update.go:21-24 `Only` -/
def Only (b : UpdateStmt) : Go UpdateStmt := .ok { b with only := true }

/-- builder/update.go:27-34 `Set` -/
def Set (b : UpdateStmt) (args : List Any) : Go UpdateStmt :=
  if args.isEmpty then Go.panic "loukoum: update set clause requires at least one argument"
  else
    match mergeSet b.set args with
    | .error p => .error p
    | .ok s => .ok { b with set := s }

/-- The loop of builder/update.go:47-49. -/
def useAll (p : PairContainer) : List Any → Go PairContainer
  | [] => .ok p
  | a :: l =>
    match newExpression a with
    | .error e => .error e
    | .ok x =>
      match p.use x with
      | .error e => .error e
      | .ok p' => useAll p' l

/-- builder/update.go:38-52 `Using` -/
def Using (b : UpdateStmt) (args : List Any) : Go UpdateStmt :=
  if b.set.mode ≠ .array then
    Go.panic "loukoum: you can only use Using with column-list syntax"
  else if args.isEmpty then Go.panic "loukoum: using clause requires a column or an expression"
  else
    match useAll b.set args with
    | .error p => .error p
    | .ok s => .ok { b with set := s }

/-- builder/update.go:55-63 `With` -/
def With (b : UpdateStmt) (args : List WithQuery) : Go UpdateStmt :=
  if b.withs.isEmpty then .ok { b with withs := args }
  else .ok { b with withs := b.withs ++ args }

/-- builder/update.go:76-79 `And` -/
def And (b : UpdateStmt) (cond : Expr) : Go UpdateStmt :=
  match whereAnd b.whr cond with
  | .error p => .error p
  | .ok w => .ok { b with whr := w }

/-- builder/update.go:66-73 `Where` -/
def Where (b : UpdateStmt) (cond : Expr) : Go UpdateStmt :=
  match b.whr.isUnset with
  | .error p => .error p
  | .ok true => .ok { b with whr := newWhere cond }
  | .ok false => b.And cond

/-- builder/update.go:82-85 `Or` -/
def Or (b : UpdateStmt) (cond : Expr) : Go UpdateStmt :=
  match whereOr b.whr cond with
  | .error p => .error p
  | .ok w => .ok { b with whr := w }

/-- builder/update.go:88-96 `From` -/
def From (b : UpdateStmt) (arg : Any) : Go UpdateStmt :=
  if !b.tables.isEmpty then Go.panic "loukoum: update builder has from clause already defined"
  else
    match toFrom [arg] with
    | .error p => .error p
    | .ok ts => .ok { b with tables := ts }

/-- builder/update.go:99-107 `Returning` -/
def Returning (b : UpdateStmt) (args : List Any) : Go UpdateStmt :=
  if !b.returning.isEmpty then
    Go.panic "loukoum: update builder has returning clause already defined"
  else
    match toSelectExpressions args with
    | .error p => .error p
    | .ok es => .ok { b with returning := es }

/-- builder/update.go:110-114 `Comment` -/
def Comment (b : UpdateStmt) (c : Str) : Go UpdateStmt := .ok { b with comment := c }

end UpdateStmt

/-- loukoum.go:154-156 `Update` -/
def update (table : Any) : Go UpdateStmt := UpdateStmt.new table

/-! ## Delete -/
namespace DeleteStmt

/-- The zero value, builder/delete.go:14-16. -/
def zero : DeleteStmt :=
  { tables := [], usings := [], whr := .nil, returning := [], comment := [] }

/-- builder/delete.go:19-27 `From` -/
def From (b : DeleteStmt) (args : List Any) : Go DeleteStmt :=
  if !b.tables.isEmpty then Go.panic "loukoum: delete builder has from clause already defined"
  else
    match toFrom args with
    | .error p => .error p
    | .ok ts => .ok { b with tables := ts }

/-- builder/delete.go:30-39 `Using` -/
def Using (b : DeleteStmt) (args : List Any) : Go DeleteStmt :=
  if !b.usings.isEmpty then Go.panic "loukoum: delete builder has using clause already defined"
  else
    match toTables args with
    | .error p => .error p
    | .ok ts => .ok { b with usings := ts }

/-- builder/delete.go:52-55 `And` -/
def And (b : DeleteStmt) (cond : Expr) : Go DeleteStmt :=
  match whereAnd b.whr cond with
  | .error p => .error p
  | .ok w => .ok { b with whr := w }

/-- builder/delete.go:42-49 `Where` -/
def Where (b : DeleteStmt) (cond : Expr) : Go DeleteStmt :=
  match b.whr.isUnset with
  | .error p => .error p
  | .ok true => .ok { b with whr := newWhere cond }
  | .ok false => b.And cond

/-- builder/delete.go:58-61 `Or` -/
def Or (b : DeleteStmt) (cond : Expr) : Go DeleteStmt :=
  match whereOr b.whr cond with
  | .error p => .error p
  | .ok w => .ok { b with whr := w }

/-- builder/delete.go:64-72 `Returning` -/
def Returning (b : DeleteStmt) (args : List Any) : Go DeleteStmt :=
  if !b.returning.isEmpty then
    Go.panic "loukoum: delete builder has returning clause already defined"
  else
    match toSelectExpressions args with
    | .error p => .error p
    | .ok es => .ok { b with returning := es }

/-- builder/delete.go:75-79 `Comment` -/
def Comment (b : DeleteStmt) (c : Str) : Go DeleteStmt := .ok { b with comment := c }

end DeleteStmt

/-- loukoum.go:149-151 `Delete` -/
def delete (from_ : Any) : Go DeleteStmt := DeleteStmt.zero.From [from_]

end Verif
