import Verif.Model.SetPairs

/-!
# Constructors of `stmt/`: turning user arguments into expressions.
-/

namespace Verif

/-- A user object implementing some of the interfaces tested by `NewExpression`
(stmt/expression.go:23-53).  `expression` is the expression embedded in the object, which makes it
an `Expression` (the interface has an unexported method); simplification: an object that embeds a
`Select`, `Exists` or `NotExists` is identified with it, although `NewWrapper`
(stmt/expression.go:549-566) would not recognise it.  `valuer` is the object seen as a `driver.Valuer`;
`statement` is what its `Statement()` method returns (`some none`: a statement
that is not an `Expression`). -/
structure Obj where
  expression : Option Expr := none
  valuer : Option Val := none
  statement : Option (Option Expr) := none
  int64 : Option Int := none
  bool : Option Bool := none
  time : Option (Int × Nat) := none
  string : Option Str := none

/-- An argument of type `interface{}`. -/
inductive Any where
  /-- nil, strings, booleans, numbers, byte slices, times, valuers, one-dimensional slices
  of basic types, opaque values -/
  | val (v : Val)
  /-- a `*time.Time` (nil or not) -/
  | timePtr (t : Option (Int × Nat))
  /-- any `stmt.Expression` -/
  | expr (e : Expr)
  /-- a `stmt.SelectExpression` (columns and aggregates; raw fragments and EXISTS are both) -/
  | selExpr (s : SelExpr)
  /-- `[]stmt.Expression` -/
  | exprs (l : List Expr)
  /-- `[]interface{}` -/
  | anys (l : List Any)
  /-- `[]stmt.Column` -/
  | columns (l : List Column)
  /-- `[]stmt.SelectExpression` -/
  | selExprs (l : List SelExpr)
  /-- `[][]interface{}` -/
  | anyss (l : List (List Any))
  /-- `[][]T` for a basic type `T` -/
  | valss (k : ElemKind) (l : List (List Val))
  /-- `[][]stmt.Expression` -/
  | exprss (l : List (List Expr))
  | table (t : Table)
  | fromClause (l : List FromItem)
  | into (t : Table)
  | suffix (s : Str)
  | prefix (s : Str)
  | limit (n : Int)
  | offset (n : Int)
  | join (j : Join)
  | joinType (s : Str)
  | conflictNothing
  | conflictUpdate (set : PairContainer)
  /-- `map[string]interface{}`, entries in iteration order -/
  | strMap (id : Nat) (entries : List (Str × Any))
  /-- `types.Map` (types/kv.go:4), entries in iteration order -/
  | anyMap (entries : List (Any × Any))
  /-- `types.Pair` (types/kv.go:7-10) -/
  | pair (key value : Any)
  /-- `builder.Select` -/
  | selectB (s : SelectStmt)
  /-- `builder.Insert`, `builder.Update` or `builder.Delete` -/
  | otherB
  /-- a user-defined object -/
  | obj (o : Obj)

/-- The expression an object stands for. An object that embeds a nil `Expression` is not nil, but
dereferences nil when asked whether it is empty or written; so does a wrapper around nil
(stmt/expression.go:571-580), which represents it. -/
def embedded : Option Expr → Option Expr
  | some .nil => some (.wrapper .nil)
  | e => e

/-- Go type switch case `Expression` (stmt/expression.go:24). -/
def Any.asExpr : Any → Option Expr
  | .expr .nil => none
  | .expr e => some e
  | .selExpr (.raw s) => some (.raw s)
  | .selExpr (.exist e) => some (.exist e)
  | .selExpr (.notExist e) => some (.notExist e)
  | .obj o => embedded o.expression
  | _ => none

/-- `arg == nil` -/
def Any.isNil : Any → Bool
  | .val .nil => true
  | .expr .nil => true
  | .selExpr .nil => true
  | _ => false

/-- stmt/expression.go:52: the panic of `NewExpression`. -/
def cannotUse {α : Type} : Go α := Go.panic "cannot use value as loukoum Expression"

/-- stmt/expression.go:26-33: basic types accepted by `NewExpression`. Slices other
than `[]byte`, `[]int64`, `[]string` are not accepted (but see `toArray`). -/
def Val.accepted : Val → Bool
  | .nil => true
  | .str _ | .bytes _ | .bool _ | .int _ _ | .uint _ _ | .float32 _ | .float64 _ => true
  | .time _ _ => true
  | .valuerNil _ | .valuerErr _ | .valuerOk _ _ => true
  | .slice (.int .int64) _ => true
  | .slice .string _ => true
  | .slice _ _ => false
  | .opaque .other _ => false
  | .opaque _ _ => true

/-- stmt/expression.go:19-54 `NewExpression` -/
def newExpression (arg : Any) : Go Expr :=
  if arg.isNil then .ok (.value .nil)
  else match arg.asExpr with
  | some e => .ok e
  | none =>
    match arg with
    | .val v => if v.accepted then .ok (.value v) else cannotUse
    | .strMap id _ => .ok (.value (.opaque .mapStringAny id))
    | .timePtr (some (ns, loc)) => .ok (.value (.time ns loc))
    | .timePtr none => .error .nilDeref
    | .selectB s => .ok (.select s)
    | .otherB => cannotUse
    -- types.JoinType has a String() method (types/join.go:6), hence is a StringEncoder
    | .joinType s => .ok (.value (.str s))
    | .obj o =>
      match o.valuer with
      | some v => .ok (.value v)
      | none =>
        match o.statement with
        -- a nil `Statement()` is not an Expression
        | some (some .nil) | some none => cannotUse
        | some (some e) => .ok e
        | none =>
          match o.int64 with
          | some n => .ok (.value (.int .int64 n))
          | none =>
            match o.bool with
            | some b => .ok (.value (.bool b))
            | none =>
              match o.time with
              | some (ns, loc) => .ok (.value (.time ns loc))
              | none =>
                match o.string with
                | some s => .ok (.value (.str s))
                | none => cannotUse
    | _ => cannotUse

/-- stmt/expression.go:549-566 `NewWrapper` -/
def newWrapper : Expr → Expr
  | .select s => .wrapper (.select s)
  | .exist e => .wrapper (.exist e)
  | .notExist e => .wrapper (.notExist e)
  | e => e

/-- `NewWrapper(NewExpression(arg))` -/
def newWrapped (arg : Any) : Go Expr :=
  match newExpression arg with
  | .error p => .error p
  | .ok e => .ok (newWrapper e)

/-- Repeated `array.Append(v)` (stmt/expression.go:497-499). -/
def appendAll : List Any → Go (List Expr)
  | [] => .ok []
  | a :: l =>
    match newExpression a with
    | .error p => .error p
    | .ok e =>
      match appendAll l with
      | .error p => .error p
      | .ok es => .ok (e :: es)

/-- stmt/expression.go:402-477 `toArray`. A slice element of an `[]T` becomes an
`interface{}` again when appended. A nil `[]stmt.Expression` element becomes a nil
`interface{}`. -/
def toArray (value : Any) : Go Expr :=
  if value.isNil then .ok (.array [])
  else
    let items : List Any :=
      match value with
      | .val (.slice _ l) => l.map .val
      | .exprs l => l.map .expr
      | .anys l => l
      | v => [v]
    match appendAll items with
    | .error p => .error p
    | .ok es => .ok (.array es)

/-- stmt/expression.go:388-398 `NewArrayExpression` -/
def newArrayExpression (values : List Any) : Go Expr :=
  match values with
  | [v] => toArray v
  | vs =>
    match appendAll vs with
    | .error p => .error p
    | .ok es => .ok (.array es)

/-- The outer loops of `toArrayList` (stmt/expression.go:311-313 etc.). -/
def arrayRows : List (List Any) → Go (List Expr)
  | [] => .ok []
  | r :: rs =>
    match newArrayExpression r with
    | .error p => .error p
    | .ok e =>
      match arrayRows rs with
      | .error p => .error p
      | .ok es => .ok (e :: es)

/-- stmt/expression.go:307-358 `toArrayList`: only `[][]interface{}`, `[][]string`,
`[][]int`, `[][]int64`, `[][]bool`, `[][]Expression` have a case. -/
def toArrayList (value : Any) : Go (List Expr) :=
  match value with
  | .anyss l => arrayRows l
  | .valss .string l => arrayRows (l.map (·.map .val))
  | .valss (.int .int) l => arrayRows (l.map (·.map .val))
  | .valss (.int .int64) l => arrayRows (l.map (·.map .val))
  | .valss .bool l => arrayRows (l.map (·.map .val))
  | .exprss l => arrayRows (l.map (·.map .expr))
  | _ => .ok []

/-- stmt/expression.go:297-305 `NewArrayListExpression` (indexing `values[0]` panics
when there is no argument) -/
def newArrayListExpression (values : List Any) : Go Expr :=
  match values with
  | [] => .error .index
  | v :: _ =>
    match toArrayList v with
    | .error p => .error p
    | .ok [] =>
      match newArrayExpression values with
      | .error p => .error p
      | .ok e => .ok (.arrayList [e])
    | .ok es => .ok (.arrayList es)

/-! ## Comparison methods -/

/-- `NewInfixExpression(left, NewComparisonOperator(op), NewWrapper(NewExpression(value)))` -/
def compareWrapped (left : Expr) (op : Str) (value : Any) : Go Expr :=
  match newWrapped value with
  | .error p => .error p
  | .ok e => .ok (.infx left (.comparison op) e)

/-- `NewInfixExpression(left, NewComparisonOperator(op), NewExpression(value))` -/
def comparePlain (left : Expr) (op : Str) (value : Any) : Go Expr :=
  match newExpression value with
  | .error p => .error p
  | .ok e => .ok (.infx left (.comparison op) e)

namespace Ident

/-- stmt/expression.go:90-93 -/
def Contains (i : Ident) (v : Any) : Go Expr := compareWrapped (.ident i) Types.Contains v
/-- stmt/expression.go:96-99 -/
def IsContainedBy (i : Ident) (v : Any) : Go Expr := compareWrapped (.ident i) Types.IsContainedBy v
/-- stmt/expression.go:102-105 -/
def Overlap (i : Ident) (v : Any) : Go Expr := compareWrapped (.ident i) Types.Overlap v
/-- stmt/expression.go:108-111 -/
def Equal (i : Ident) (v : Any) : Go Expr := compareWrapped (.ident i) Types.Equal v
/-- stmt/expression.go:114-117 -/
def NotEqual (i : Ident) (v : Any) : Go Expr := compareWrapped (.ident i) Types.NotEqual v
/-- stmt/expression.go:120-123 -/
def Is (i : Ident) (v : Any) : Go Expr := comparePlain (.ident i) Types.Is v
/-- stmt/expression.go:126-129 -/
def IsNot (i : Ident) (v : Any) : Go Expr := comparePlain (.ident i) Types.IsNot v
/-- stmt/expression.go:132-137 -/
def IsNull (i : Ident) (b : Bool) : Go Expr :=
  if b then i.Is (.val .nil) else i.IsNot (.val .nil)
/-- stmt/expression.go:140-143 -/
def GreaterThan (i : Ident) (v : Any) : Go Expr := compareWrapped (.ident i) Types.GreaterThan v
/-- stmt/expression.go:146-149 -/
def GreaterThanOrEqual (i : Ident) (v : Any) : Go Expr :=
  compareWrapped (.ident i) Types.GreaterThanOrEqual v
/-- stmt/expression.go:152-155 -/
def LessThan (i : Ident) (v : Any) : Go Expr := compareWrapped (.ident i) Types.LessThan v
/-- stmt/expression.go:158-161 -/
def LessThanOrEqual (i : Ident) (v : Any) : Go Expr :=
  compareWrapped (.ident i) Types.LessThanOrEqual v
/-- stmt/expression.go:164-166, stmt/in.go:15-21 -/
def In (i : Ident) (vs : List Any) : Go Expr :=
  match newArrayExpression vs with
  | .error p => .error p
  | .ok e => .ok (.inx (.ident i) Types.In e)
/-- stmt/expression.go:169-171, stmt/in.go:24-30 -/
def NotIn (i : Ident) (vs : List Any) : Go Expr :=
  match newArrayExpression vs with
  | .error p => .error p
  | .ok e => .ok (.inx (.ident i) Types.NotIn e)
/-- stmt/expression.go:174-177 -/
def Like (i : Ident) (v : Any) : Go Expr := comparePlain (.ident i) Types.Like v
/-- stmt/expression.go:180-183 -/
def NotLike (i : Ident) (v : Any) : Go Expr := comparePlain (.ident i) Types.NotLike v
/-- stmt/expression.go:186-189 -/
def ILike (i : Ident) (v : Any) : Go Expr := comparePlain (.ident i) Types.ILike v
/-- stmt/expression.go:192-195 -/
def NotILike (i : Ident) (v : Any) : Go Expr := comparePlain (.ident i) Types.NotILike v
/-- stmt/expression.go:198-200, stmt/between.go:17-25 -/
def Between (i : Ident) (lo hi : Any) : Go Expr :=
  match newExpression lo with
  | .error p => .error p
  | .ok l =>
    match newExpression hi with
    | .error p => .error p
    | .ok h => .ok (.between i Types.Between l Types.And h)
/-- stmt/expression.go:203-205, stmt/between.go:28-36 -/
def NotBetween (i : Ident) (lo hi : Any) : Go Expr :=
  match newExpression lo with
  | .error p => .error p
  | .ok l =>
    match newExpression hi with
    | .error p => .error p
    | .ok h => .ok (.between i Types.NotBetween l Types.And h)
/-- stmt/expression.go:208-211 -/
def IsDistinctFrom (i : Ident) (v : Any) : Go Expr := comparePlain (.ident i) Types.IsDistinctFrom v
/-- stmt/expression.go:214-217 -/
def IsNotDistinctFrom (i : Ident) (v : Any) : Go Expr :=
  comparePlain (.ident i) Types.IsNotDistinctFrom v

end Ident

/-! ### Methods of `Value` and `Call` -/

/-- stmt/expression.go:250-253 `Value.Overlap` -/
def valueOverlap (v : Val) (what : Any) : Go Expr := compareWrapped (.value v) Types.Overlap what
/-- stmt/expression.go:256-259 `Value.Equal` -/
def valueEqual (v : Val) (what : Any) : Go Expr := compareWrapped (.value v) Types.Equal what
/-- stmt/expression.go:262-265 `Value.NotEqual` -/
def valueNotEqual (v : Val) (what : Any) : Go Expr := compareWrapped (.value v) Types.NotEqual what
/-- stmt/expression.go:268-271 `Value.Contains` -/
def valueContains (v : Val) (what : Any) : Go Expr := compareWrapped (.value v) Types.Contains what
/-- stmt/expression.go:274-277 `Value.IsContainedBy` -/
def valueIsContainedBy (v : Val) (what : Any) : Go Expr :=
  compareWrapped (.value v) Types.IsContainedBy what

/-- stmt/expression.go:619-622 `Call.Equal` -/
def callEqual (f : Str) (args : List Expr) (what : Any) : Go Expr :=
  compareWrapped (.call f args) Types.Equal what
/-- stmt/expression.go:625-628 `Call.GreaterThan` -/
def callGreaterThan (f : Str) (args : List Expr) (what : Any) : Go Expr :=
  compareWrapped (.call f args) Types.GreaterThan what
/-- stmt/expression.go:631-634 `Call.LessThan` -/
def callLessThan (f : Str) (args : List Expr) (what : Any) : Go Expr :=
  compareWrapped (.call f args) Types.LessThan what
/-- stmt/expression.go:637-640 `Call.Like` -/
def callLike (f : Str) (args : List Expr) (what : Any) : Go Expr :=
  comparePlain (.call f args) Types.Like what
/-- stmt/expression.go:643-646 `Call.ILike` -/
def callILike (f : Str) (args : List Expr) (what : Any) : Go Expr :=
  comparePlain (.call f args) Types.ILike what
/-- stmt/expression.go:654-657 `Call.Overlap` -/
def callOverlap (f : Str) (args : List Expr) (what : Any) : Go Expr :=
  compareWrapped (.call f args) Types.Overlap what

/-- stmt/expression.go:649-651 `Call.In` -/
def callIn (f : Str) (args : List Expr) (vs : List Any) : Go Expr :=
  match newArrayExpression vs with
  | .error p => .error p
  | .ok e => .ok (.inx (.call f args) Types.In e)

/-! ### Combining conditions -/

/-- stmt/infix.go:48-51 `InfixExpression.And` -/
def infixAnd (e right : Expr) : Expr := .infx e (.logical Types.And) (newWrapper right)
/-- stmt/infix.go:54-57 `InfixExpression.Or` -/
def infixOr (e right : Expr) : Expr := .infx e (.logical Types.Or) (newWrapper right)
/-- stmt/in.go:57-60 `In.And` and loukoum.go:94-96 `And` (no wrapper) -/
def plainAnd (e right : Expr) : Expr := .infx e (.logical Types.And) right
/-- stmt/in.go:63-66 `In.Or` and loukoum.go:99-101 `Or` (no wrapper) -/
def plainOr (e right : Expr) : Expr := .infx e (.logical Types.Or) right
/-- stmt/on.go:34-37, :104-107, loukoum.go:60-62 -/
def onAnd (l r : Expr) : Expr := .infixOn l Types.And r
/-- stmt/on.go:40-43, :110-113, loukoum.go:65-67 -/
def onOr (l r : Expr) : Expr := .infixOn l Types.Or r

/-- stmt/where.go:14-18 `NewWhere` -/
def newWhere (e : Expr) : Expr := newWrapper e

/-- stmt/where.go:37-46 `Where.And` -/
def whereAnd (whr right : Expr) : Go Expr :=
  match whr.isUnset with
  | .error p => .error p
  | .ok true => Go.panic "loukoum: two conditions are required for AND statement"
  | .ok false => .ok (.infx whr (.logical Types.And) (newWrapper right))

/-- stmt/where.go:49-58 `Where.Or` -/
def whereOr (whr right : Expr) : Go Expr :=
  match whr.isUnset with
  | .error p => .error p
  | .ok true => Go.panic "loukoum: two conditions are required for OR statement"
  | .ok false => .ok (.infx whr (.logical Types.Or) (newWrapper right))

/-- stmt/subquery.go:14-18 `NewExists` -/
def newExists (v : Any) : Go Expr :=
  match newExpression v with
  | .error p => .error p
  | .ok e => .ok (.exist e)

/-- stmt/subquery.go:46-50 `NewNotExists` -/
def newNotExists (v : Any) : Go Expr :=
  match newExpression v with
  | .error p => .error p
  | .ok e => .ok (.notExist e)

/-- stmt/with.go:65-70 `NewWithQuery` -/
def newWithQuery (name : Str) (v : Any) : Go WithQuery :=
  match newExpression v with
  | .error p => .error p
  | .ok e => .ok { name := name, subquery := e }

/-- stmt/aggregate.go:23-26, :76-79, :119-122, :162-165 `As` of `Count`, `Max`, `Min`, `Sum`
(only these four types have the method; on the others this function is the identity) -/
def aggAs (s : SelExpr) (alias : Str) : SelExpr :=
  match s with
  | .count v d _ => .count v d alias
  | .max v _ => .max v alias
  | .min v _ => .min v alias
  | .sum v _ => .sum v alias
  | s => s

/-- stmt/aggregate.go:29-32 `Count.Distinct` (only `Count` has the method) -/
def countDistinct (s : SelExpr) (value : Bool) : SelExpr :=
  match s with
  | .count v _ a => .count v value a
  | s => s

/-- stmt/column.go:34-41 `Column.Asc` -/
def Column.asc (c : Column) : Order :=
  { expression := if c.alias.isEmpty then c.name else c.alias, type := Types.Asc }

/-- stmt/column.go:44-51 `Column.Desc` -/
def Column.desc (c : Column) : Order :=
  { expression := if c.alias.isEmpty then c.name else c.alias, type := Types.Desc }

/-- loukoum.go:75-81 `Order` (and stmt/order.go:14-19) -/
def newOrder (column : Str) (option : List Str) : Order :=
  { expression := column, type := option.head?.getD Types.Asc }

end Verif
