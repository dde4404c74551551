import Verif.Model.Api
import Verif.Spec.Meaning

/-!
# Writing SQL with the functions of loukoum

For each query of `Verif.Spec.Sql` that loukoum can express: the calls of its functions and methods
with which one writes the query. `fits…` says which queries these are, `build…` gives the calls.
-/

namespace Verif.Spec

/-! ## Names -/

/-- The name with its parts, as one writes it in a program. -/
def nameText (parts : List Str) : Str := List.intercalate s%"." parts

/-- A quoted name: printable ASCII without double quote and backslash. -/
def fitsQuoted : Ref → Bool
  | .quoted ps => !(nameText ps).isEmpty && ps.all fun p => p.all fun c => decide (ordinary c)
  | .bare _ => false

/-- A name without quotes: words that are not reserved. -/
def fitsBare : Ref → Bool
  | .quoted _ => false
  | .bare ps => !ps.isEmpty && ps.all bareWord

/-- A name. -/
def fitsRef (r : Ref) : Bool := fitsQuoted r || fitsBare r

/-- The text of a name. -/
def refText : Ref → Str
  | .quoted ps => nameText ps
  | .bare ps => nameText ps

/-- `Condition("name")` or `Condition(Raw("name"))` -/
def buildIdent : Ref → Ident
  | .quoted ps => Api.Condition (.val (.str (nameText ps)))
  | .bare ps => Api.Condition (.expr (Api.Raw (nameText ps)))

/-- `Column("name")` -/
def buildColumn (r : Ref) : Any := .selExpr (.column (Api.Column (refText r)))

/-- `Table("name")`, `.Only()`, `.As("alias")` -/
def buildTable (t : SqlTable) : Table :=
  let table := Api.Table (refText t.name)
  let table := if t.only then table.withOnly else table
  match t.alias with
  | none => table
  | some a => table.as (refText a)

/-- A table with a quoted name. -/
def fitsTable (t : SqlTable) : Bool :=
  fitsQuoted t.name &&
    match t.alias with
    | none => true
    | some a => fitsQuoted a

/-- An argument of `From`: a table, or `Raw("name")`. -/
def buildFrom (t : SqlTable) : Any :=
  match t.name with
  | .quoted _ => .table (buildTable t)
  | .bare ps => .expr (Api.Raw (nameText ps))

/-- An entry of FROM. -/
def fitsFrom (t : SqlTable) : Bool :=
  fitsTable t || fitsBare t.name && !t.only && t.alias.isNone

/-- `Order("name", Asc)` or `Order("name", Desc)` -/
def buildOrder (o : SqlOrder) : Order :=
  newOrder (refText o.name) [if o.descending then Types.Desc else Types.Asc]

/-! ## Comparisons -/

/-- There is no method for this. -/
def noMethod {α : Type} : Go α := Go.panic "there is no method for this"

/-- A value that can be given as it is; others are given with `Value(...)`. -/
def basic : Val → Bool
  | .slice _ _ => false
  | .opaque _ _ => false
  | _ => true

/-- An argument where an `Expression` is needed: a value is given with `Value(...)`. -/
def asExpression : Any → Go Expr
  | .expr e => .ok e
  | .val v => .ok (Api.Value v)
  | _ => noMethod

/-- The comparison methods of `Condition(...)`. -/
def identMethods (i : Ident) : List (Str × (Any → Go Expr)) :=
  [(s%"=", i.Equal), (s%"!=", i.NotEqual), (s%">", i.GreaterThan),
   (s%">=", i.GreaterThanOrEqual), (s%"<", i.LessThan), (s%"<=", i.LessThanOrEqual),
   (s%"@>", i.Contains), (s%"<@", i.IsContainedBy), (s%"&&", i.Overlap),
   (s%"IS", i.Is), (s%"IS NOT", i.IsNot), (s%"LIKE", i.Like), (s%"NOT LIKE", i.NotLike),
   (s%"ILIKE", i.ILike), (s%"NOT ILIKE", i.NotILike),
   (s%"IS DISTINCT FROM", i.IsDistinctFrom), (s%"IS NOT DISTINCT FROM", i.IsNotDistinctFrom)]

/-- The comparison methods of `Value(...)`. -/
def valueMethods (v : Val) : List (Str × (Any → Go Expr)) :=
  [(s%"=", valueEqual v), (s%"!=", valueNotEqual v), (s%"@>", valueContains v),
   (s%"<@", valueIsContainedBy v), (s%"&&", valueOverlap v)]

/-- The comparison methods of a function call. -/
def callMethods (f : Str) (args : List Expr) : List (Str × (Any → Go Expr)) :=
  [(s%"=", callEqual f args), (s%">", callGreaterThan f args), (s%"<", callLessThan f args),
   (s%"LIKE", callLike f args), (s%"ILIKE", callILike f args), (s%"&&", callOverlap f args)]

/-- The methods of what stands on the left of a comparison. -/
def methods : Any → List (Str × (Any → Go Expr))
  | .expr (.ident i) => identMethods i
  | .expr (.value v) => valueMethods v
  | .val v => valueMethods v
  | .expr (.call f args) => callMethods f args
  | _ => []

/-- Call the comparison method for the operator. -/
def buildCompare (l : Any) (op : Str) (r : Any) : Go Expr :=
  match (methods l).lookup op with
  | some method => method r
  | none => noMethod

/-- `And(l, r)`, `Or(l, r)`, or a comparison method. -/
def buildBinary (op : Str) (l r : Any) : Go Expr :=
  if op = s%"AND" then do .ok (Api.And (← asExpression l) (← asExpression r))
  else if op = s%"OR" then do .ok (Api.Or (← asExpression l) (← asExpression r))
  else buildCompare l op r

/-- `NotExists(...)` -/
def buildNot : Any → Go Expr
  | .expr (.exist e) => Api.NotExists (.expr e)
  | _ => noMethod

/-- `In(...)` or `NotIn(...)` -/
def buildIn (negated : Bool) (l : Any) (set : List Any) : Go Expr :=
  match l with
  | .expr (.ident i) => if negated then i.NotIn set else i.In set
  | .expr (.call f args) => if negated then noMethod else callIn f args set
  | _ => noMethod

/-- `Between(lo, hi)` or `NotBetween(lo, hi)` -/
def buildBetween (negated : Bool) (l lo hi : Any) : Go Expr :=
  match l with
  | .expr (.ident i) => if negated then i.NotBetween lo hi else i.Between lo hi
  | _ => noMethod

/-- Arguments where `Expression`s are needed. -/
def asExpressions : List Any → Go (List Expr)
  | [] => .ok []
  | a :: l => do .ok ((← asExpression a) :: (← asExpressions l))

/-! ## The condition of a join -/

/-- `On("a", "b")` -/
def buildEqual : Sql → Sql → Go Expr
  | .ref a, .ref b => .ok (Api.On (refText a) (refText b))
  | _, _ => noMethod

/-- `On("a", "b")`, `AndOn(l, r)`, `OrOn(l, r)` -/
def buildOn : Sql → Go Expr
  | .binary op l r =>
    if op = s%"AND" then do .ok (Api.AndOn (← buildOn l) (← buildOn r))
    else if op = s%"OR" then do .ok (Api.OrOn (← buildOn l) (← buildOn r))
    else buildEqual l r
  | _ => noMethod

/-- Quoted names. -/
def fitsEqual : Sql → Sql → Bool
  | .ref a, .ref b => fitsQuoted a && fitsQuoted b
  | _, _ => false

/-- Equalities of quoted names, combined with AND and OR. -/
def fitsOn : Sql → Bool
  | .binary op l r =>
    if op ∈ connectives then fitsOn l && fitsOn r
    else op = s%"=" && fitsEqual l r
  | _ => false

/-- `Join(Table(...), On(...), kind)` for each join in turn. -/
def buildJoins (b : SelectStmt) : List SqlJoin → Go SelectStmt
  | [] => .ok b
  | .mk kind table cond :: l => do
    let on ← buildOn cond
    let b ← b.Join [.table (buildTable table), .expr on, .joinType kind]
    buildJoins b l

/-- Joins. -/
def fitsJoins : List SqlJoin → Bool
  | [] => true
  | .mk kind table cond :: l =>
    kind ∈ joinTable.map (·.1) && fitsTable table && fitsOn cond && fitsJoins l

/-! ## Entries of a column list -/

/-- `Count("v")`, `Max("v")`, `Min("v")`, `Sum("v")` -/
def aggregates : List (Str × (Str → SelExpr)) :=
  [(s%"COUNT", Api.Count), (s%"MAX", Api.Max), (s%"MIN", Api.Min), (s%"SUM", Api.Sum)]

/-- What an aggregate is taken of. -/
def aggregateText : Sql → Str
  | .ref r => refText r
  | _ => s%"*"

/-- An aggregate with `.Distinct(true)` and `.As("alias")`. -/
def buildAggregate (f : Str) (distinct : Bool) (e : Sql) (alias : Option Ref) : Go Any :=
  match aggregates.lookup f with
  | none => noMethod
  | some new =>
    let a := new (aggregateText e)
    let a := if distinct then countDistinct a true else a
    match alias with
    | none => .ok (.selExpr a)
    | some r => .ok (.selExpr (aggAs a (refText r)))

/-- An aggregate of a name or of everything. -/
def fitsAggregate (f : Str) (distinct : Bool) (args : List Sql) (alias : Option Ref) : Bool :=
  f ∈ aggregates.map (·.1) && (!distinct || f = s%"COUNT") && alias.all fitsBare &&
    match args with
    | [.star] => true
    | [.ref r] => fitsBare r
    | _ => false

/-- `Column("name").As("alias")`, or `Raw("name")` without alias -/
def buildNamed (r : Ref) (alias : Option Ref) : Any :=
  match r with
  | .quoted ps =>
    match alias with
    | none => .selExpr (.column (Api.Column (nameText ps)))
    | some a => .selExpr (.column ((Api.Column (nameText ps)).as (refText a)))
  | .bare ps => .expr (Api.Raw (nameText ps))

/-- A name in a column list. -/
def fitsNamed (r : Ref) (alias : Option Ref) : Bool :=
  match r with
  | .quoted _ => fitsQuoted r && alias.all fitsQuoted
  | .bare _ => fitsBare r && alias.isNone

/-! ## Queries -/

/-- Not a query. -/
def notQuery : Sql → Bool
  | .query _ => false
  | _ => true

/-- Neither a query nor `NOT ...`: nothing that needs parentheses. -/
def tight : Sql → Bool
  | .query _ => false
  | .not _ => false
  | _ => true

/-- The operators whose methods put a query between parentheses. -/
def wrappingOps : List Str :=
  [s%"=", s%"!=", s%">", s%">=", s%"<", s%"<=", s%"@>", s%"<@", s%"&&"]

/-- The operators for which `Condition(...)`, `Value(...)` and a function call have a method. -/
def opsOf : Sql → List Str
  | .ref _ => comparators
  | .null => [s%"=", s%"!=", s%"@>", s%"<@", s%"&&"]
  | .value _ => [s%"=", s%"!=", s%"@>", s%"<@", s%"&&"]
  | .call _ _ _ => [s%"=", s%">", s%"<", s%"LIKE", s%"ILIKE", s%"&&"]
  | _ => []

/-- `Not(...)` takes `Exists(...)` only. -/
def isExist : Sql → Bool
  | .exist _ => true
  | _ => false

/-- The expressions with a method `In`, and with a method `NotIn`. -/
def hasIn (negated : Bool) : Sql → Bool
  | .ref _ => true
  | .call _ _ _ => !negated
  | _ => false

/-- The expressions with the methods `Between` and `NotBetween`. -/
def isRef : Sql → Bool
  | .ref _ => true
  | _ => false

/-- `DISTINCT`, `DISTINCT ON (columns)` or neither. -/
def fitsDistinct : SqlDistinct → Bool
  | .no => true
  | .yes => true
  | .on cs => !cs.isEmpty && cs.all fitsQuoted

/-- A limit or offset: a positive number of 64 bits. -/
def fitsCount : Option Nat → Bool
  | none => true
  | some n => decide (0 < n) && decide (n < 2 ^ 63)

mutual

/-- The expressions that can be written. -/
def fits : Sql → Bool
  | .ref r => fitsRef r
  | .star => false
  | .null => true
  | .value v =>
    match v with
    | .nil => false
    | _ => true
  | .binary op l r =>
    fits l && fits r &&
      if op ∈ connectives then notQuery l && notQuery r
      else op ∈ opsOf l && (op ∈ wrappingOps || tight r)
  | .not e =>
    fits e && isExist e
  | .isIn negated e set =>
    fits e && fitsSet set && hasIn negated e
  | .between _ e lo hi =>
    fits e && fits lo && fits hi && tight lo && tight hi && isRef e
  | .exist q => fitsSelect q
  | .list _ => false
  | .call f distinct args => !distinct && bareWord f && fitsList args
  | .query q => fitsSelect q

/-- Lists of expressions that are not queries. -/
def fitsList : List Sql → Bool
  | [] => true
  | e :: l => fits e && notQuery e && fitsList l

/-- The right-hand side of IN: a list that is not empty, or a query. -/
def fitsSet : Sql → Bool
  | .list es => !es.isEmpty && fitsList es
  | .query q => fitsSelect q
  | _ => false

/-- A condition, if there is one. -/
def fitsCond : Option Sql → Bool
  | none => true
  | some e => fits e && notQuery e

/-- An entry of a column list. -/
def fitsItem : SqlItem → Bool
  | .mk e alias =>
    match e with
    | .ref r => fitsNamed r alias
    | .call f distinct args => fitsAggregate f distinct args alias
    | .exist q => fitsSelect q && alias.isNone
    | .not e =>
      match e with
      | .exist q => fitsSelect q && alias.isNone
      | _ => false
    | _ => false

/-- Entries of a column list. -/
def fitsItems : List SqlItem → Bool
  | [] => true
  | i :: l => fitsItem i && fitsItems l

/-- Common table expressions. -/
def fitsWiths : List SqlWith → Bool
  | [] => true
  | w :: l => fitsWith w && fitsWiths l

/-- A common table expression. -/
def fitsWith : SqlWith → Bool
  | .mk name q => bareWord name && fitsSelect q

/-- A query. -/
def fitsSelect : SqlSelect → Bool
  | .mk withs distinct items tables joins whr groupBy having orderBy limit offset =>
    fitsWiths withs && fitsDistinct distinct && !items.isEmpty && fitsItems items &&
    tables.all fitsFrom && fitsJoins joins && fitsCond whr && groupBy.all fitsQuoted &&
    fitsCond having && (orderBy.all fun o => fitsBare o.name) && fitsCount limit &&
    fitsCount offset

end

/-- `Distinct()`, `DistinctOn(columns...)` or nothing -/
def buildDistinct (b : SelectStmt) : SqlDistinct → Go SelectStmt
  | .no => .ok b
  | .yes => b.Distinct
  | .on cs => b.DistinctOn (cs.map buildColumn)

/-- Call the method if there is something to give to it. -/
def ifAny {α β : Type} (b : β) (l : List α) (method : β → List α → Go β) : Go β :=
  if l.isEmpty then .ok b else method b l

/-- Call the method if there is something to give to it. -/
def ifSome {α β : Type} (b : β) (o : Option α) (method : β → α → Go β) : Go β :=
  match o with
  | none => .ok b
  | some a => method b a

/-- A number, given as an `int64`. -/
def buildCount (n : Nat) : Any := .val (.int .int64 n)

mutual

/-- The expression, as an argument of type `interface{}`. -/
def build : Sql → Go Any
  | .ref r => .ok (.expr (.ident (buildIdent r)))
  | .star => noMethod
  | .null => .ok (.val .nil)
  | .value v => .ok (if basic v then .val v else .expr (Api.Value v))
  | .binary op l r => do .ok (.expr (← buildBinary op (← build l) (← build r)))
  | .not e => do .ok (.expr (← buildNot (← build e)))
  | .isIn negated e set => do .ok (.expr (← buildIn negated (← build e) (← buildSet set)))
  | .between negated e lo hi => do
    .ok (.expr (← buildBetween negated (← build e) (← build lo) (← build hi)))
  | .exist q => do .ok (.expr (← Api.Exists (.selectB (← buildSelect q))))
  | .list _ => noMethod
  | .call f _ args => do .ok (.expr (newCall f (← asExpressions (← buildList args))))
  | .query q => do .ok (.selectB (← buildSelect q))

/-- The expressions, as arguments. -/
def buildList : List Sql → Go (List Any)
  | [] => .ok []
  | e :: l => do .ok ((← build e) :: (← buildList l))

/-- The arguments of `In`: a slice, or a query. -/
def buildSet : Sql → Go (List Any)
  | .list es => do .ok [.anys (← buildList es)]
  | .query q => do .ok [.selectB (← buildSelect q)]
  | _ => noMethod

/-- A condition, if there is one. -/
def buildCond : Option Sql → Go (Option Expr)
  | none => .ok none
  | some e => do .ok (some (← asExpression (← build e)))

/-- An entry of a column list. -/
def buildItem : SqlItem → Go Any
  | .mk e alias =>
    match e with
    | .ref r => .ok (buildNamed r alias)
    | .call f distinct args =>
      match args with
      | [e] => buildAggregate f distinct e alias
      | _ => noMethod
    | .exist q => do .ok (.expr (← Api.Exists (.selectB (← buildSelect q))))
    | .not e =>
      match e with
      | .exist q => do .ok (.expr (← Api.NotExists (.selectB (← buildSelect q))))
      | _ => noMethod
    | _ => noMethod

/-- Entries of a column list. -/
def buildItems : List SqlItem → Go (List Any)
  | [] => .ok []
  | i :: l => do .ok ((← buildItem i) :: (← buildItems l))

/-- Common table expressions. -/
def buildWiths : List SqlWith → Go (List WithQuery)
  | [] => .ok []
  | w :: l => do .ok ((← buildWith w) :: (← buildWiths l))

/-- `With("name", builder)` -/
def buildWith : SqlWith → Go WithQuery
  | .mk name q => do Api.With name (.selectB (← buildSelect q))

/-- `Select(...).With(...).Distinct().From(...).Join(...).Where(...).GroupBy(...).Having(...)`
`.OrderBy(...).Limit(...).Offset(...)` -/
def buildSelect : SqlSelect → Go SelectStmt
  | .mk withs distinct items tables joins whr groupBy having orderBy limit offset => do
    let withs ← buildWiths withs
    let items ← buildItems items
    let whr ← buildCond whr
    let having ← buildCond having
    let b ← select items
    let b ← ifAny b withs SelectStmt.With
    let b ← buildDistinct b distinct
    let b ← ifAny b (tables.map buildFrom) SelectStmt.From
    let b ← buildJoins b joins
    let b ← ifSome b whr SelectStmt.Where
    let b ← ifAny b (groupBy.map buildColumn) SelectStmt.GroupBy
    let b ← ifSome b having SelectStmt.Having
    let b ← ifAny b (orderBy.map buildOrder) SelectStmt.OrderBy
    let b ← ifSome b (limit.map buildCount) SelectStmt.Limit
    ifSome b (offset.map buildCount) SelectStmt.Offset

end

/-! ## Statements -/

/-- A builder made by the functions. -/
def buildReturning {β : Type} (b : β) (items : List SqlItem) (method : β → List Any → Go β) :
    Go β := do
  ifAny b (← buildItems items) method

/-- `Pair(Column("name"), value)` for each assignment. -/
def buildPairs : List (Ref × Sql) → Go (List Any)
  | [] => .ok []
  | (r, e) :: l => do .ok (Api.Pair (buildColumn r) (← build e) :: (← buildPairs l))

/-- Assignments to columns with quoted names, in the order of the names, no name twice. -/
def fitsPairs (l : List (Ref × Sql)) : Bool :=
  !l.isEmpty && (l.all fun re => fitsQuoted re.1 && fits re.2) &&
    decide (l.Pairwise fun x y => refText x.1 < refText y.1)

/-- What is given to `Using`: expressions, or a query. -/
def buildUsing : Sql → Go (List Any)
  | .list es => buildList es
  | .query q => do .ok [.selectB (← buildSelect q)]
  | _ => noMethod

/-- `Set(pairs)`, or `Set(columns).Using(expressions)` -/
def buildSetClause (b : UpdateStmt) : SqlSet → Go UpdateStmt
  | .pairs l => do b.Set (← buildPairs l)
  | .columns cs e => do (← b.Set (cs.map buildColumn)).Using (← buildUsing e)

/-- The assignments of an UPDATE. -/
def fitsSetClause : SqlSet → Bool
  | .pairs l => fitsPairs l
  | .columns cs e => !cs.isEmpty && cs.all fitsQuoted && fitsSet e

/-- `OnConflict(targets, DoNothing())` or `OnConflict(targets, DoUpdate(pairs))` -/
def buildConflict (b : InsertStmt) : Option (List Ref × SqlAction) → Go InsertStmt
  | none => .ok b
  | some (target, .nothing) => b.OnConflict (target.map buildColumn ++ [Api.DoNothing])
  | some (target, .update (.pairs l)) => do
    b.OnConflict (target.map buildColumn ++ [← doUpdate (← buildPairs l)])
  | some (_, .update (.columns _ _)) => noMethod

/-- What happens on a conflict. -/
def fitsConflict : Option (List Ref × SqlAction) → Bool
  | none => true
  | some (target, .nothing) => target.all fitsQuoted
  | some (target, .update (.pairs l)) => !target.isEmpty && target.all fitsQuoted && fitsPairs l
  | some (_, .update (.columns _ _)) => false

/-- `.Only()` -/
def buildOnly (b : UpdateStmt) (only : Bool) : Go UpdateStmt := if only then b.Only else .ok b

/-- The rows of VALUES, as expressions. -/
def buildRows : List (List Sql) → Go (List (List Expr))
  | [] => .ok []
  | r :: l => do .ok ((← asExpressions (← buildList r)) :: (← buildRows l))

/-- `Delete(...)`, `Insert(...)`, `Update(...)` or `Select(...)` with their methods. -/
def buildStmt [GoRuntime] : SqlStmt → Go Stmt
  | .select q => do .ok (.select (← buildSelect q))
  | .insert into columns rows conflict returning => do
    let rows ← buildRows rows
    let b ← insert (.table (buildTable into))
    let b ← b.Columns (columns.map buildColumn)
    let b ← ifAny b rows fun b rows => b.Values [.exprss rows]
    let b ← buildConflict b conflict
    .ok (.insert (← buildReturning b returning InsertStmt.Returning))
  | .update withs table set tables whr returning => do
    let withs ← buildWiths withs
    let whr ← buildCond whr
    let b ← update (.table (buildTable { table with only := false }))
    let b ← buildOnly b table.only
    let b ← ifAny b withs UpdateStmt.With
    let b ← buildSetClause b set
    let b ← ifSome b (tables.head?.map buildFrom) UpdateStmt.From
    let b ← ifSome b whr UpdateStmt.Where
    .ok (.update (← buildReturning b returning UpdateStmt.Returning))
  | .delete tables usings whr returning => do
    let whr ← buildCond whr
    let b ← DeleteStmt.zero.From (tables.map buildFrom)
    let b ← ifAny b (usings.map fun t => .table (buildTable t)) DeleteStmt.Using
    let b ← ifSome b whr DeleteStmt.Where
    .ok (.delete (← buildReturning b returning DeleteStmt.Returning))

/-- The statements that can be written: an UPDATE has at most one table in FROM. -/
def fitsStmt : SqlStmt → Bool
  | .select q => fitsSelect q
  | .insert into columns rows conflict returning =>
    fitsTable into && columns.all fitsQuoted && (rows.all fun r => !r.isEmpty && fitsList r) &&
    fitsConflict conflict && fitsItems returning
  | .update withs table set tables whr returning =>
    fitsWiths withs && fitsTable table && fitsSetClause set && tables.length ≤ 1 &&
    tables.all fitsFrom && fitsCond whr && fitsItems returning
  | .delete tables usings whr returning =>
    !tables.isEmpty && tables.all fitsFrom && usings.all fitsTable && fitsCond whr &&
    fitsItems returning

end Verif.Spec
