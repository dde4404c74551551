import Verif.Spec.Sql

/-!
# What a statement stands for in SQL

For the statements without prefix, suffix and free SQL fragments: the SQL statement (of
`Verif.Spec.Sql`) that the user asked for, independent of how it is written. The `plain` functions
say which statements are meant; the `mean` functions give the SQL statement. Raw fragments are
admitted where they are names.
-/

namespace Verif.Spec

/-! ## Names -/

/-- Printable ASCII without double quote and backslash. -/
def plainName (n : Str) : Bool := !n.isEmpty && n.all fun c => decide (ordinary c) || c = '.'

/-- A word that needs no quotes. -/
def bareWord (w : Str) : Bool := isNameWord w && w.all wordStart

/-- Words that need no quotes, with dots between them. -/
def bareName (t : Str) : Bool := (splitOn '.' t).all bareWord

/-- The name given as a text that is quoted. -/
def quotedRef (n : Str) : Ref := .quoted (splitOn '.' n)

/-- The name given as a raw fragment. -/
def bareRef (t : Str) : Ref := .bare (splitOn '.' t)

/-- The alias, if there is one. -/
def aliasRef (a : Str) : Option Ref := if a.isEmpty then none else some (quotedRef a)

/-- An optional alias. -/
def plainAlias (a : Str) : Bool := a.isEmpty || plainName a

/-- A column without alias. -/
def plainColumn (c : Column) : Bool := plainName c.name && c.alias.isEmpty

/-- The name of a column. -/
def columnRef (c : Column) : Ref := quotedRef c.name

/-- A table. -/
def plainTable (t : Table) : Bool := plainName t.name && plainAlias t.alias

/-- A table. -/
def meanTable (t : Table) : SqlTable := ⟨t.only, quotedRef t.name, aliasRef t.alias⟩

/-- An entry of FROM: a table or the name of one. -/
def plainFrom : FromItem → Bool
  | .nil => false
  | .table t => plainTable t
  | .raw s => bareName s

/-- An entry of FROM. -/
def meanFrom : FromItem → SqlTable
  | .nil => ⟨false, .bare [], none⟩
  | .table t => meanTable t
  | .raw s => ⟨false, bareRef s, none⟩

/-- An entry of ORDER BY: a name with a direction. -/
def plainOrder (o : Order) : Bool := bareName o.expression && (o.type = s%"ASC" || o.type = s%"DESC")

/-- An entry of ORDER BY. -/
def meanOrder (o : Order) : SqlOrder := ⟨bareRef o.expression, o.type = s%"DESC"⟩

/-- The name of a column in a condition. -/
def plainIdent : Ident → Bool
  | .str s => plainName s
  | .raw s => bareName s
  | .other => false

/-- The name of a column in a condition. -/
def meanIdent : Ident → Ref
  | .str s => quotedRef s
  | .raw s => bareRef s
  | .other => .bare []

/-- What an aggregate is taken of: a name or a star. -/
def plainAggregate (v alias : Str) : Bool :=
  (v = s%"*" || bareName v) && (alias.isEmpty || bareName alias)

/-- An aggregate. -/
def meanAggregate (f : Str) (distinct : Bool) (v alias : Str) : SqlItem :=
  .mk (.call f distinct [if v = s%"*" then .star else .ref (bareRef v)])
    (if alias.isEmpty then none else some (bareRef alias))

/-- `AND` or `OR`. -/
def connectives : List Str := [s%"AND", s%"OR"]

/-- A comparison operator. -/
def comparators : List Str := operatorTable.map (·.1)

/-- A limit or offset: zero means none. -/
def meanCount (n : Int) : Option Nat := if n = 0 then none else some n.toNat

/-! ## Expressions and queries -/

mutual

/-- The expressions considered. `loose` is true where a condition can stand that is not between
parentheses: `NOT EXISTS (...)` or `a = b`. -/
def plainExpr (loose : Bool) : Expr → Bool
  | .nil => false
  | .ident i => plainIdent i
  | .value _ => true
  | .arrayList _ => false
  | .array _ => false
  | .raw s => bareName s
  | .wrapper e =>
    match e with
    | .select s => plainSelect s
    | e => plainExpr true e
  | .call f args => bareWord f && plainExprs args
  | .infx l op r =>
    if opL op ∈ connectives then plainExpr true l && plainExpr true r
    else opL op ∈ comparators && plainExpr false l && plainExpr false r
  | .inx e op v =>
    (op = s%"IN" || op = s%"NOT IN") && plainExpr false e &&
      match v with
      | .array [.select s] => plainSelect s
      | .array l => !l.isEmpty && plainExprs l
      | _ => false
  | .between i op lo and hi =>
    plainIdent i && (op = s%"BETWEEN" || op = s%"NOT BETWEEN") && plainExpr false lo
      && and = s%"AND" && plainExpr false hi
  | .exist e =>
    match e with
    | .select s => plainSelect s
    | _ => false
  | .notExist e =>
    match e with
    | .select s => loose && plainSelect s
    | _ => false
  | .select _ => false
  | .onClause l r => loose && plainColumn l && plainColumn r
  | .infixOn l op r => op ∈ connectives && plainExpr true l && plainExpr true r

/-- Conditions or values. -/
def plainExprs : List Expr → Bool
  | [] => true
  | e :: l => plainExpr true e && plainExprs l

/-- An entry of a column list. -/
def plainItem : SelExpr → Bool
  | .nil => false
  | .column c => plainName c.name && plainAlias c.alias
  | .raw s => bareName s
  | .count v _ alias => plainAggregate v alias
  | .max v alias => plainAggregate v alias
  | .min v alias => plainAggregate v alias
  | .sum v alias => plainAggregate v alias
  | .exist e =>
    match e with
    | .select s => plainSelect s
    | _ => false
  | .notExist e =>
    match e with
    | .select s => plainSelect s
    | _ => false

/-- Entries of a column list. -/
def plainItems : List SelExpr → Bool
  | [] => true
  | e :: l => plainItem e && plainItems l

/-- A join. -/
def plainJoin : Join → Bool
  | ⟨type, table, cond⟩ => type ∈ joinTable.map (·.1) && plainTable table && plainExpr true cond

/-- Joins. -/
def plainJoins : List Join → Bool
  | [] => true
  | j :: l => plainJoin j && plainJoins l

/-- A common table expression. -/
def plainWith : WithQuery → Bool
  | ⟨name, sub⟩ =>
    bareWord name &&
      match sub with
      | .select s => plainSelect s
      | _ => false

/-- Common table expressions. -/
def plainWiths : List WithQuery → Bool
  | [] => true
  | w :: l => plainWith w && plainWiths l

/-- A query. -/
def plainSelect : SelectStmt → Bool
  | ⟨pfx, withs, distinct, distinctOn, exprs, tables, joins, whr, groupBy, having, orderBy,
      limit, offset, sfx, comment⟩ =>
    pfx.isEmpty && plainWiths withs && (!distinct || distinctOn.isEmpty) &&
    distinctOn.all plainColumn && !exprs.isEmpty && plainItems exprs && tables.all plainFrom &&
    plainJoins joins && (blank whr || plainExpr true whr) && groupBy.all plainColumn &&
    (blank having || plainExpr true having) && orderBy.all plainOrder && 0 ≤ limit && 0 ≤ offset &&
    sfx.isEmpty && comment.isEmpty

end

/-- A query given as the only element of a list is the set itself. -/
def meanSet : List Expr → List Sql → Sql
  | [.select _], [x] => x
  | _, xs => .list xs

mutual

/-- The expression meant. -/
def meanExpr : Expr → Sql
  | .nil => .null
  | .ident i => .ref (meanIdent i)
  | .value v =>
    match v with
    | .nil => .null
    | v => .value v
  | .arrayList l => .list (meanExprs l)
  | .array l => meanSet l (meanExprs l)
  | .raw s => .ref (bareRef s)
  | .wrapper e => meanExpr e
  | .call f args => .call f false (meanExprs args)
  | .infx l op r => .binary (opL op) (meanExpr l) (meanExpr r)
  | .inx e op v => .isIn (op = s%"NOT IN") (meanExpr e) (meanExpr v)
  | .between i op lo _ hi =>
    .between (op = s%"NOT BETWEEN") (.ref (meanIdent i)) (meanExpr lo) (meanExpr hi)
  | .exist e =>
    match e with
    | .select s => .exist (meanSelect s)
    | _ => .null
  | .notExist e =>
    match e with
    | .select s => .not (.exist (meanSelect s))
    | _ => .null
  | .select s => .query (meanSelect s)
  | .onClause l r => .binary s%"=" (.ref (columnRef l)) (.ref (columnRef r))
  | .infixOn l op r => .binary op (meanExpr l) (meanExpr r)

/-- The expressions meant. -/
def meanExprs : List Expr → List Sql
  | [] => []
  | e :: l => meanExpr e :: meanExprs l

/-- The entry of a column list meant. -/
def meanItem : SelExpr → SqlItem
  | .nil => .mk .null none
  | .column c => .mk (.ref (quotedRef c.name)) (aliasRef c.alias)
  | .raw s => .mk (.ref (bareRef s)) none
  | .count v distinct alias => meanAggregate s%"COUNT" distinct v alias
  | .max v alias => meanAggregate s%"MAX" false v alias
  | .min v alias => meanAggregate s%"MIN" false v alias
  | .sum v alias => meanAggregate s%"SUM" false v alias
  | .exist e =>
    match e with
    | .select s => .mk (.exist (meanSelect s)) none
    | _ => .mk .null none
  | .notExist e =>
    match e with
    | .select s => .mk (.not (.exist (meanSelect s))) none
    | _ => .mk .null none

/-- The entries of a column list meant. -/
def meanItems : List SelExpr → List SqlItem
  | [] => []
  | e :: l => meanItem e :: meanItems l

/-- The join meant. -/
def meanJoin : Join → SqlJoin
  | ⟨type, table, cond⟩ => .mk type (meanTable table) (meanExpr cond)

/-- The joins meant. -/
def meanJoins : List Join → List SqlJoin
  | [] => []
  | j :: l => meanJoin j :: meanJoins l

/-- The common table expression meant. -/
def meanWith : WithQuery → SqlWith
  | ⟨name, sub⟩ =>
    match sub with
    | .select s => .mk name (meanSelect s)
    | _ => .mk name (.mk [] .no [] [] [] none [] none [] none none)

/-- The common table expressions meant. -/
def meanWiths : List WithQuery → List SqlWith
  | [] => []
  | w :: l => meanWith w :: meanWiths l

/-- The query meant. -/
def meanSelect : SelectStmt → SqlSelect
  | ⟨_, withs, distinct, distinctOn, exprs, tables, joins, whr, groupBy, having, orderBy,
      limit, offset, _, _⟩ =>
    .mk (meanWiths withs)
      (if distinct then .yes
       else if distinctOn.isEmpty then .no else .on (distinctOn.map columnRef))
      (meanItems exprs) (tables.map meanFrom) (meanJoins joins)
      (if blank whr then none else some (meanExpr whr)) (groupBy.map columnRef)
      (if blank having then none else some (meanExpr having)) (orderBy.map meanOrder)
      (meanCount limit) (meanCount offset)

end

/-! ## Statements -/

/-- What stands between the parentheses of `(columns) = (...)`: one query or values. -/
def plainSet : List Expr → Bool
  | [.select s] => plainSelect s
  | l => !l.isEmpty && plainExprs l

/-- A row of VALUES. -/
def plainRow : Expr → Bool
  | .array l => !l.isEmpty && plainExprs l
  | _ => false

/-- A row of VALUES. -/
def meanRow : Expr → List Sql
  | .array l => meanExprs l
  | _ => []

/-- VALUES, or nothing. -/
def plainValues : Expr → Bool
  | .arrayList l => l.all plainRow
  | e => blank e

/-- The rows of VALUES. -/
def meanValues : Expr → List (List Sql)
  | .arrayList l => l.map meanRow
  | _ => []

section
variable [GoRuntime]

/-- SET with at least one assignment. -/
def plainPairs (p : PairContainer) : Bool :=
  match p.mode with
  | .unknown => false
  | .associative =>
    !(assignments p).isEmpty &&
      (assignments p).all fun ce => plainColumn ce.1 && plainExpr true ce.2
  | .array => !p.columns.isEmpty && p.columns.all plainColumn && plainSet p.expressions

/-- The SET clause meant. -/
def meanPairs (p : PairContainer) : SqlSet :=
  match p.mode with
  | .array => .columns (p.columns.map columnRef) (meanSet p.expressions (meanExprs p.expressions))
  | _ => .pairs ((assignments p).map fun ce => (columnRef ce.1, meanExpr ce.2))

/-- The action of ON CONFLICT. -/
def plainAction : ConflictAction → Bool
  | .nil => true
  | .nothing => true
  | .update set => setBlank set || plainPairs set

/-- ON CONFLICT, if there is an action. -/
def meanConflict (target : List Column) : ConflictAction → Option (List Ref × SqlAction)
  | .nil => none
  | .nothing => some (target.map columnRef, .nothing)
  | .update set =>
    if setBlank set then none else some (target.map columnRef, .update (meanPairs set))

/-- The statements considered. -/
def plainStmt : Stmt → Bool
  | .select s => plainSelect s
  | .insert i =>
    plainTable i.into && i.columns.all plainColumn && plainValues i.values &&
    i.target.all plainColumn && plainAction i.action && plainItems i.returning
  | .update u =>
    plainWiths u.withs && plainTable u.table && !(u.only && u.table.only) && plainPairs u.set &&
    u.tables.all plainFrom && (blank u.whr || plainExpr true u.whr) && plainItems u.returning
  | .delete d =>
    !d.tables.isEmpty && d.tables.all plainFrom && d.usings.all plainTable &&
    (blank d.whr || plainExpr true d.whr) && plainItems d.returning

/-- The statement meant. -/
def meanStmt : Stmt → SqlStmt
  | .select s => .select (meanSelect s)
  | .insert i =>
    .insert (meanTable i.into) (i.columns.map columnRef) (meanValues i.values)
      (meanConflict i.target i.action) (meanItems i.returning)
  | .update u =>
    .update (meanWiths u.withs) { meanTable u.table with only := u.only || u.table.only }
      (meanPairs u.set) (u.tables.map meanFrom)
      (if blank u.whr then none else some (meanExpr u.whr)) (meanItems u.returning)
  | .delete d =>
    .delete (d.tables.map meanFrom) (d.usings.map meanTable)
      (if blank d.whr then none else some (meanExpr d.whr)) (meanItems d.returning)

end

end Verif.Spec
