import Verif.Spec.Calls
import Verif.Spec.Program

/-!
# What each method call does to a query

A small machine whose states are queries of SQL: what a call of a builder's method does to the query
built so far, or that it is refused. This is what somebody who writes programs with loukoum has to
keep in mind; nothing of how the builders work is used.
-/

namespace Verif.Spec

/-- One more condition. -/
def addCond (op : Str) : Option Sql → Sql → Sql
  | none, e => e
  | some w, e => .binary op w e

/-! ## SELECT -/

/-- A method call on a SELECT builder, in terms of SQL. -/
inductive SelStep where
  | distinct
  | distinctOn (columns : List Ref)
  | columns (items : List SqlItem)
  | «from» (tables : List SqlTable)
  | join (j : SqlJoin)
  | «with» (l : List SqlWith)
  | «where» (e : Sql)
  | and (e : Sql)
  | or (e : Sql)
  | groupBy (columns : List Ref)
  | having (e : Sql)
  | orderBy (l : List SqlOrder)
  | limit (n : Nat)
  | offset (n : Nat)
  | comment (text : Str)

/-- What the call does to the query; `none` if it is refused. `And` and `Or` need a condition to
extend; a second FROM, GROUP BY, HAVING, LIMIT or OFFSET is refused, and so is DISTINCT ON after
GROUP BY. `Columns` and `DistinctOn` replace what was there. A comment is no part of the query. -/
def SelStep.on : SelStep → SqlSelect → Option SqlSelect
  | .distinct, .mk ws _ is ts js w g h o li off =>
    some (.mk ws .yes is ts js w g h o li off)
  | .distinctOn cs, .mk ws _ is ts js w g h o li off =>
    if cs ≠ [] ∧ g = [] then some (.mk ws (.on cs) is ts js w g h o li off) else none
  | .columns is, .mk ws d _ ts js w g h o li off =>
    some (.mk ws d is ts js w g h o li off)
  | .from ts', .mk ws d is ts js w g h o li off =>
    if ts' ≠ [] ∧ ts = [] then some (.mk ws d is ts' js w g h o li off) else none
  | .join j, .mk ws d is ts js w g h o li off =>
    some (.mk ws d is ts (js ++ [j]) w g h o li off)
  | .with ws', .mk ws d is ts js w g h o li off =>
    some (.mk (ws ++ ws') d is ts js w g h o li off)
  | .where e, .mk ws d is ts js w g h o li off =>
    some (.mk ws d is ts js (some (addCond s%"AND" w e)) g h o li off)
  | .and e, .mk ws d is ts js w g h o li off =>
    if w.isSome then some (.mk ws d is ts js (some (addCond s%"AND" w e)) g h o li off) else none
  | .or e, .mk ws d is ts js w g h o li off =>
    if w.isSome then some (.mk ws d is ts js (some (addCond s%"OR" w e)) g h o li off) else none
  | .groupBy cs, .mk ws d is ts js w g h o li off =>
    if cs ≠ [] ∧ g = [] then some (.mk ws d is ts js w cs h o li off) else none
  | .having e, .mk ws d is ts js w g h o li off =>
    if h.isNone then some (.mk ws d is ts js w g (some e) o li off) else none
  | .orderBy o', .mk ws d is ts js w g h o li off =>
    some (.mk ws d is ts js w g h (o ++ o') li off)
  | .limit n, .mk ws d is ts js w g h o li off =>
    if li.isNone then some (.mk ws d is ts js w g h o (some n) off) else none
  | .offset n, .mk ws d is ts js w g h o li off =>
    if off.isNone then some (.mk ws d is ts js w g h o li (some n)) else none
  | .comment _, q => some q

/-- The arguments can be written. -/
def SelStep.fits : SelStep → Bool
  | .distinct => true
  | .distinctOn cs => cs.all fitsQuoted
  | .columns is => !is.isEmpty && fitsItems is
  | .from ts => ts.all fitsFrom
  | .join j => fitsJoins [j]
  | .with ws => fitsWiths ws
  | .where e | .and e | .or e | .having e => fitsCond (some e)
  | .groupBy cs => cs.all fitsQuoted
  | .orderBy o => o.all fun o => fitsBare o.name
  | .limit n | .offset n => fitsCount (some n)
  | .comment text => decide ('\n' ∉ text ∧ '\r' ∉ text)

/-- A condition, as an argument. -/
def buildExpr (e : Sql) : Go Expr := do asExpression (← build e)

/-- The call, with its arguments made by loukoum's functions. -/
def SelStep.call : SelStep → Go SelCall
  | .distinct => .ok .distinct
  | .distinctOn cs => .ok (.distinctOn (cs.map buildColumn))
  | .columns is => do .ok (.columns (← buildItems is))
  | .from ts => .ok (.from (ts.map buildFrom))
  | .join (.mk kind table cond) => do
    .ok (.join [.table (buildTable table), .expr (← buildOn cond), .joinType kind])
  | .with ws => do .ok (.with (← buildWiths ws))
  | .where e => do .ok (.where (← buildExpr e))
  | .and e => do .ok (.and (← buildExpr e))
  | .or e => do .ok (.or (← buildExpr e))
  | .groupBy cs => .ok (.groupBy (cs.map buildColumn))
  | .having e => do .ok (.having (← buildExpr e))
  | .orderBy o => .ok (.orderBy (o.map buildOrder))
  | .limit n => .ok (.limit (buildCount n))
  | .offset n => .ok (.offset (buildCount n))
  | .comment text => .ok (.comment text)

/-- Making the call on a builder. -/
def SelStep.apply (c : SelStep) (b : SelectStmt) : Go SelectStmt := do (← c.call).apply b

/-- `Select(items...)` -/
def selectOf (items : List SqlItem) : Go SelectStmt := do select (← buildItems items)

/-- `SELECT items` -/
def selectStart (items : List SqlItem) : SqlSelect :=
  .mk [] .no items [] [] none [] none [] none none

/-- The states of the machine, one after the other; `none` as soon as a call is refused. -/
def runSteps {S C : Type} (on : C → S → Option S) : List C → S → Option S
  | [], s => some s
  | c :: l, s =>
    match on c s with
    | none => none
    | some s' => runSteps on l s'

/-- A call of `Distinct`. -/
def SelStep.isDistinct : SelStep → Bool
  | .distinct => true
  | _ => false

/-- A call of `DistinctOn`. -/
def SelStep.isDistinctOn : SelStep → Bool
  | .distinctOn _ => true
  | _ => false

/-- `Distinct` and `DistinctOn` are not both called: there is no SQL for both. -/
def oneDistinct (l : List SelStep) : Bool :=
  !(l.any SelStep.isDistinct && l.any SelStep.isDistinctOn)

/-! ## Assignments -/

/-- `name = value` among assignments kept in the order of the names: a second value for a name
replaces the first. -/
def assign : List (Ref × Sql) → Ref × Sql → List (Ref × Sql)
  | [], a => [a]
  | b :: l, a =>
    if b.1 = a.1 then a :: l
    else if refText a.1 < refText b.1 then a :: b :: l
    else b :: assign l a

/-- Assignments, one after the other. -/
def assignMany (l m : List (Ref × Sql)) : List (Ref × Sql) := m.foldl assign l

/-- Assignments to quoted names, in any order. -/
def fitsAssignments (l : List (Ref × Sql)) : Bool :=
  l.all fun re => fitsQuoted re.1 && fits re.2

/-! ## DELETE -/

/-- A DELETE. -/
structure SqlDelete where
  tables : List SqlTable
  usings : List SqlTable
  whr : Option Sql
  returning : List SqlItem

/-- The statement. -/
def SqlDelete.stmt (d : SqlDelete) : SqlStmt := .delete d.tables d.usings d.whr d.returning

/-- A method call on a DELETE builder, in terms of SQL. -/
inductive DelStep where
  | «from» (tables : List SqlTable)
  | «using» (tables : List SqlTable)
  | «where» (e : Sql)
  | and (e : Sql)
  | or (e : Sql)
  | returning (items : List SqlItem)
  | comment (text : Str)

/-- What the call does to the statement; `none` if it is refused. -/
def DelStep.on : DelStep → SqlDelete → Option SqlDelete
  | .from ts, d => if ts ≠ [] ∧ d.tables = [] then some { d with tables := ts } else none
  | .using ts, d => if d.usings = [] then some { d with usings := ts } else none
  | .where e, d => some { d with whr := some (addCond s%"AND" d.whr e) }
  | .and e, d =>
    if d.whr.isSome then some { d with whr := some (addCond s%"AND" d.whr e) } else none
  | .or e, d => if d.whr.isSome then some { d with whr := some (addCond s%"OR" d.whr e) } else none
  | .returning is, d => if d.returning.isEmpty then some { d with returning := is } else none
  | .comment _, d => some d

/-- The arguments can be written. -/
def DelStep.fits : DelStep → Bool
  | .from ts => ts.all fitsFrom
  | .using ts => ts.all fitsTable
  | .where e | .and e | .or e => fitsCond (some e)
  | .returning is => fitsItems is
  | .comment text => decide ('\n' ∉ text ∧ '\r' ∉ text)

/-- The call, with its arguments made by loukoum's functions. -/
def DelStep.call : DelStep → Go DelCall
  | .from ts => .ok (.from (ts.map buildFrom))
  | .using ts => .ok (.using (ts.map fun t => .table (buildTable t)))
  | .where e => do .ok (.where (← buildExpr e))
  | .and e => do .ok (.and (← buildExpr e))
  | .or e => do .ok (.or (← buildExpr e))
  | .returning is => do .ok (.returning (← buildItems is))
  | .comment text => .ok (.comment text)

/-- Making the call on a builder. -/
def DelStep.apply (c : DelStep) (b : DeleteStmt) : Go DeleteStmt := do (← c.call).apply b

/-- `DELETE FROM table` -/
def deleteStart (t : SqlTable) : SqlDelete := ⟨[t], [], none, []⟩

/-! ## UPDATE -/

/-- The assignments of an UPDATE that is being built. -/
inductive SetState where
  | none
  | pairs (l : List (Ref × Sql))
  | columns (cs : List Ref) (values : List Sql)

/-- An UPDATE that is being built. -/
structure SqlUpdate where
  withs : List SqlWith
  table : SqlTable
  set : SetState
  tables : List SqlTable
  whr : Option Sql
  returning : List SqlItem

/-- The statement, if there are values to set. -/
def SqlUpdate.stmt (u : SqlUpdate) : Option SqlStmt :=
  match u.set with
  | .none => none
  | .pairs l => some (.update u.withs u.table (.pairs l) u.tables u.whr u.returning)
  | .columns cs es =>
    if es.isEmpty then none
    else some (.update u.withs u.table (.columns cs (.list es)) u.tables u.whr u.returning)

/-- A method call on an UPDATE builder, in terms of SQL. -/
inductive UpdStep where
  | only
  | set (l : List (Ref × Sql))
  | setColumns (cs : List Ref)
  | «using» (es : List Sql)
  | «with» (l : List SqlWith)
  | «where» (e : Sql)
  | and (e : Sql)
  | or (e : Sql)
  | «from» (t : SqlTable)
  | returning (items : List SqlItem)
  | comment (text : Str)

/-- Assignments by name; not after columns. -/
def SetState.assign : SetState → List (Ref × Sql) → Option SetState
  | _, [] => Option.none
  | .none, l => some (.pairs (assignMany [] l))
  | .pairs m, l => some (.pairs (assignMany m l))
  | .columns _ _, _ => Option.none

/-- Columns to set; not after assignments by name. -/
def SetState.addColumns : SetState → List Ref → Option SetState
  | _, [] => Option.none
  | .none, cs => some (.columns cs [])
  | .pairs _, _ => Option.none
  | .columns cs es, cs' => some (.columns (cs ++ cs') es)

/-- Values for the columns; only after columns. -/
def SetState.addValues : SetState → List Sql → Option SetState
  | _, [] => Option.none
  | .columns cs es, es' => some (.columns cs (es ++ es'))
  | _, _ => Option.none

/-- What the call does to the statement; `none` if it is refused. -/
def UpdStep.on : UpdStep → SqlUpdate → Option SqlUpdate
  | .only, u => some { u with table := { u.table with only := true } }
  | .set l, u => (u.set.assign l).map fun s => { u with set := s }
  | .setColumns cs, u => (u.set.addColumns cs).map fun s => { u with set := s }
  | .using es, u => (u.set.addValues es).map fun s => { u with set := s }
  | .with ws, u => some { u with withs := u.withs ++ ws }
  | .where e, u => some { u with whr := some (addCond s%"AND" u.whr e) }
  | .and e, u =>
    if u.whr.isSome then some { u with whr := some (addCond s%"AND" u.whr e) } else none
  | .or e, u => if u.whr.isSome then some { u with whr := some (addCond s%"OR" u.whr e) } else none
  | .from t, u => if u.tables = [] then some { u with tables := [t] } else none
  | .returning is, u => if u.returning.isEmpty then some { u with returning := is } else none
  | .comment _, u => some u

/-- The arguments can be written. -/
def UpdStep.fits : UpdStep → Bool
  | .only => true
  | .set l => fitsAssignments l
  | .setColumns cs => cs.all fitsQuoted
  | .using es => fitsList es
  | .with ws => fitsWiths ws
  | .where e | .and e | .or e => fitsCond (some e)
  | .from t => fitsFrom t
  | .returning is => fitsItems is
  | .comment text => decide ('\n' ∉ text ∧ '\r' ∉ text)

/-- The call, with its arguments made by loukoum's functions. -/
def UpdStep.call : UpdStep → Go UpdCall
  | .only => .ok .only
  | .set l => do .ok (.set (← buildPairs l))
  | .setColumns cs => .ok (.set (cs.map buildColumn))
  | .using es => do .ok (.using (← buildList es))
  | .with ws => do .ok (.with (← buildWiths ws))
  | .where e => do .ok (.where (← buildExpr e))
  | .and e => do .ok (.and (← buildExpr e))
  | .or e => do .ok (.or (← buildExpr e))
  | .from t => .ok (.from (buildFrom t))
  | .returning is => do .ok (.returning (← buildItems is))
  | .comment text => .ok (.comment text)

/-- Making the call on a builder. -/
def UpdStep.apply (c : UpdStep) (b : UpdateStmt) : Go UpdateStmt := do (← c.call).apply b

/-- `UPDATE table` -/
def updateStart (t : SqlTable) : SqlUpdate := ⟨[], t, .none, [], none, []⟩

/-! ## INSERT -/

/-- An INSERT. -/
structure SqlInsert where
  into : SqlTable
  columns : List Ref
  rows : List (List Sql)
  conflict : Option (List Ref × SqlAction)
  returning : List SqlItem

/-- The statement. -/
def SqlInsert.stmt (i : SqlInsert) : SqlStmt :=
  .insert i.into i.columns i.rows i.conflict i.returning

/-- A method call on an INSERT builder, in terms of SQL. -/
inductive InsStep where
  | into (t : SqlTable)
  | columns (cs : List Ref)
  | values (rows : List (List Sql))
  | set (l : List (Ref × Sql))
  | conflictNothing (target : List Ref)
  | conflictUpdate (target : List Ref) (l : List (Ref × Sql))
  | returning (items : List SqlItem)
  | comment (text : Str)

/-- What the call does to the statement; `none` if it is refused. `Set` is for the columns and one
row, in the order of the names. An update on conflict needs a target. -/
def InsStep.on : InsStep → SqlInsert → Option SqlInsert
  | .into _, _ => none
  | .columns cs, i =>
    if cs = [] then some i else if i.columns = [] then some { i with columns := cs } else none
  | .values rows, i => if i.rows.isEmpty then some { i with rows := rows } else none
  | .set l, i =>
    if i.columns = [] ∧ i.rows.isEmpty then
      some { i with
        columns := (assignMany [] l).map (·.1)
        rows := [(assignMany [] l).map (·.2)] }
    else none
  | .conflictNothing target, i =>
    if i.conflict.isNone then some { i with conflict := some (target, .nothing) } else none
  | .conflictUpdate target l, i =>
    if i.conflict.isNone ∧ target ≠ [] then
      some { i with conflict := some (target, .update (.pairs (assignMany [] l))) }
    else none
  | .returning is, i => if i.returning.isEmpty then some { i with returning := is } else none
  | .comment _, i => some i

/-- The arguments can be written: rows are not empty, and neither are assignments. -/
def InsStep.fits : InsStep → Bool
  | .into t => fitsTable t
  | .columns cs => cs.all fitsQuoted
  | .values rows => !rows.isEmpty && rows.all fun r => !r.isEmpty && fitsList r
  | .set l => !l.isEmpty && fitsAssignments l
  | .conflictNothing target => target.all fitsQuoted
  | .conflictUpdate target l => target.all fitsQuoted && !l.isEmpty && fitsAssignments l
  | .returning is => fitsItems is
  | .comment text => decide ('\n' ∉ text ∧ '\r' ∉ text)

/-- The call, with its arguments made by loukoum's functions. -/
def InsStep.call : InsStep → Go InsCall
  | .into t => .ok (.into (.table (buildTable t)))
  | .columns cs => .ok (.columns (cs.map buildColumn))
  | .values rows => do .ok (.values [.exprss (← buildRows rows)])
  | .set l => do .ok (.set (← buildPairs l))
  | .conflictNothing target => .ok (.onConflict (target.map buildColumn ++ [Api.DoNothing]))
  | .conflictUpdate target l => do
    .ok (.onConflict (target.map buildColumn ++ [← doUpdate (← buildPairs l)]))
  | .returning is => do .ok (.returning (← buildItems is))
  | .comment text => .ok (.comment text)

/-- Making the call on a builder. -/
def InsStep.apply [GoRuntime] (c : InsStep) (b : InsertStmt) : Go InsertStmt := do
  (← c.call).apply b

/-- `INSERT INTO table` -/
def insertStart (t : SqlTable) : SqlInsert := ⟨t, [], [], none, []⟩

end Verif.Spec
