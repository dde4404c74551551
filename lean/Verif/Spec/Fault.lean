import Verif.Spec.Panic

/-!
# The faults of a statement, in the order in which they are met

A statement has faults of three kinds: a nil where an expression is needed, a condition that is
incomplete, and a value that cannot be formatted (for `String` only). Here they are listed as they
would be met by a reader who goes through the statement from left to right. What is left out of the
text is not looked at.
-/

namespace Verif.Spec

/-- Whether the expression is empty cannot be said: the question meets a nil. -/
def unclear : Expr → Bool
  | .nil => true
  | .wrapper e => unclear e
  | .infx l op r =>
    !absent l && op ≠ .nil && !absent r && (unclear l || (!blank l && !opBlank op && unclear r))
  | .inx e _ _ => unclear e
  | .between i op lo and hi =>
    !identBlank i && !op.isEmpty && !and.isEmpty && !absent lo && !absent hi &&
      (unclear lo || (!blank lo && unclear hi))
  | .infixOn l op r =>
    !absent l && !absent r && (unclear l || (!blank l && !op.isEmpty && unclear r))
  | _ => false

/-- A nil is called. -/
def hole : List Panic := [.nilDeref]

/-- What is refused with a message. -/
def refusal (m : String) : List Panic := [.msg m]

/-- The faults of something that is there unless `e` is empty (`other` otherwise). -/
def unlessEmpty (e : Expr) (other faults : List Panic) : List Panic :=
  if unclear e then hole else if blank e then other else faults

/-- The faults of a clause about `e`, which is left out if `e` is nil or empty. -/
def unlessUnset (e : Expr) (faults : List Panic) : List Panic :=
  if absent e then [] else unlessEmpty e [] faults

/-- A value that `String` cannot format: its `Value` method fails. -/
def valueFaults : Val → List Panic
  | .valuerErr _ => refusal "loukoum: was not able to retrieve valuer value"
  | .valuerOk _ v => valueFaults v
  | _ => []

/-- Tables that are nil. -/
def tableFaults (l : List FromItem) : List Panic := l.flatMap fun i => if i = .nil then hole else []

section
variable (valFaults : Val → List Panic)

mutual

/-- The faults of an expression; `valFaults` are those of a value. -/
def faults : Expr → List Panic
  | .nil => hole
  | .ident _ => []
  | .value .nil => []
  | .value v => valFaults v
  | .arrayList l => faultsAll l
  | .array l => faultsAll l
  | .raw _ => []
  | .wrapper e => faults e
  | .call _ args => faultsAll args
  | .infx l op r =>
    unlessEmpty (.infx l op r) (refusal "loukoum: expression is undefined") (faults l ++ faults r)
  | .inx e op v =>
    unlessEmpty (.inx e op v) (refusal "loukoum: expression is undefined")
      (faults e ++ unlessEmpty v [] (faults v))
  | .between i op lo and hi =>
    unlessEmpty (.between i op lo and hi) (refusal "loukoum: expression is undefined")
      (faults lo ++ faults hi)
  | .exist e => faults e
  | .notExist e => faults e
  | .select s => faultsSelect s
  | .onClause _ _ => []
  | .infixOn l op r =>
    unlessEmpty (.infixOn l op r) (refusal "loukoum: expression is undefined") (faults l ++ faults r)

/-- Of expressions. -/
def faultsAll : List Expr → List Panic
  | [] => []
  | e :: l => faults e ++ faultsAll l

/-- Of a select expression. -/
def faultsSel : SelExpr → List Panic
  | .nil => hole
  | .exist e => faults e
  | .notExist e => faults e
  | _ => []

/-- Of select expressions. -/
def faultsSels : List SelExpr → List Panic
  | [] => []
  | e :: l => faultsSel e ++ faultsSels l

/-- Of joins. -/
def faultsJoins : List Join → List Panic
  | [] => []
  | ⟨_, _, cond⟩ :: l => faults cond ++ faultsJoins l

/-- Of common table expressions; one without a name or without a query is left out. -/
def faultsWiths : List WithQuery → List Panic
  | [] => []
  | ⟨name, sub⟩ :: l =>
    (if name.isEmpty then [] else unlessUnset sub (faults sub)) ++ faultsWiths l

/-- Of a SELECT statement. -/
def faultsSelect : SelectStmt → List Panic
  | ⟨_, withs, _, _, exprs, tables, joins, whr, _, having, _, _, _, _, _⟩ =>
    if exprs.isEmpty then refusal "loukoum: select statements must have at least one column"
    else faultsWiths withs ++ faultsSels exprs ++ tableFaults tables ++ faultsJoins joins ++
      unlessUnset whr (faults whr) ++ unlessUnset having (faults having)

end

variable [GoRuntime]

/-- Of a SET clause: key-value pairs in the order of the columns, or a list. -/
def faultsSet (p : PairContainer) : List Panic :=
  match p.mode with
  | .unknown => []
  | .associative =>
    if p.columns.all fun c => p.map.any (·.1 = c) then
      (GoRuntime.sortSlice columnLess p.columns).flatMap fun c =>
        ((p.map.find? (·.1 = c)).map fun ce => faults valFaults ce.2).getD []
    else refusal "loukoum: invalid state for stmt.PairContainer"
  | .array => faultsAll valFaults p.expressions

/-- Of an INSERT statement. -/
def faultsInsert (i : InsertStmt) : List Panic :=
  if i.into.name.isEmpty then refusal "loukoum: an insert statement must have at least one column"
  else unlessUnset i.values (faults valFaults i.values) ++
    (match i.action with
     | .update set => if setBlank set then [] else faultsSet valFaults set
     | _ => []) ++ faultsSels valFaults i.returning

/-- Of an UPDATE statement. -/
def faultsUpdate (u : UpdateStmt) : List Panic :=
  if u.table.name.isEmpty || setBlank u.set then
    refusal "loukoum: an update statement must have a table and/or values"
  else faultsWiths valFaults u.withs ++ faultsSet valFaults u.set ++ tableFaults u.tables ++
    unlessUnset u.whr (faults valFaults u.whr) ++ faultsSels valFaults u.returning

/-- Of a DELETE statement. -/
def faultsDelete (d : DeleteStmt) : List Panic :=
  if d.tables.isEmpty then refusal "loukoum: a delete statement must have a table"
  else tableFaults d.tables ++ unlessUnset d.whr (faults valFaults d.whr) ++
    faultsSels valFaults d.returning

/-- Of all four. -/
def faultsStmt : Stmt → List Panic
  | .select s => faultsSelect valFaults s
  | .insert s => faultsInsert valFaults s
  | .update s => faultsUpdate valFaults s
  | .delete s => faultsDelete valFaults s

end

end Verif.Spec
