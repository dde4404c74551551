import Verif.Spec.Condition
import Verif.Spec.Machine

/-!
# What statements do to rows

What a database does with a statement of `Verif.Spec.Sql`: which rows a condition selects, and what
DELETE, UPDATE, INSERT and SELECT make of the rows of a table. How values are compared, what
functions give, how tables are joined and how rows are grouped and sorted is left to the database.

The second part says which rows the method calls of a program ask for, in the order of the calls.
-/

namespace Verif.Spec

/-! ## The database -/

/-- A row: the value of each column. -/
abbrev SqlRow := Str → Val

/-- What is left to the database. -/
structure Database where
  /-- the result of a comparison -/
  compare : Str → Val → Val → Truth
  /-- the result of a function -/
  call : Str → Bool → List Val → Val
  /-- the rows of a query inside of a statement with these common table expressions, for a row of
  the statement -/
  query : List SqlWith → SqlSelect → SqlRow → List (List Val)
  /-- the column that a name stands for -/
  column : Ref → Str
  /-- the columns of the table that a statement is about -/
  columns : List Ref
  /-- a row together with the rows of further tables -/
  join : List SqlTable → SqlRow → List SqlRow
  /-- the rows of the tables and joins of a SELECT with these common table expressions -/
  source : List SqlWith → List SqlTable → List SqlJoin → List SqlRow
  /-- the values of the columns that an INSERT does not mention -/
  default : SqlRow
  /-- a row of the table and a row to be inserted cannot both be there, for the constraint on these
  columns (for any constraint, if there are none) -/
  clash : List Ref → SqlRow → SqlRow → Bool
  /-- a row of the table together with the row that was to be inserted (`excluded`) -/
  excluded : SqlRow → SqlRow → SqlRow
  /-- the rows of a SELECT, once they are grouped, sorted and made of the columns selected -/
  shape : List SqlWith → SqlDistinct → List SqlItem → List Ref → Option Sql → List SqlOrder →
    List SqlRow → List (List Val)

/-- The truth value that a value stands for. -/
def truthOf : Val → Truth
  | .bool true => .yes
  | .bool false => .no
  | _ => .unknown

/-- A truth value is a boolean or NULL. -/
def Truth.value : Truth → Val
  | .yes => .bool true
  | .no => .bool false
  | .unknown => .nil

/-- SQL `NOT`. -/
def Truth.not : Truth → Truth
  | .yes => .no
  | .no => .yes
  | .unknown => .unknown

/-- One of them is true. -/
def Truth.any (l : List Truth) : Truth := l.foldr Truth.or .no

/-- With or without `NOT`. -/
def Truth.negate (negated : Bool) (t : Truth) : Truth := if negated then t.not else t

section
variable (D : Database) (ws : List SqlWith) (r : SqlRow)

mutual

/-- The value of an expression for a row, in a statement with these common table expressions. -/
def Database.eval : Sql → Val
  | .ref n => r (D.column n)
  | .star => .nil
  | .null => .nil
  | .value v => v
  | .binary op x y =>
    if op = s%"AND" then ((truthOf (eval x)).and (truthOf (eval y))).value
    else if op = s%"OR" then ((truthOf (eval x)).or (truthOf (eval y))).value
    else (D.compare op (eval x) (eval y)).value
  | .not e => (truthOf (eval e)).not.value
  | .isIn negated e set =>
    (Truth.negate negated (Truth.any ((members set).map (D.compare s%"=" (eval e))))).value
  | .between negated e lo hi =>
    (Truth.negate negated
      ((D.compare s%">=" (eval e) (eval lo)).and (D.compare s%"<=" (eval e) (eval hi)))).value
  | .exist q => .bool !(D.query ws q r).isEmpty
  | .list _ => .nil
  | .call f distinct args => D.call f distinct (evals args)
  | .query q => ((D.query ws q r).head?.bind List.head?).getD .nil

/-- The values of expressions. -/
def Database.evals : List Sql → List Val
  | [] => []
  | e :: l => eval e :: evals l

/-- The values of a list or a query on the right of `IN`. -/
def Database.members : Sql → List Val
  | .list es => evals es
  | .query q => (D.query ws q r).filterMap List.head?
  | _ => []

end

end

/-- The row is selected: there is no condition, or it is true (not false, and not unknown). -/
def Database.selects (D : Database) (ws : List SqlWith) : Option Sql → SqlRow → Bool
  | none, _ => true
  | some e, r => truthOf (D.eval ws r e) = .yes

/-- The row alone, or with the rows of further tables. -/
def Database.combine (D : Database) (ts : List SqlTable) (r : SqlRow) : List SqlRow :=
  if ts.isEmpty then [r] else D.join ts r

/-- The row with these assignments, whose values are those for the row `at`. -/
def Database.assign (D : Database) (ws : List SqlWith) (l : List (Ref × Sql)) («at» r : SqlRow) :
    SqlRow := fun c =>
  match l.find? fun a => D.column a.1 = c with
  | some a => D.eval ws «at» a.2
  | none => r c

/-- UPDATE: the rows that are selected (together with at least one combination of rows of the other
tables) are assigned to. -/
def Database.update (D : Database) (ws : List SqlWith) (l : List (Ref × Sql)) (ts : List SqlTable)
    (whr : Option Sql) (rows : List SqlRow) : List SqlRow :=
  rows.map fun r =>
    match (D.combine ts r).find? (D.selects ws whr) with
    | none => r
    | some «at» => D.assign ws l «at» r

/-- No column is assigned to twice. -/
def Database.once (D : Database) (l : List Ref) : Bool := decide (l.map D.column).Nodup

/-- The columns of an INSERT: those listed, or those of the table. -/
def Database.names (D : Database) (cs : List Ref) : List Ref := if cs.isEmpty then D.columns else cs

/-- There are as many values as columns listed; if none are listed, there may be fewer than the
table has. -/
def Database.enough (D : Database) (cs : List Ref) (es : List Sql) : Bool :=
  if cs.isEmpty then es.length ≤ D.columns.length else es.length = cs.length

/-- What to do with a row to be inserted when another row is in its way: nothing, or change that row
(given the row in the table and the one to be inserted). -/
abbrev Resolve := Option (SqlRow → SqlRow → SqlRow)

/-- Change the first row that is in the way of `new`; `none` if the statement has written it
itself (a row is not changed twice by a statement). Rows are marked as written. -/
def Database.change (D : Database) (target : List Ref) (f : SqlRow → SqlRow → SqlRow) (new : SqlRow) :
    List (SqlRow × Bool) → Option (List (SqlRow × Bool))
  | [] => some []
  | (r, written) :: rows =>
    if D.clash target r new then if written then none else some ((f r new, true) :: rows)
    else (D.change target f new rows).map ((r, written) :: ·)

/-- Insert one row, or do what is to be done on conflict. -/
def Database.insertOne (D : Database) (target : List Ref) (how : Resolve)
    (rows : List (SqlRow × Bool)) (new : SqlRow) : Option (List (SqlRow × Bool)) :=
  if rows.any fun r => D.clash target r.1 new then
    match how with
    | none => some rows
    | some f => D.change target f new rows
  else some (rows ++ [(new, true)])

/-- Insert rows one after the other. Without ON CONFLICT they are added (a constraint that refuses
the statement is not considered). -/
def Database.insertAll (D : Database) (conflict : Option (List Ref × Resolve)) (new rows : List SqlRow) :
    Option (List SqlRow) :=
  match conflict with
  | none => some (rows ++ new)
  | some (target, how) =>
    (new.foldlM (D.insertOne target how) (rows.map (·, false))).map (List.map (·.1))

/-- What a statement says about conflicts; `none` if it is refused or not considered. -/
def Database.conflict (D : Database) : Option (List Ref × SqlAction) → Option (Option (List Ref × Resolve))
  | none => some none
  | some (target, .nothing) => some (some (target, none))
  | some (target, .update (.pairs l)) =>
    if D.once (l.map (·.1)) then
      some (some (target, some fun r new => D.assign [] l (D.excluded r new) r))
    else none
  | _ => none

/-- The rows of the table after the statement (`rows` before it); `none` if the statement is refused
(a column that is mentioned twice, a different number of columns and values, a DELETE from several
tables, a row that is inserted or changed and changed again on conflict). -/
def Database.exec (D : Database) : SqlStmt → List SqlRow → Option (List SqlRow)
  | .delete [_] usings whr _, rows =>
    some (rows.filter fun r => !(D.combine usings r).any (D.selects [] whr))
  | .update ws _ (.pairs l) ts whr _, rows =>
    if D.once (l.map (·.1)) then some (D.update ws l ts whr rows) else none
  | .update ws _ (.columns cs (.list es)) ts whr _, rows =>
    if D.once cs ∧ cs.length = es.length then some (D.update ws (cs.zip es) ts whr rows) else none
  | .insert _ cs vs conflict _, rows =>
    if D.once (D.names cs) ∧ vs.all (D.enough cs) then
      (D.conflict conflict).bind fun how =>
        D.insertAll how (vs.map fun es => D.assign [] ((D.names cs).zip es) D.default D.default) rows
    else none
  | _, _ => none

/-- The table that a statement changes. -/
def SqlStmt.target : SqlStmt → Option SqlTable
  | .delete [t] _ _ _ => some t
  | .update _ t _ _ _ _ => some t
  | .insert t _ _ _ _ => some t
  | _ => none

/-- The rows of a query. -/
def Database.answer (D : Database) : SqlSelect → List (List Val)
  | .mk ws d is ts js whr g h o limit offset =>
    let rows := (D.source ws ts js).filter (D.selects ws whr)
    let l := (D.shape ws d is g h o rows).drop (offset.getD 0)
    match limit with
    | none => l
    | some n => l.take n

/-! ## What a program asks for -/

/-- Conditions in the order in which they are given, each joined to the ones before. -/
def conjoin : Option Truth → List (Conn × Truth) → Option Truth
  | t, [] => t
  | none, (_, t) :: l => conjoin (some t) l
  | some s, (.and, t) :: l => conjoin (some (s.and t)) l
  | some s, (.or, t) :: l => conjoin (some (s.or t)) l

/-- The row is asked for by the conditions. -/
def Database.wanted (D : Database) (ws : List SqlWith) (cs : List (Conn × Sql)) (r : SqlRow) : Bool :=
  match conjoin none (cs.map fun c => (c.1, truthOf (D.eval ws r c.2))) with
  | none => true
  | some t => t = .yes

/-- The value that `es` gives to a column when the columns `cs` are listed in the same order. -/
def Database.listed (D : Database) : List Ref → List Sql → Str → Option Sql
  | n :: cs, e :: es, c => if D.column n = c then some e else D.listed cs es c
  | _, _, _ => none

/-- The value given last for a column. -/
def Database.given (D : Database) (l : List (Ref × Sql)) (c : Str) : Option Sql :=
  (l.reverse.find? fun a => D.column a.1 = c).map (·.2)

/-- Names that stand for different columns. -/
def Database.Distinct (D : Database) (l : List Ref) : Prop :=
  ∀ a ∈ l, ∀ b ∈ l, D.column a = D.column b → a = b

/-- The condition that a call adds. -/
def DelStep.condition : DelStep → List (Conn × Sql)
  | .where e | .and e => [(.and, e)]
  | .or e => [(.or, e)]
  | _ => []

/-- The tables that a call adds. -/
def DelStep.further : DelStep → List SqlTable
  | .using ts => ts
  | _ => []

/-- The condition that a call adds. -/
def UpdStep.condition : UpdStep → List (Conn × Sql)
  | .where e | .and e => [(.and, e)]
  | .or e => [(.or, e)]
  | _ => []

/-- The tables that a call adds. -/
def UpdStep.further : UpdStep → List SqlTable
  | .from t => [t]
  | _ => []

/-- The common table expressions that a call adds. -/
def UpdStep.withs : UpdStep → List SqlWith
  | .with ws => ws
  | _ => []

/-- A call of `Only`. -/
def UpdStep.isOnly : UpdStep → Bool
  | .only => true
  | _ => false

/-- The assignments that a call adds. -/
def UpdStep.assigned : UpdStep → List (Ref × Sql)
  | .set l => l
  | _ => []

/-- The columns that a call adds. -/
def UpdStep.columns : UpdStep → List Ref
  | .setColumns cs => cs
  | _ => []

/-- The values that a call adds. -/
def UpdStep.values : UpdStep → List Sql
  | .using es => es
  | _ => []

/-- The condition that a call adds. -/
def SelStep.condition : SelStep → List (Conn × Sql)
  | .where e | .and e => [(.and, e)]
  | .or e => [(.or, e)]
  | _ => []

/-- The columns that a call adds. -/
def InsStep.listed : InsStep → List Ref
  | .columns cs => cs
  | _ => []

/-- The rows that a call adds. -/
def InsStep.added : InsStep → List (List Sql)
  | .values rows => rows
  | _ => []

/-- The assignments of a call, in place of columns and values. -/
def InsStep.assigned : InsStep → Option (List (Ref × Sql))
  | .set l => some l
  | _ => none

/-- What a call says about conflicts: the target, and the assignments if there are any to make. -/
def InsStep.resolved : InsStep → Option (List Ref × Option (List (Ref × Sql)))
  | .conflictNothing target => some (target, none)
  | .conflictUpdate target l => some (target, some l)
  | _ => none

/-- What is to be done on conflict: a row in the way gets the last value given for each column (which
may refer to the row that was to be inserted) and keeps its other values. -/
def Database.resolve (D : Database) (l : List (Ref × Sql)) (r new : SqlRow) : SqlRow := fun c =>
  match D.given l c with
  | some e => D.eval [] (D.excluded r new) e
  | none => r c

/-- The common table expressions that a call adds. -/
def SelStep.withs : SelStep → List SqlWith
  | .with ws => ws
  | _ => []

/-- The tables that a call adds. -/
def SelStep.tables : SelStep → List SqlTable
  | .from ts => ts
  | _ => []

/-- The join that a call adds. -/
def SelStep.joins : SelStep → List SqlJoin
  | .join j => [j]
  | _ => []

/-- What a call says about duplicates. -/
def SelStep.unique : SelStep → Option SqlDistinct
  | .distinct => some .yes
  | .distinctOn cs => some (.on cs)
  | _ => none

/-- The columns that a call selects. -/
def SelStep.items : SelStep → Option (List SqlItem)
  | .columns is => some is
  | _ => none

/-- The columns that a call groups by. -/
def SelStep.groups : SelStep → List Ref
  | .groupBy cs => cs
  | _ => []

/-- The condition on groups of a call. -/
def SelStep.groupCondition : SelStep → Option Sql
  | .having e => some e
  | _ => none

/-- The order that a call adds. -/
def SelStep.orders : SelStep → List SqlOrder
  | .orderBy o => o
  | _ => []

/-- The largest number of rows. -/
def SelStep.most : SelStep → Option Nat
  | .limit n => some n
  | _ => none

/-- The number of rows to leave out. -/
def SelStep.skipped : SelStep → Option Nat
  | .offset n => some n
  | _ => none

/-- What the last call of a kind says. -/
def lastOf {C A : Type} (f : C → Option A) (a : A) : List C → A
  | [] => a
  | c :: l => lastOf f ((f c).getD a) l

/-- Leave out the first rows, and then all but the first. -/
def page {A : Type} (skipped : Nat) (most : Option Nat) (l : List A) : List A :=
  match most with
  | none => l.drop skipped
  | some n => (l.drop skipped).take n

end Verif.Spec
