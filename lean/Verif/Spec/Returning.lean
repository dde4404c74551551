import Verif.Spec.Rows

/-!
# What statements with RETURNING answer

The answer of a DELETE, UPDATE or INSERT: the columns after `RETURNING`, for each row that the
statement has removed, changed or added. `all` stands for what `*` gives for a row; that is left to
the database, as is what it does apart from this (`Verif.Spec.Rows`).
-/

namespace Verif.Spec

/-- The values that the entries after `RETURNING` have for a row. -/
def Database.project (D : Database) (all : SqlRow → List Val) (ws : List SqlWith)
    (is : List SqlItem) (r : SqlRow) : List Val :=
  is.flatMap fun
    | .mk .star _ => all r
    | .mk e _ => [D.eval ws r e]

/-- The answer, given the rows that the statement has written (or removed); there is none without
`RETURNING`. -/
def Database.report (D : Database) (all : SqlRow → List Val) (ws : List SqlWith)
    (is : List SqlItem) (rows : List SqlRow) : List (List Val) :=
  if is.isEmpty then [] else rows.map (D.project all ws is)

/-- The row that is written when `new` is to be inserted: itself, or the row in its way, changed;
`none` if nothing is written. -/
def Database.writes (D : Database) (target : List Ref) (how : Resolve)
    (rows : List (SqlRow × Bool)) (new : SqlRow) : Option SqlRow :=
  match rows.find? fun r => D.clash target r.1 new, how with
  | none, _ => some new
  | some _, none => none
  | some r, some f => some (f r.1 new)

/-- The rows that are written when these are to be inserted one after the other. -/
def Database.written (D : Database) (target : List Ref) (how : Resolve) :
    List (SqlRow × Bool) → List SqlRow → Option (List SqlRow)
  | _, [] => some []
  | rows, new :: l =>
    (D.insertOne target how rows new).bind fun rows' =>
      (D.written target how rows' l).map ((D.writes target how rows new).toList ++ ·)

/-- The rows that an INSERT of these rows writes. -/
def Database.writtenAll (D : Database) (conflict : Option (List Ref × Resolve))
    (new rows : List SqlRow) : Option (List SqlRow) :=
  match conflict with
  | none => some new
  | some (target, how) => D.written target how (rows.map (·, false)) new

/-- The rows that an UPDATE has changed, as they are then, together with the rows of other tables
that it was done with. -/
def Database.changed (D : Database) (ws : List SqlWith) (l : List (Ref × Sql)) (ts : List SqlTable)
    (whr : Option Sql) (rows : List SqlRow) : List SqlRow :=
  rows.filterMap fun r =>
    ((D.combine ts r).find? (D.selects ws whr)).map fun «at» => D.assign ws l «at» «at»

/-- The answer of the statement; `none` if it is refused. -/
def Database.returned (D : Database) (all : SqlRow → List Val) :
    SqlStmt → List SqlRow → Option (List (List Val))
  | .delete [_] usings whr is, rows =>
    some (D.report all [] is
      (rows.filterMap fun r => (D.combine usings r).find? (D.selects [] whr)))
  | .update ws _ (.pairs l) ts whr is, rows =>
    if D.once (l.map (·.1)) then some (D.report all ws is (D.changed ws l ts whr rows)) else none
  | .update ws _ (.columns cs (.list es)) ts whr is, rows =>
    if D.once cs ∧ cs.length = es.length then
      some (D.report all ws is (D.changed ws (cs.zip es) ts whr rows))
    else none
  | .insert _ cs vs conflict is, rows =>
    if D.once (D.names cs) ∧ vs.all (D.enough cs) then
      (D.conflict conflict).bind fun how =>
        (D.writtenAll how (vs.map fun es => D.assign [] ((D.names cs).zip es) D.default D.default)
          rows).map (D.report all [] is)
    else none
  | _, _ => none

/-! ## What a program asks for -/

/-- The entries that a call adds. -/
def DelStep.returned : DelStep → List SqlItem
  | .returning is => is
  | _ => []

/-- The entries that a call adds. -/
def UpdStep.returned : UpdStep → List SqlItem
  | .returning is => is
  | _ => []

/-- The entries that a call adds. -/
def InsStep.returned : InsStep → List SqlItem
  | .returning is => is
  | _ => []

end Verif.Spec
