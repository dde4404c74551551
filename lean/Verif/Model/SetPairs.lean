import Verif.Model.Write

/-!
# `stmt/set.go` and `Write` of INSERT, UPDATE, DELETE.
-/

namespace Verif
open W

/-- stmt/set.go:58-65 `NewPairContainer` -/
def PairContainer.new : PairContainer :=
  { mode := .unknown, map := [], columns := [], expressions := [] }

/-- Go map lookup on an association list. -/
def mapLookup {κ ν : Type} [DecidableEq κ] (k : κ) : List (κ × ν) → Option ν
  | [] => none
  | (k', v) :: m => if k' = k then some v else mapLookup k m

/-- stmt/set.go:74-88 `PairContainer.Add` -/
def PairContainer.add (p : PairContainer) (c : Column) (e : Expr) : Go PairContainer :=
  let mode := if p.mode = .unknown then .associative else p.mode
  if mode ≠ .associative then
    Go.panic "loukoum: you can only use pairs in key-value or column-list syntax"
  else
    let columns := if (mapLookup c p.map).isSome then p.columns else p.columns ++ [c]
    .ok { p with mode := mode, columns := columns, map := mapAssign c e p.map }

/-- stmt/set.go:98-107 `PairContainer.Set` -/
def PairContainer.set (p : PairContainer) (c : Column) : Go PairContainer :=
  let mode := if p.mode = .unknown then .array else p.mode
  if mode ≠ .array then
    Go.panic "loukoum: you can only use pairs in key-value or column-list syntax"
  else .ok { p with mode := mode, columns := p.columns ++ [c] }

/-- stmt/set.go:117-123 `PairContainer.Use` -/
def PairContainer.use (p : PairContainer) (e : Expr) : Go PairContainer :=
  if p.mode ≠ .array then Go.panic "loukoum: you have to define pairs columns first"
  else .ok { p with expressions := p.expressions ++ [e] }

/-- Go `<` on strings (bytewise; on valid UTF-8 the same as by code points). -/
def strLt : Str → Str → Bool
  | [], [] => false
  | [], _ :: _ => true
  | _ :: _, [] => false
  | a :: s, b :: t => a.toNat < b.toNat || (a.toNat = b.toNat && strLt s t)

/-- stmt/set.go:131-134: the comparator given to `sort.Slice`. -/
def columnLess (a b : Column) : Bool := strLt a.name b.name || strLt a.alias b.alias

section
variable [GoRuntime]

/-- The loop of stmt/set.go:139-147. -/
def lookupAll (m : List (Column × Expr)) : List Column → Go (List (Column × Expr))
  | [] => .ok []
  | c :: cs =>
    match mapLookup c m with
    | none => Go.panic "loukoum: invalid state for stmt.PairContainer"
    | some e =>
      match lookupAll m cs with
      | .error p => .error p
      | .ok l => .ok ((c, e) :: l)

/-- stmt/set.go:126-150 `PairContainer.Values`. Simplification: the in-place effect
of the sort on the receiver's column slice is not represented here; it is the
subject of `Verif.Model.Heap`. -/
def PairContainer.values (p : PairContainer) : Go (List Column × List Expr) :=
  if p.mode ≠ .associative then .ok (p.columns, p.expressions)
  else
    match lookupAll p.map (GoRuntime.sortSlice columnLess p.columns) with
    | .error e => .error e
    | .ok l => .ok (l.map (·.1), l.map (·.2))

/-- One iteration body of stmt/set.go:174-176. -/
def writePair (ce : Column × Expr) : W := ce.1.write ;; text s%" = " ;; ce.2.write

/-- stmt/set.go:166-178 `WriteAssociative` -/
def PairContainer.writeAssociative (p : PairContainer) : W :=
  match p.values with
  | .error e => panic e
  | .ok (columns, expressions) => sepBy writePair (columns.zip expressions)

/-- stmt/set.go:181-201 `WriteArray` -/
def PairContainer.writeArray (p : PairContainer) : W :=
  text s%"(" ;; sepBy Column.write p.columns ;; text s%")" ;; text s%" = " ;;
  text s%"(" ;; writeExprs p.expressions ;; text s%")"

/-- stmt/set.go:153-163 `PairContainer.Write`, preceded by stmt/set.go:23-27 `Set.Write` -/
def PairContainer.write (p : PairContainer) : W :=
  text Token.Set ;; text s%" " ;;
  if p.isEmpty then panic (.msg "loukoum: values for SET clause are required")
  else
    (if p.mode = .associative then p.writeAssociative else skip) ;;
    (if p.mode = .array then p.writeArray else skip)

/-- stmt/conflict.go:99-105 and :123-127; nil is never written (stmt/conflict.go:24). -/
def ConflictAction.write : ConflictAction → W
  | .nil => panic .nilDeref
  | .nothing => text Token.Do ;; text s%" " ;; text Token.Nothing
  | .update set => text Token.Do ;; text s%" " ;; text Token.Update ;; text s%" " ;; set.write

/-- stmt/conflict.go:59-72 `ConflictTarget.Write` -/
def writeTarget (cols : List Column) : W :=
  if cols.isEmpty then skip
  else text s%"(" ;; sepBy Column.write cols ;; text s%")"

/-- stmt/conflict.go:23-39 `OnConflict.Write` -/
def writeOnConflict (target : List Column) (action : ConflictAction) : W :=
  if action.isEmpty then skip
  else
    text Token.On ;; text s%" " ;; text Token.Conflict ;; text s%" " ;;
    (if target.isEmpty then skip else writeTarget target ;; text s%" ") ;;
    action.write

/-- The comment tail shared by stmt/select.go:130-134, stmt/insert.go:59-63,
stmt/update.go:67-71, stmt/delete.go:47-51. -/
def writeCommentTail (comment : Str) : W :=
  if comment.isEmpty then skip else text Token.Semicolon ;; text s%" " ;; writeComment comment

/-- stmt/insert.go:24-64 `Insert.Write` (with stmt/into.go:21-25) -/
def InsertStmt.write (i : InsertStmt) : W :=
  if i.into.isEmpty then panic (.msg "loukoum: an insert statement must have at least one column")
  else
    text Token.Insert ;; text s%" " ;; (text Token.Into ;; text s%" " ;; i.into.write) ;;
    (if i.columns.isEmpty then skip
     else text s%" (" ;; sepBy Column.write i.columns ;; text s%")") ;;
    W.ite i.values.isUnset skip (text s%" " ;; writeValues i.values) ;;
    (if i.action.isEmpty then skip else text s%" " ;; writeOnConflict i.target i.action) ;;
    (if i.returning.isEmpty then skip else text s%" " ;; writeReturning i.returning) ;;
    writeCommentTail i.comment

/-- stmt/update.go:29-72 `Update.Write` -/
def UpdateStmt.write (u : UpdateStmt) : W :=
  if u.table.isEmpty || u.set.isEmpty then
    panic (.msg "loukoum: an update statement must have a table and/or values")
  else
    (if u.withs.isEmpty then skip else writeWith u.withs ;; text s%" ") ;;
    text Token.Update ;;
    (if u.only then text s%" " ;; text Token.Only else skip) ;;
    text s%" " ;; u.table.write ;;
    text s%" " ;; u.set.write ;;
    (if u.tables.isEmpty then skip else text s%" " ;; writeFrom u.tables) ;;
    W.ite u.whr.isUnset skip (text s%" " ;; writeWhere u.whr) ;;
    (if u.returning.isEmpty then skip else text s%" " ;; writeReturning u.returning) ;;
    writeCommentTail u.comment

/-- stmt/delete.go:23-52 `Delete.Write` -/
def DeleteStmt.write (d : DeleteStmt) : W :=
  if d.tables.isEmpty then panic (.msg "loukoum: a delete statement must have a table")
  else
    text Token.Delete ;; text s%" " ;; writeFrom d.tables ;;
    (if d.usings.isEmpty then skip else text s%" " ;; writeUsing d.usings) ;;
    W.ite d.whr.isUnset skip (text s%" " ;; writeWhere d.whr) ;;
    (if d.returning.isEmpty then skip else text s%" " ;; writeReturning d.returning) ;;
    writeCommentTail d.comment

/-- `b.query.Write(ctx)` for the four builders. -/
def Stmt.write : Stmt → W
  | .select s => s.write
  | .insert s => s.write
  | .update s => s.write
  | .delete s => s.write

end

end Verif
