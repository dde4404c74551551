import Verif.Model.SetPairs

/-!
# Rendering by several goroutines

The methods `Write` of package stmt assign to nothing but their own variables and the context they
were given, with one exception: `PairContainer.Values` sorts the slice `pairs.Columns` in place
(stmt/set.go:131-134), and that array belongs to the builder. Here the accesses to this array are
made one by one, so that those of several goroutines can be interleaved.

Simplifications: reading or writing one cell (a `Column`, two strings) is one step; the comparator
reads each of its two cells once (in the code once or twice); accesses are sequentially consistent.
Real executions with a data race may do worse. `sort.Slice` is the insertion sort of the Go library
(`insertionSort_func`, what `sort.Slice` does up to 12 elements, before Go 1.19 up to 6) in `values`,
and any sequence of comparisons and swaps in `Sorter`.
-/

namespace Verif
open W

namespace Concurrent

/-- What a goroutine still has to do to the array, and what it returns in the end. -/
inductive Act (ρ : Type) where
  | done (r : ρ)
  | read (i : Nat) (next : Column → Act ρ)
  | write (i : Nat) (c : Column) (next : Act ρ)

/-- The cells of the array. -/
abbrev Cells := Nat → Column

/-- An assignment to a cell. -/
def Cells.put (m : Cells) (i : Nat) (c : Column) : Cells := fun j => if j = i then c else m j

/-- Go library `reflect.Swapper`, the function that `sort.Slice` swaps with:
`tmp = s[i]; s[i] = s[j]; s[j] = tmp`. -/
def swap {ρ : Type} (i j : Nat) (next : Act ρ) : Act ρ :=
  .read i fun tmp => .read j fun x => .write i x (.write j tmp next)

/-- Go library `insertionSort_func`, inner loop
`for ; j > 0 && less(j, j-1); j-- { swap(j, j-1) }` with the comparator of stmt/set.go:131-134. -/
def sink {ρ : Type} (next : Act ρ) : Nat → Act ρ
  | 0 => next
  | j + 1 => .read (j + 1) fun x => .read j fun y =>
    if columnLess x y then swap (j + 1) j (sink next j) else next

/-- Go library `insertionSort_func`, outer loop over the given indices. -/
def sort {ρ : Type} (next : Act ρ) : List Nat → Act ρ
  | [] => next
  | i :: l => sink (sort next l) i

/-- Go library `sort.Slice`, whatever it does: it gets to the array by the functions `less` and `swap`
only. What it does next depends on the results of the comparisons. -/
inductive Sorter where
  | stop
  | less (i j : Nat) (next : Bool → Sorter)
  | swap (i j : Nat) (next : Sorter)

/-- The accesses that a way to sort makes, with the comparator of stmt/set.go:131-134. -/
def Sorter.act {ρ : Type} : Sorter → Act ρ → Act ρ
  | .stop, a => a
  | .less i j next, a => .read i fun x => .read j fun y => Sorter.act (next (columnLess x y)) a
  | .swap i j next, a => Concurrent.swap i j (Sorter.act next a)

/-- Go library `insertionSort_func`, inner loop, as a way to sort. -/
def Sorter.sink (next : Sorter) : Nat → Sorter
  | 0 => next
  | j + 1 => .less (j + 1) j fun b => if b then .swap (j + 1) j (Sorter.sink next j) else next

/-- Go library `insertionSort_func`, outer loop, as a way to sort. -/
def Sorter.insertion : List Nat → Sorter
  | [] => .stop
  | i :: l => Sorter.sink (Sorter.insertion l) i

/-- stmt/set.go:139-147: the cells are read one after the other. -/
def readCells {ρ : Type} (next : List Column → Act ρ) (acc : List Column) : List Nat → Act ρ
  | [] => next acc
  | i :: l => .read i fun c => readCells next (acc ++ [c]) l

/-- stmt/set.go:126-150 `PairContainer.Values` on `n` columns, as far as the array is concerned. -/
def values {ρ : Type} (n : Nat) (next : List Column → Act ρ) : Act ρ :=
  sort (readCells next [] (List.range n)) (List.range' 1 (n - 1))

section
variable [GoRuntime]

/-- stmt/set.go:153-178 with stmt/set.go:23-27: the SET clause, if the loop of stmt/set.go:139-147
has read these columns. -/
def writeRead (p : PairContainer) (cs : List Column) : W :=
  text Token.Set ;; text s%" " ;;
  if p.isEmpty then panic (.msg "loukoum: values for SET clause are required")
  else
    match lookupAll p.map cs with
    | .error e => panic e
    | .ok l => sepBy writePair l

/-- stmt/update.go:29-72 `Update.Write`, if `set` is written for the SET clause. -/
def writeUpdate (u : UpdateStmt) (set : W) : W :=
  if u.table.isEmpty || u.set.isEmpty then
    panic (.msg "loukoum: an update statement must have a table and/or values")
  else
    (if u.withs.isEmpty then skip else writeWith u.withs ;; text s%" ") ;;
    text Token.Update ;;
    (if u.only then text s%" " ;; text Token.Only else skip) ;;
    text s%" " ;; u.table.write ;;
    text s%" " ;; set ;;
    (if u.tables.isEmpty then skip else text s%" " ;; writeFrom u.tables) ;;
    W.ite u.whr.isUnset skip (text s%" " ;; writeWhere u.whr) ;;
    (if u.returning.isEmpty then skip else text s%" " ;; writeReturning u.returning) ;;
    writeCommentTail u.comment

/-- stmt/insert.go:24-64 `Insert.Write` with stmt/conflict.go:23-39 and :99-105, if `set` is
written for the SET clause of DO UPDATE. -/
def writeInsert (i : InsertStmt) (set : W) : W :=
  if i.into.isEmpty then panic (.msg "loukoum: an insert statement must have at least one column")
  else
    text Token.Insert ;; text s%" " ;; (text Token.Into ;; text s%" " ;; i.into.write) ;;
    (if i.columns.isEmpty then skip
     else text s%" (" ;; sepBy Column.write i.columns ;; text s%")") ;;
    W.ite i.values.isUnset skip (text s%" " ;; writeValues i.values) ;;
    (if i.action.isEmpty then skip
     else text s%" " ;;
      (text Token.On ;; text s%" " ;; text Token.Conflict ;; text s%" " ;;
        (if i.target.isEmpty then skip else writeTarget i.target ;; text s%" ") ;;
        (text Token.Do ;; text s%" " ;; text Token.Update ;; text s%" " ;; set))) ;;
    (if i.returning.isEmpty then skip else text s%" " ;; writeReturning i.returning) ;;
    writeCommentTail i.comment

/-- The pairs that a statement writes in the key-value syntax: those of UPDATE (stmt/update.go:29-72)
or of DO UPDATE (stmt/conflict.go:99-105). -/
def keyValues : Stmt → Option PairContainer
  | .update u => if u.set.mode = .associative then some u.set else none
  | .insert i =>
    match i.action with
    | .update p => if p.mode = .associative then some p else none
    | _ => none
  | _ => none

/-- The statement, if the loop of stmt/set.go:139-147 has read these columns. -/
def writeWithColumns (q : Stmt) (p : PairContainer) (cs : List Column) : W :=
  match q with
  | .update u => writeUpdate u (writeRead p cs)
  | .insert i => writeInsert i (writeRead p cs)
  | q => q.write

/-- builder/select.go:257-285 and its like: a goroutine that renders a statement, by whatever method
(`render` stands for it), as far as the array of columns is concerned. Simplification: the columns
are read before anything else, which nobody can notice because the context is the goroutine's own. -/
def rendering {α : Type} (render : W → Go α) (q : Stmt) : Act (Go α) :=
  match keyValues q with
  | none => .done (render q.write)
  | some p => values p.columns.length fun cs => .done (render (writeWithColumns q p cs))

/-- The same if `sort.Slice` sorts in this way. -/
def renderingBy {α : Type} (s : Sorter) (render : W → Go α) (q : Stmt) : Act (Go α) :=
  match keyValues q with
  | none => .done (render q.write)
  | some p => s.act
      (readCells (fun cs => .done (render (writeWithColumns q p cs))) [] (List.range p.columns.length))

end

end Concurrent

end Verif
