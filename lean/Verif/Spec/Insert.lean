import Verif.Spec.Pairs

/-!
# Rows and conflict clauses of INSERT
-/

namespace Verif.Spec

/-- A table of cells: `[][]interface{}`, `[][]string`, `[][]int`, `[][]int64`, `[][]bool` or
`[][]stmt.Expression`. -/
def TableArgRows : Any → List (List Any) → Prop
  | .anyss l, rows => rows = l
  | .valss .string l, rows | .valss (.int .int) l, rows | .valss (.int .int64) l, rows
  | .valss .bool l, rows => rows = l.map (·.map .val)
  | .exprss l, rows => rows = l.map (·.map .expr)
  | _, _ => False

/-- The value is nil or a slice. -/
def NilOrSlice : Any → Prop
  | .val .nil | .expr .nil | .selExpr .nil | .val (.slice _ _) | .exprs _ | .anys _ => True
  | _ => False

/-- The value is a slice with these elements. -/
def SliceArg : Any → List Any → Prop
  | .val (.slice _ l), items => items = l.map .val
  | .exprs l, items => items = l.map .expr
  | .anys l, items => items = l
  | _, _ => False

/-- A slice of slices. -/
def SliceOfSlices : Any → Prop
  | .anyss _ | .valss _ _ | .exprss _ => True
  | _ => False

/-- A row that is not a single nil or slice. -/
def PlainRow (row : List Any) : Prop := ∀ v, row = [v] → ¬ NilOrSlice v

/-- What becomes of a row: a single nil is no cell at all, a single slice is spread. -/
def rowCells : List Any → List Any
  | [.val .nil] | [.expr .nil] | [.selExpr .nil] => []
  | [.val (.slice _ l)] => l.map .val
  | [.exprs l] => l.map .expr
  | [.anys l] => l
  | row => row

/-- The rows meant by the arguments of `Values`: those of a table that is not empty, or the one row of
the arguments. -/
def ValuesRows (args : List Any) (rows : List (List Any)) : Prop :=
  ∃ v l, args = v :: l ∧
    ((∃ table, TableArgRows v table ∧ table ≠ [] ∧ rows = table.map rowCells) ∨
      (¬ SliceOfSlices v ∧ rows = [rowCells args]))

/-- The text of a cell is the text of the expression made of it. -/
def CellText [GoRuntime] (a : Any) (t : Str) : Prop :=
  ∃ e, newExpression a = .ok e ∧ e.write.string = .ok t

/-- `(a, b, …), (c, d, …), …` -/
def rowsText (rows : List (List Str)) : Str :=
  commaText (rows.map fun cells => s%"(" ++ commaText cells ++ s%")")

/-- `(a, b, …) ` or nothing. -/
def targetText (targets : List Str) : Str :=
  if targets.isEmpty then [] else s%"(" ++ commaText targets ++ s%") "

end Verif.Spec
