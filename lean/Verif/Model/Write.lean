import Verif.Model.Ast
import Verif.Model.Context

/-!
# `IsEmpty` and `Write` methods of `stmt/`.
-/

namespace Verif
open W

/-! ## Emptiness -/

/-- stmt/expression.go:85-87 `Identifier.IsEmpty`: `identifier.Identifier == ""` -/
def Ident.isEmpty : Ident → Bool
  | .str s => s.isEmpty
  | .raw _ => false
  | .other => false

/-- stmt/operator.go:43-45 and 70-72; callers test for nil before. -/
def Op.isEmpty : Op → Go Bool
  | .nil => .error .nilDeref
  | .logical s => .ok s.isEmpty
  | .comparison s => .ok s.isEmpty

/-- `x == nil` on an `Expression` interface. -/
def Expr.isNil : Expr → Bool
  | .nil => true
  | _ => false

/-- `x == nil` on an `Operator` interface. -/
def Op.isNil : Op → Bool
  | .nil => true
  | _ => false

/-- stmt/column.go:65-67 `Column.IsEmpty` -/
def Column.isEmpty (c : Column) : Bool := c.name.isEmpty

/-- stmt/table.go:56-58 `Table.IsEmpty` -/
def Table.isEmpty (t : Table) : Bool := t.name.isEmpty

/-- stmt/select.go:138-140 `Select.IsEmpty` -/
def SelectStmt.isEmpty (s : SelectStmt) : Bool := s.exprs.isEmpty

/-- `IsEmpty` of every `Expression`; on the nil interface it is a nil dereference.
Identifier stmt/expression.go:85; Value :280; ArrayList :375; Array :492; Raw :529;
Wrapper :578; Call :660; InfixExpression stmt/infix.go:42-45; In stmt/in.go:52-54;
Between stmt/between.go:60-63; Exists stmt/subquery.go:31; NotExists :65; Select
stmt/select.go:138; OnClause stmt/on.go:55; InfixOnExpression stmt/on.go:98-101. -/
def Expr.isEmpty : Expr → Go Bool
  | .nil => .error .nilDeref
  | .ident i => .ok i.isEmpty
  | .value _ => .ok false
  | .arrayList l => .ok l.isEmpty
  | .array l => .ok l.isEmpty
  | .raw s => .ok s.isEmpty
  | .wrapper e => e.isEmpty
  | .call _ _ => .ok false
  | .infx l op r =>
    Go.or (.ok l.isNil) <| Go.or (.ok op.isNil) <| Go.or (.ok r.isNil) <|
      Go.or l.isEmpty <| Go.or op.isEmpty r.isEmpty
  | .inx e op v => Go.or e.isEmpty <| Go.or (.ok op.isEmpty) (.ok v.isNil)
  | .between i op lo and hi =>
    Go.or (.ok i.isEmpty) <| Go.or (.ok op.isEmpty) <| Go.or (.ok and.isEmpty) <|
      Go.or (.ok lo.isNil) <| Go.or (.ok hi.isNil) <| Go.or lo.isEmpty hi.isEmpty
  | .exist _ => .ok false
  | .notExist _ => .ok false
  | .select s => .ok s.isEmpty
  | .onClause l r => .ok (l.isEmpty || r.isEmpty)
  | .infixOn l op r =>
    Go.or (.ok l.isNil) <| Go.or (.ok r.isNil) <|
      Go.or l.isEmpty <| Go.or (.ok op.isEmpty) r.isEmpty

/-- `x == nil || x.IsEmpty()`: stmt/where.go:32-34 `Where.IsEmpty`,
stmt/having.go:33-35 `Having.IsEmpty`, stmt/values.go:32-34 `Values.IsEmpty`. -/
def Expr.isUnset (e : Expr) : Go Bool := Go.or (.ok e.isNil) e.isEmpty

/-- stmt/with.go:60-62 `WithQuery.IsEmpty` -/
def WithQuery.isEmpty (w : WithQuery) : Go Bool :=
  Go.or (.ok w.name.isEmpty) <| Go.or (.ok w.subquery.isNil) w.subquery.isEmpty

/-- stmt/join.go:51-53 `Join.IsEmpty` (the condition is dereferenced without nil test) -/
def Join.isEmpty (j : Join) : Go Bool :=
  Go.or (.ok j.type.isEmpty) <| Go.or (.ok j.table.isEmpty) j.cond.isEmpty

/-- `IsEmpty` of every `SelectExpression`. Column stmt/column.go:65; Raw
stmt/expression.go:529; Count stmt/aggregate.go:53; Max :96; Min :139; Sum :182;
Exists stmt/subquery.go:31; NotExists :65. -/
def SelExpr.isEmpty : SelExpr → Go Bool
  | .nil => .error .nilDeref
  | .column c => .ok c.isEmpty
  | .raw s => .ok s.isEmpty
  | .count v _ _ => .ok v.isEmpty
  | .max v _ => .ok v.isEmpty
  | .min v _ => .ok v.isEmpty
  | .sum v _ => .ok v.isEmpty
  | .exist _ => .ok false
  | .notExist _ => .ok false

/-- stmt/set.go:204-206 `PairContainer.IsEmpty` -/
def PairContainer.isEmpty (p : PairContainer) : Bool :=
  p.mode = .unknown || (p.map.isEmpty && p.expressions.isEmpty)

/-- stmt/conflict.go:42-44 `OnConflict.IsEmpty`, with :108-110 and :130-132. -/
def ConflictAction.isEmpty : ConflictAction → Bool
  | .nil => true
  | .nothing => false
  | .update set => set.isEmpty

/-! ## Writing -/

section
variable [GoRuntime]

/-- stmt/expression.go:75-82 `Identifier.Write` -/
def Ident.write : Ident → W
  | .str s => text (quote s)
  | .raw s => text s
  | .other => skip

/-- stmt/operator.go:38-40 and 65-67 -/
def Op.write : Op → W
  | .nil => panic .nilDeref
  | .logical s => text s
  | .comparison s => text s

/-- stmt/column.go:54-62 `Column.Write` -/
def Column.write (c : Column) : W :=
  text (quote c.name) ;;
  if c.alias.isEmpty then skip
  else text s%" " ;; text Token.As ;; text s%" " ;; text (quote c.alias)

/-- stmt/table.go:41-53 `Table.Write` -/
def Table.write (t : Table) : W :=
  (if t.only then text Token.Only ;; text s%" " else skip) ;;
  text (quote t.name) ;;
  if t.alias.isEmpty then skip
  else text s%" " ;; text Token.As ;; text s%" " ;; text (quote t.alias)

/-- stmt/order.go:22-29 `Order.Write` -/
def Order.write (o : Order) : W :=
  if o.expression.isEmpty then skip
  else text o.expression ;; text s%" " ;; text o.type

/-- The `for i := range xs { if i != 0 { ctx.Write(", ") }; xs[i].Write(ctx) }`
loops of stmt/insert.go:35-40, stmt/with.go:27-32, stmt/orderby.go:29-34,
stmt/groupby.go:26-31, stmt/distinct_on.go:27-32, stmt/returning.go:25-30,
stmt/conflict.go:65-70, stmt/using.go:29-34, stmt/set.go:183-188, :194-199 and
the equivalent loop of stmt/from.go:25-31: elements separated by ", ". -/
def sepBy {α : Type} (f : α → W) : List α → W
  | [] => skip
  | [a] => f a
  | a :: b :: l => f a ;; text s%", " ;; sepBy f (b :: l)

/-- `from.Tables[i].Write(ctx)` (stmt/from.go:26) -/
def FromItem.write : FromItem → W
  | .nil => panic .nilDeref
  | .table t => t.write
  | .raw s => text s

/-- stmt/from.go:21-32 `From.Write` -/
def writeFrom (tables : List FromItem) : W :=
  text Token.From ;; text s%" " ;; sepBy FromItem.write tables

/-- stmt/groupby.go:21-32 `GroupBy.Write` -/
def writeGroupBy (cols : List Column) : W :=
  text Token.Group ;; text s%" " ;; text Token.By ;; text s%" " ;; sepBy Column.write cols

/-- stmt/distinct_on.go:21-34 `DistinctOn.Write` (only called when not empty) -/
def writeDistinctOn (cols : List Column) : W :=
  if cols.isEmpty then skip
  else text Token.DistinctOn ;; text s%" (" ;; sepBy Column.write cols ;; text s%")"

/-- stmt/orderby.go:21-35 `OrderBy.Write` -/
def writeOrderBy (os : List Order) : W :=
  if os.isEmpty then skip
  else text Token.Order ;; text s%" " ;; text Token.By ;; text s%" " ;; sepBy Order.write os

/-- stmt/limit.go:23-30 `Limit.Write` -/
def writeLimit (n : Int) : W :=
  if n = 0 then skip else text Token.Limit ;; text s%" " ;; text (formatInt n)

/-- stmt/offset.go:23-30 `Offset.Write` -/
def writeOffset (n : Int) : W :=
  if n = 0 then skip else text Token.Offset ;; text s%" " ;; text (formatInt n)

/-- stmt/comment.go:21-28 `Comment.Write` -/
def writeComment (c : Str) : W :=
  if c.isEmpty then skip else text Token.Comment ;; text s%" " ;; text c

/-- stmt/aggregate.go:44-49, :87-92, :130-135, :173-178: optional alias, not quoted -/
def writeAggAlias (alias : Str) : W :=
  if alias.isEmpty then skip
  else text s%" " ;; text Token.As ;; text s%" " ;; text alias

mutual

/-- `Write` of every `Expression`. Identifier stmt/expression.go:75-82; Value :241-247;
ArrayList :363-372; Array :482-489; Raw :524-526; Wrapper :571-575; Call :606-616;
InfixExpression stmt/infix.go:27-39; In stmt/in.go:35-49; Between
stmt/between.go:41-57; Exists stmt/subquery.go:23-28; NotExists :55-62; Select
stmt/select.go:39-47; OnClause stmt/on.go:46-52; InfixOnExpression stmt/on.go:83-95. -/
def Expr.write : Expr → W
  | .nil => panic .nilDeref
  | .ident i => i.write
  | .value v =>
    match v with
    | .nil => text s%"NULL"
    | v => bind v
  | .arrayList l => writeRows l
  | .array l => writeExprs l
  | .raw s => text s
  | .wrapper e => text s%"(" ;; e.write ;; text s%")"
  | .call f args => text f ;; text s%"(" ;; writeExprs args ;; text s%")"
  | .infx l op r =>
    W.ite (Expr.infx l op r).isEmpty (panic (.msg "loukoum: expression is undefined")) <|
      text s%"(" ;; l.write ;; text s%" " ;; op.write ;; text s%" " ;; r.write ;; text s%")"
  | .inx e op v =>
    W.ite (Expr.inx e op v).isEmpty (panic (.msg "loukoum: expression is undefined")) <|
      text s%"(" ;; e.write ;; text s%" " ;; text op ;; text s%" (" ;;
      W.ite v.isEmpty skip v.write ;; text s%"))"
  | .between i op lo and hi =>
    W.ite (Expr.between i op lo and hi).isEmpty (panic (.msg "loukoum: expression is undefined")) <|
      text s%"(" ;; i.write ;; text s%" " ;; text op ;; text s%" " ;; lo.write ;;
      text s%" " ;; text and ;; text s%" " ;; hi.write ;; text s%")"
  | .exist e => text Token.Exists ;; text s%" (" ;; e.write ;; text s%")"
  | .notExist e =>
    text Token.Not ;; text s%" " ;; text Token.Exists ;; text s%" (" ;; e.write ;; text s%")"
  | .select s => s.write
  | .onClause l r => l.write ;; text s%" " ;; text Token.Equals ;; text s%" " ;; r.write
  | .infixOn l op r =>
    W.ite (Expr.infixOn l op r).isEmpty (panic (.msg "loukoum: expression is undefined")) <|
      text s%"(" ;; l.write ;; text s%" " ;; text op ;; text s%" " ;; r.write ;; text s%")"

/-- The loops of stmt/expression.go:483-488 and :609-614: elements separated by ", ". -/
def writeExprs : List Expr → W
  | [] => skip
  | e :: l => e.write ;; writeExprsTail l

/-- Iterations `i > 0` of the same loops. -/
def writeExprsTail : List Expr → W
  | [] => skip
  | e :: l => text s%", " ;; e.write ;; writeExprsTail l

/-- The loop of stmt/expression.go:364-371: parenthesised elements separated by ", ". -/
def writeRows : List Expr → W
  | [] => skip
  | e :: l => text s%"(" ;; e.write ;; text s%")" ;; writeRowsTail l

/-- Iterations `i > 0` of the same loop. -/
def writeRowsTail : List Expr → W
  | [] => skip
  | e :: l => text s%", " ;; text s%"(" ;; e.write ;; text s%")" ;; writeRowsTail l

/-- `Write` of every `SelectExpression`. Column stmt/column.go:54; Raw
stmt/expression.go:524; Count stmt/aggregate.go:35-50; Max :82-93; Min :125-136;
Sum :168-179; Exists stmt/subquery.go:23-28; NotExists :55-62. -/
def SelExpr.write : SelExpr → W
  | .nil => panic .nilDeref
  | .column c => c.write
  | .raw s => text s
  | .count v distinct alias =>
    text Token.Count ;; text s%"(" ;;
    (if distinct then text Token.Distinct ;; text s%" " else skip) ;;
    text v ;; text s%")" ;; writeAggAlias alias
  | .max v alias => text Token.Max ;; text s%"(" ;; text v ;; text s%")" ;; writeAggAlias alias
  | .min v alias => text Token.Min ;; text s%"(" ;; text v ;; text s%")" ;; writeAggAlias alias
  | .sum v alias => text Token.Sum ;; text s%"(" ;; text v ;; text s%")" ;; writeAggAlias alias
  | .exist e => text Token.Exists ;; text s%" (" ;; e.write ;; text s%")"
  | .notExist e =>
    text Token.Not ;; text s%" " ;; text Token.Exists ;; text s%" (" ;; e.write ;; text s%")"

/-- The loops of stmt/returning.go:25-30 and (after the first separator) stmt/select.go:72-79. -/
def writeSelExprs : List SelExpr → W
  | [] => skip
  | e :: l => e.write ;; writeSelExprsTail l

/-- Iterations `i > 0` of the same loops. -/
def writeSelExprsTail : List SelExpr → W
  | [] => skip
  | e :: l => text s%", " ;; e.write ;; writeSelExprsTail l

/-- stmt/join.go:40-48 `Join.Write` -/
def Join.write : Join → W
  | ⟨type, table, cond⟩ =>
    text type ;; text s%" " ;; table.write ;; text s%" " ;; text Token.On ;; text s%" " ;; cond.write

/-- The loop of stmt/select.go:88-91. -/
def writeJoins : List Join → W
  | [] => skip
  | j :: l => text s%" " ;; j.write ;; writeJoins l

/-- stmt/with.go:47-57 `WithQuery.Write` -/
def WithQuery.write : WithQuery → W
  | ⟨name, subquery⟩ =>
    W.ite (WithQuery.isEmpty ⟨name, subquery⟩) skip <|
      text name ;; text s%" " ;; text Token.As ;; text s%" (" ;; subquery.write ;; text s%")"

/-- The loop of stmt/with.go:27-32. -/
def writeWiths : List WithQuery → W
  | [] => skip
  | w :: l => w.write ;; writeWithsTail l

/-- Iterations `i > 0` of the same loop. -/
def writeWithsTail : List WithQuery → W
  | [] => skip
  | w :: l => text s%", " ;; w.write ;; writeWithsTail l

/-- stmt/select.go:39-135 `Select.Write`, `writeHead`, `writeMiddle`, `writeTail`,
with stmt/with.go:21-33, stmt/where.go:21-29, stmt/having.go:22-30,
stmt/prefix.go:20-25, stmt/suffix.go:20-25 inlined. -/
def SelectStmt.write : SelectStmt → W
  | ⟨pfx, withs, distinct, distinctOn, exprs, tables, joins, whr, groupBy, having, orderBy,
      limit, offset, sfx, comment⟩ =>
    if exprs.isEmpty then panic (.msg "loukoum: select statements must have at least one column")
    else
      -- writeHead
      (if pfx.isEmpty then skip else text pfx ;; text s%" ") ;;
      (if withs.isEmpty then skip
       else text Token.With ;; text s%" " ;; writeWiths withs ;; text s%" ") ;;
      text Token.Select ;;
      (if distinctOn.isEmpty then skip else text s%" " ;; writeDistinctOn distinctOn) ;;
      (if distinct then text s%" " ;; text Token.Distinct else skip) ;;
      (text s%" " ;; writeSelExprs exprs) ;;
      (if tables.isEmpty then skip else text s%" " ;; writeFrom tables) ;;
      -- writeMiddle
      writeJoins joins ;;
      W.ite whr.isUnset skip (text s%" " ;; text Token.Where ;; text s%" " ;; whr.write) ;;
      (if groupBy.isEmpty then skip else text s%" " ;; writeGroupBy groupBy) ;;
      W.ite having.isUnset skip (text s%" " ;; text Token.Having ;; text s%" " ;; having.write) ;;
      -- writeTail
      (if orderBy.isEmpty then skip else text s%" " ;; writeOrderBy orderBy) ;;
      (if limit = 0 then skip else text s%" " ;; writeLimit limit) ;;
      (if offset = 0 then skip else text s%" " ;; writeOffset offset) ;;
      (if sfx.isEmpty then skip else text s%" " ;; text sfx) ;;
      (if comment.isEmpty then skip else text Token.Semicolon ;; text s%" " ;; writeComment comment)

end

/-- stmt/returning.go:21-31 `Returning.Write` -/
def writeReturning (es : List SelExpr) : W :=
  text Token.Returning ;; text s%" " ;; writeSelExprs es

/-- stmt/where.go:21-29 `Where.Write` -/
def writeWhere (whr : Expr) : W :=
  W.ite whr.isUnset (panic (.msg "loukoum: a where clause expects at least one condition")) <|
    text Token.Where ;; text s%" " ;; whr.write

/-- stmt/values.go:21-29 `Values.Write` -/
def writeValues (values : Expr) : W :=
  W.ite values.isUnset skip (text Token.Values ;; text s%" " ;; values.write)

/-- stmt/using.go:21-35 `Using.Write` -/
def writeUsing (ts : List Table) : W :=
  if ts.isEmpty then skip else text Token.Using ;; text s%" " ;; sepBy Table.write ts

/-- stmt/with.go:21-33 `With.Write` -/
def writeWith (ws : List WithQuery) : W :=
  if ws.isEmpty then skip else text Token.With ;; text s%" " ;; writeWiths ws

end

end Verif
