import Verif.Model.Builder
import Verif.Spec.Layout

/-!
# Calls of builder methods, and the clauses they are about
-/

namespace Verif.Spec

/-- Calls one after the other; the first that panics ends it. -/
def runAll {S C : Type} (apply : C → S → Go S) : List C → S → Go S
  | [], s => .ok s
  | c :: l, s =>
    match apply c s with
    | .error p => .error p
    | .ok s' => runAll apply l s'

/-- Both give the same, or both panic. -/
def SameOutcome {S : Type} (x y : Go S) : Prop :=
  (∃ s, x = .ok s ∧ y = .ok s) ∨ ((∃ p, x = .error p) ∧ ∃ q, y = .error q)

/-! ## SELECT -/

/-- A method call on a SELECT builder. -/
inductive SelCall where
  | distinctOn (args : List Any)
  | distinct
  | columns (args : List Any)
  | «from» (args : List Any)
  | join (args : List Any)
  | «with» (args : List WithQuery)
  | «where» (cond : Expr)
  | and (cond : Expr)
  | or (cond : Expr)
  | groupBy (args : List Any)
  | having (cond : Expr)
  | orderBy (orders : List Order)
  | limit (value : Any)
  | offset (value : Any)
  | «suffix» (value : Any)
  | «prefix» (value : Any)
  | comment (text : Str)

/-- Making the call. -/
def SelCall.apply : SelCall → SelectStmt → Go SelectStmt
  | .distinctOn args, b => b.DistinctOn args
  | .distinct, b => b.Distinct
  | .columns args, b => b.Columns args
  | .from args, b => b.From args
  | .join args, b => b.Join args
  | .with args, b => b.With args
  | .where c, b => b.Where c
  | .and c, b => b.And c
  | .or c, b => b.Or c
  | .groupBy args, b => b.GroupBy args
  | .having c, b => b.Having c
  | .orderBy os, b => b.OrderBy os
  | .limit v, b => b.Limit v
  | .offset v, b => b.Offset v
  | .suffix v, b => b.Suffix v
  | .prefix v, b => b.Prefix v
  | .comment c, b => b.Comment c

/-- The clauses of a SELECT. -/
inductive SelClause where
  | distinctOn | distinct | columns | «from» | joins | «with» | «where» | groupBy | having
  | orderBy | limit | offset | «suffix» | «prefix» | comment
deriving DecidableEq

/-- The clause a call is about. -/
def SelCall.clause : SelCall → SelClause
  | .distinctOn _ => .distinctOn
  | .distinct => .distinct
  | .columns _ => .columns
  | .from _ => .from
  | .join _ => .joins
  | .with _ => .with
  | .where _ | .and _ | .or _ => .where
  | .groupBy _ => .groupBy
  | .having _ => .having
  | .orderBy _ => .orderBy
  | .limit _ => .limit
  | .offset _ => .offset
  | .suffix _ => .suffix
  | .prefix _ => .prefix
  | .comment _ => .comment

/-- What a clause consists of. -/
def SelClause.Content : SelClause → Type
  | .distinctOn | .groupBy => List Column
  | .distinct => Bool
  | .columns => List SelExpr
  | .from => List FromItem
  | .joins => List Join
  | .with => List WithQuery
  | .where | .having => Expr
  | .orderBy => List Order
  | .limit | .offset => Int
  | .suffix | .prefix | .comment => Str

/-- The content of a clause. -/
def SelClause.get : (c : SelClause) → SelectStmt → c.Content
  | .distinctOn, b => b.distinctOn
  | .distinct, b => b.distinct
  | .columns, b => b.exprs
  | .from, b => b.tables
  | .joins, b => b.joins
  | .with, b => b.withs
  | .where, b => b.whr
  | .groupBy, b => b.groupBy
  | .having, b => b.having
  | .orderBy, b => b.orderBy
  | .limit, b => b.limit
  | .offset, b => b.offset
  | .suffix, b => b.sfx
  | .prefix, b => b.pfx
  | .comment, b => b.comment

/-- The clauses documented to be set once. -/
def SelClause.single : SelClause → Bool
  | .from | .groupBy | .having | .limit | .offset | .distinctOn | .prefix | .suffix => true
  | _ => false

/-- The clause has content, hence appears in the text. -/
def SelClause.isSet : SelClause → SelectStmt → Bool
  | .distinctOn, b => !b.distinctOn.isEmpty
  | .distinct, b => b.distinct
  | .columns, b => !b.exprs.isEmpty
  | .from, b => !b.tables.isEmpty
  | .joins, b => !b.joins.isEmpty
  | .with, b => !b.withs.isEmpty
  | .where, b => !blank b.whr
  | .groupBy, b => !b.groupBy.isEmpty
  | .having, b => !blank b.having
  | .orderBy, b => !b.orderBy.isEmpty
  | .limit, b => b.limit ≠ 0
  | .offset, b => b.offset ≠ 0
  | .suffix, b => !b.sfx.isEmpty
  | .prefix, b => !b.pfx.isEmpty
  | .comment, b => !b.comment.isEmpty

/-! ## INSERT -/

/-- A method call on an INSERT builder. -/
inductive InsCall where
  | into (arg : Any)
  | columns (args : List Any)
  | values (args : List Any)
  | set (args : List Any)
  | onConflict (args : List Any)
  | returning (args : List Any)
  | comment (text : Str)

/-- Making the call. -/
def InsCall.apply [GoRuntime] : InsCall → InsertStmt → Go InsertStmt
  | .into a, b => b.Into a
  | .columns args, b => b.Columns args
  | .values args, b => b.Values args
  | .set args, b => b.Set args
  | .onConflict args, b => b.OnConflict args
  | .returning args, b => b.Returning args
  | .comment c, b => b.Comment c

/-- The clauses of an INSERT. -/
inductive InsClause where
  | into | columns | values | onConflict | returning | comment
deriving DecidableEq

/-- The clauses a call is about: `Set` is about the columns and the values. -/
def InsCall.clauses : InsCall → List InsClause
  | .into _ => [.into]
  | .columns _ => [.columns]
  | .values _ => [.values]
  | .set _ => [.columns, .values]
  | .onConflict _ => [.onConflict]
  | .returning _ => [.returning]
  | .comment _ => [.comment]

/-- What a clause consists of. -/
def InsClause.Content : InsClause → Type
  | .into => Table
  | .columns => List Column
  | .values => Expr
  | .onConflict => List Column × ConflictAction
  | .returning => List SelExpr
  | .comment => Str

/-- The content of a clause. -/
def InsClause.get : (c : InsClause) → InsertStmt → c.Content
  | .into, b => b.into
  | .columns, b => b.columns
  | .values, b => b.values
  | .onConflict, b => (b.target, b.action)
  | .returning, b => b.returning
  | .comment, b => b.comment

/-- The clauses documented to be set once. -/
def InsClause.single : InsClause → Bool
  | .comment => false
  | _ => true

/-- The clause has content, hence appears in the text. -/
def InsClause.isSet : InsClause → InsertStmt → Bool
  | .into, b => !b.into.name.isEmpty
  | .columns, b => !b.columns.isEmpty
  | .values, b => !blank b.values
  | .onConflict, b =>
    match b.action with
    | .nil => false
    | .nothing => true
    | .update set => !setBlank set
  | .returning, b => !b.returning.isEmpty
  | .comment, b => !b.comment.isEmpty

/-! ## UPDATE -/

/-- A method call on an UPDATE builder. -/
inductive UpdCall where
  | only
  | set (args : List Any)
  | «using» (args : List Any)
  | «with» (args : List WithQuery)
  | «where» (cond : Expr)
  | and (cond : Expr)
  | or (cond : Expr)
  | «from» (arg : Any)
  | returning (args : List Any)
  | comment (text : Str)

/-- Making the call. -/
def UpdCall.apply : UpdCall → UpdateStmt → Go UpdateStmt
  | .only, b => b.Only
  | .set args, b => b.Set args
  | .using args, b => b.Using args
  | .with args, b => b.With args
  | .where c, b => b.Where c
  | .and c, b => b.And c
  | .or c, b => b.Or c
  | .from a, b => b.From a
  | .returning args, b => b.Returning args
  | .comment c, b => b.Comment c

/-- The clauses of an UPDATE. -/
inductive UpdClause where
  | only | set | «with» | «where» | «from» | returning | comment
deriving DecidableEq

/-- The clause a call is about. -/
def UpdCall.clause : UpdCall → UpdClause
  | .only => .only
  | .set _ | .using _ => .set
  | .with _ => .with
  | .where _ | .and _ | .or _ => .where
  | .from _ => .from
  | .returning _ => .returning
  | .comment _ => .comment

/-- What a clause consists of. -/
def UpdClause.Content : UpdClause → Type
  | .only => Bool
  | .set => PairContainer
  | .with => List WithQuery
  | .where => Expr
  | .from => List FromItem
  | .returning => List SelExpr
  | .comment => Str

/-- The content of a clause. -/
def UpdClause.get : (c : UpdClause) → UpdateStmt → c.Content
  | .only, b => b.only
  | .set, b => b.set
  | .with, b => b.withs
  | .where, b => b.whr
  | .from, b => b.tables
  | .returning, b => b.returning
  | .comment, b => b.comment

/-- The clauses documented to be set once. -/
def UpdClause.single : UpdClause → Bool
  | .from | .returning => true
  | _ => false

/-- The clause has content, hence appears in the text. -/
def UpdClause.isSet : UpdClause → UpdateStmt → Bool
  | .only, b => b.only
  | .set, b => !setBlank b.set
  | .with, b => !b.withs.isEmpty
  | .where, b => !blank b.whr
  | .from, b => !b.tables.isEmpty
  | .returning, b => !b.returning.isEmpty
  | .comment, b => !b.comment.isEmpty

/-! ## DELETE -/

/-- A method call on a DELETE builder. -/
inductive DelCall where
  | «from» (args : List Any)
  | «using» (args : List Any)
  | «where» (cond : Expr)
  | and (cond : Expr)
  | or (cond : Expr)
  | returning (args : List Any)
  | comment (text : Str)

/-- Making the call. -/
def DelCall.apply : DelCall → DeleteStmt → Go DeleteStmt
  | .from args, b => b.From args
  | .using args, b => b.Using args
  | .where c, b => b.Where c
  | .and c, b => b.And c
  | .or c, b => b.Or c
  | .returning args, b => b.Returning args
  | .comment c, b => b.Comment c

/-- The clauses of a DELETE. -/
inductive DelClause where
  | «from» | «using» | «where» | returning | comment
deriving DecidableEq

/-- The clause a call is about. -/
def DelCall.clause : DelCall → DelClause
  | .from _ => .from
  | .using _ => .using
  | .where _ | .and _ | .or _ => .where
  | .returning _ => .returning
  | .comment _ => .comment

/-- What a clause consists of. -/
def DelClause.Content : DelClause → Type
  | .from => List FromItem
  | .using => List Table
  | .where => Expr
  | .returning => List SelExpr
  | .comment => Str

/-- The content of a clause. -/
def DelClause.get : (c : DelClause) → DeleteStmt → c.Content
  | .from, b => b.tables
  | .using, b => b.usings
  | .where, b => b.whr
  | .returning, b => b.returning
  | .comment, b => b.comment

/-- The clauses documented to be set once. -/
def DelClause.single : DelClause → Bool
  | .from | .using | .returning => true
  | _ => false

/-- The clause has content, hence appears in the text. -/
def DelClause.isSet : DelClause → DeleteStmt → Bool
  | .from, b => !b.tables.isEmpty
  | .using, b => !b.usings.isEmpty
  | .where, b => !blank b.whr
  | .returning, b => !b.returning.isEmpty
  | .comment, b => !b.comment.isEmpty

end Verif.Spec
