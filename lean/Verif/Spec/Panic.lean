import Verif.Spec.Calls
import Verif.Spec.JoinGrammar

/-!
# Panics of loukoum and panics of the Go runtime

Loukoum answers wrong use with `panic("loukoum: ...")`. A nil interface that is called, or an index
past the end of a slice, ends in a panic of the runtime instead. Here is said which statements and
arguments have no place where nil would be called.
-/

namespace Verif.Spec

/-- The result, if there is one, satisfies `P`; a panic is one with a message of loukoum. -/
def Deliberate {α : Type} (P : α → Prop) : Go α → Prop
  | .ok a => P a
  | .error p => ∃ m, p = .msg m

mutual

/-- No nil `Expression` stands where one is needed. Conditions test their operands for nil, hence
nil is admitted there. -/
def noHole : Expr → Bool
  | .nil => false
  | .ident _ => true
  | .value _ => true
  | .arrayList l => noHoles l
  | .array l => noHoles l
  | .raw _ => true
  | .wrapper e => noHole e
  | .call _ args => noHoles args
  | .infx l _ r => (absent l || noHole l) && (absent r || noHole r)
  | .inx e _ v => noHole e && (absent v || noHole v)
  | .between _ _ lo _ hi => (absent lo || noHole lo) && (absent hi || noHole hi)
  | .exist e => noHole e
  | .notExist e => noHole e
  | .select s => noHoleSelect s
  | .onClause _ _ => true
  | .infixOn l _ r => (absent l || noHole l) && (absent r || noHole r)

/-- All of them. -/
def noHoles : List Expr → Bool
  | [] => true
  | e :: l => noHole e && noHoles l

/-- The same for select expressions. -/
def noHoleSel : SelExpr → Bool
  | .nil => false
  | .exist e => noHole e
  | .notExist e => noHole e
  | _ => true

/-- All of them. -/
def noHoleSels : List SelExpr → Bool
  | [] => true
  | e :: l => noHoleSel e && noHoleSels l

/-- Every join has a condition. -/
def noHoleJoins : List Join → Bool
  | [] => true
  | ⟨_, _, cond⟩ :: l => noHole cond && noHoleJoins l

/-- The same for common table expressions; a query that is nil is left out. -/
def noHoleWiths : List WithQuery → Bool
  | [] => true
  | ⟨_, sub⟩ :: l => (absent sub || noHole sub) && noHoleWiths l

/-- The same for SELECT statements; conditions that are nil are left out. -/
def noHoleSelect : SelectStmt → Bool
  | ⟨_, withs, _, _, exprs, tables, joins, whr, _, having, _, _, _, _, _⟩ =>
    noHoleWiths withs && noHoleSels exprs && tables.all (· ≠ .nil) && noHoleJoins joins &&
      (absent whr || noHole whr) && (absent having || noHole having)

end

/-- The same for the pairs of a SET clause. -/
def noHoleSet (p : PairContainer) : Bool := p.map.all (fun ce => noHole ce.2) && noHoles p.expressions

/-- The same for INSERT statements. -/
def noHoleInsert (i : InsertStmt) : Bool :=
  (absent i.values || noHole i.values) && noHoleSels i.returning &&
    match i.action with
    | .update set => noHoleSet set
    | _ => true

/-- The same for UPDATE statements. -/
def noHoleUpdate (u : UpdateStmt) : Bool :=
  noHoleWiths u.withs && noHoleSet u.set && u.tables.all (· ≠ .nil) &&
    (absent u.whr || noHole u.whr) && noHoleSels u.returning

/-- The same for DELETE statements. -/
def noHoleDelete (d : DeleteStmt) : Bool :=
  d.tables.all (· ≠ .nil) && (absent d.whr || noHole d.whr) && noHoleSels d.returning

/-- The same for all four. -/
def noHoleStmt : Stmt → Bool
  | .select s => noHoleSelect s
  | .insert s => noHoleInsert s
  | .update s => noHoleUpdate s
  | .delete s => noHoleDelete s

/-- Arguments without a nil that would be called. Missing are the nil `*time.Time` and
`stmt.From` values (for which `From` puts a nil into the statement). -/
inductive Sound : Any → Prop
  | val (v : Val) : Sound (.val v)
  | timePtr (t : Int × Nat) : Sound (.timePtr (some t))
  | expr (e : Expr) : (absent e || noHole e) → Sound (.expr e)
  | selNil : Sound (.selExpr .nil)
  | selExpr (s : SelExpr) : noHoleSel s → Sound (.selExpr s)
  | exprs (l : List Expr) : (∀ e ∈ l, absent e || noHole e) → Sound (.exprs l)
  | anys (l : List Any) : (∀ a ∈ l, Sound a) → Sound (.anys l)
  | columns (l : List Column) : Sound (.columns l)
  | selExprs (l : List SelExpr) : noHoleSels l → Sound (.selExprs l)
  | anyss (l : List (List Any)) : (∀ r ∈ l, ∀ a ∈ r, Sound a) → Sound (.anyss l)
  | valss (k : ElemKind) (l : List (List Val)) : Sound (.valss k l)
  | exprss (l : List (List Expr)) : (∀ r ∈ l, ∀ e ∈ r, absent e || noHole e) → Sound (.exprss l)
  | table (t : Table) : Sound (.table t)
  | into (t : Table) : Sound (.into t)
  | suffix (s : Str) : Sound (.suffix s)
  | prefix (s : Str) : Sound (.prefix s)
  | limit (n : Int) : Sound (.limit n)
  | offset (n : Int) : Sound (.offset n)
  | join (j : Join) : noHole j.cond → Sound (.join j)
  | joinType (s : Str) : Sound (.joinType s)
  | conflictNothing : Sound .conflictNothing
  | conflictUpdate (set : PairContainer) : noHoleSet set → Sound (.conflictUpdate set)
  | strMap (id : Nat) (l : List (Str × Any)) : (∀ kv ∈ l, Sound kv.2) → Sound (.strMap id l)
  | anyMap (l : List (Any × Any)) : (∀ kv ∈ l, Sound kv.1) → (∀ kv ∈ l, Sound kv.2) →
      Sound (.anyMap l)
  | pair (key value : Any) : Sound key → Sound value → Sound (.pair key value)
  | selectB (s : SelectStmt) : noHoleSelect s → Sound (.selectB s)
  | otherB : Sound .otherB
  | obj (o : Obj) : (∀ e, o.expression = some e → noHole e) →
      (∀ e, o.statement = some (some e) → absent e || noHole e) → Sound (.obj o)

/-- The text is refused, or it has a condition: it is not one that ends after `AND` or `OR` and a
name, and not one without a comparison. -/
def JoinSafe (text : Str) : Prop :=
  ∃ (items : List JoinItem) (rest : List Str) (v : JoinVerdict),
    Spelled (items.flatMap JoinItem.lexemes ++ rest) (text.takeWhile (· ≠ '\x00')) ∧
    (∀ i ∈ items, i.good) ∧ JoinRest (endsInCond false items) rest v ∧
    (v = .refused ∨ v = .accepted ∧ condOfItems items none ≠ none)

/-- The join string among the arguments of `Join`: the only argument, or the second. -/
def joinTexts : List Any → List Str
  | [.val (.str s)] => [s]
  | _ :: .val (.str s) :: _ => [s]
  | _ => []

/-- Calls on a SELECT builder whose arguments have no nil that would be called. -/
def SelCall.sound : SelCall → Prop
  | .distinctOn args | .columns args | .from args | .groupBy args => ∀ a ∈ args, Sound a
  | .join args => (∀ a ∈ args, Sound a) ∧ ∀ text ∈ joinTexts args, JoinSafe text
  | .with args => noHoleWiths args
  | .where c | .and c | .or c | .having c => absent c || noHole c
  | _ => True

/-- The same on an INSERT builder; `Values` needs an argument. -/
def InsCall.sound : InsCall → Prop
  | .values args => args ≠ [] ∧ ∀ a ∈ args, Sound a
  | .columns args | .set args | .onConflict args | .returning args => ∀ a ∈ args, Sound a
  | _ => True

/-- The same on an UPDATE builder. -/
def UpdCall.sound : UpdCall → Prop
  | .set args | .using args | .returning args => ∀ a ∈ args, Sound a
  | .with args => noHoleWiths args
  | .where c | .and c | .or c => absent c || noHole c
  | .from a => Sound a
  | _ => True

/-- The same on a DELETE builder. -/
def DelCall.sound : DelCall → Prop
  | .from args | .using args | .returning args => ∀ a ∈ args, Sound a
  | .where c | .and c | .or c => absent c || noHole c
  | _ => True

end Verif.Spec
