import Verif.Model.Heap
import Verif.Spec.History

/-!
# Running programs on builders that share memory
-/

namespace Verif.Spec

/-! ## SELECT -/

/-- The clauses of SELECT to which calls add. -/
def SelClause.accumulates : SelClause → Bool
  | .joins | .with | .orderBy => true
  | _ => false

end Verif.Spec

namespace Verif
open Spec

/-- A call, on shared memory. -/
def SelRef.call (g : Growth) (h : SelHeap) (r : SelRef) : SelCall → Go (SelHeap × SelRef)
  | .join args => r.Join g h args
  | .with args => .ok (r.With g h args)
  | .orderBy os => .ok (r.OrderBy g h os)
  | .distinctOn args => r.pure h (·.DistinctOn args)
  | .distinct => r.pure h (·.Distinct)
  | .columns args => r.pure h (·.Columns args)
  | .from args => r.pure h (·.From args)
  | .where c => r.pure h (·.Where c)
  | .and c => r.pure h (·.And c)
  | .or c => r.pure h (·.Or c)
  | .groupBy args => r.pure h (·.GroupBy args)
  | .having c => r.pure h (·.Having c)
  | .limit v => r.pure h (·.Limit v)
  | .offset v => r.pure h (·.Offset v)
  | .suffix v => r.pure h (·.Suffix v)
  | .prefix v => r.pure h (·.Prefix v)
  | .comment c => r.pure h (·.Comment c)

/-- The SELECT builders of a program. -/
structure SelWorld where
  heap : SelHeap
  refs : List SelRef

/-- One step; rendering a SELECT only reads. -/
def SelWorld.step (g : Growth) (w : SelWorld) : Act Unit SelCall → SelWorld
  | .new _ => { w with refs := w.refs ++ [⟨SelectStmt.zero, .nil, .nil, .nil⟩] }
  | .call i c =>
    match w.refs[i]? with
    | none => w
    | some r =>
      match r.call g w.heap c with
      | .error _ => w
      | .ok (h, r') => ⟨h, w.refs ++ [r']⟩
  | .render _ _ => w

/-- A program from the beginning. -/
def SelWorld.run (g : Growth) (ops : List (Act Unit SelCall)) : SelWorld :=
  ops.foldl (SelWorld.step g) ⟨⟨[], [], []⟩, []⟩

/-- What the builders represent. -/
def SelWorld.stmts (w : SelWorld) : List SelectStmt := w.refs.map (·.stmt w.heap)

/-! ## UPDATE -/

/-- The clauses of UPDATE to which calls add. -/
def Spec.UpdClause.accumulates : UpdClause → Bool
  | .set | .with => true
  | _ => false

/-- A call, on shared memory. -/
def UpdRef.call (g : Growth) (h : UpdHeap) (r : UpdRef) : UpdCall → UpdHeap × Go UpdRef
  | .set args => r.Set g h args
  | .using args => r.Using g h args
  | .with args => ((r.With g h args).1, .ok (r.With g h args).2)
  | .only => r.pure h (·.Only)
  | .where c => r.pure h (·.Where c)
  | .and c => r.pure h (·.And c)
  | .or c => r.pure h (·.Or c)
  | .from a => r.pure h (·.From a)
  | .returning args => r.pure h (·.Returning args)
  | .comment c => r.pure h (·.Comment c)

/-- The UPDATE builders of a program. -/
structure UpdWorld where
  heap : UpdHeap
  refs : List UpdRef

/-- One step. -/
def UpdWorld.step [GoRuntime] (g : Growth) (w : UpdWorld) : Act Table UpdCall → UpdWorld
  | .new t => ⟨(UpdRef.new w.heap t).1, w.refs ++ [(UpdRef.new w.heap t).2]⟩
  | .call i c =>
    match w.refs[i]? with
    | none => w
    | some r =>
      match r.call g w.heap c with
      | (h, .error _) => ⟨h, w.refs⟩
      | (h, .ok r') => ⟨h, w.refs ++ [r']⟩
  | .render i reached =>
    match w.refs[i]? with
    | none => w
    | some r => ⟨r.rendered w.heap reached, w.refs⟩

/-- A program from the beginning. -/
def UpdWorld.run [GoRuntime] (g : Growth) (ops : List (Act Table UpdCall)) : UpdWorld :=
  ops.foldl (UpdWorld.step g) ⟨⟨[], [], [], []⟩, []⟩

/-- What the builders represent. -/
def UpdWorld.stmts (w : UpdWorld) : List UpdateStmt := w.refs.map (·.stmt w.heap)

/-! ## INSERT -/

/-- One of the clauses a call is about. -/
def Spec.InsCall.clause : InsCall → InsClause
  | .into _ => .into
  | .columns _ => .columns
  | .values _ | .set _ => .values
  | .onConflict _ => .onConflict
  | .returning _ => .returning
  | .comment _ => .comment

/-- The clause of INSERT to which calls may add. -/
def Spec.InsClause.accumulates : InsClause → Bool
  | .onConflict => true
  | _ => false

/-- A call, on shared memory. -/
def InsRef.call [GoRuntime] (g : Growth) (h : InsHeap) (r : InsRef) : InsCall → InsHeap × Go InsRef
  | .onConflict args => r.OnConflict g h args
  | .into a => r.pure h (·.Into a)
  | .columns args => r.pure h (·.Columns args)
  | .values args => r.pure h (·.Values args)
  | .set args => r.pure h (·.Set args)
  | .returning args => r.pure h (·.Returning args)
  | .comment c => r.pure h (·.Comment c)

/-- The INSERT builders of a program. -/
structure InsWorld where
  heap : InsHeap
  refs : List InsRef

/-- One step. -/
def InsWorld.step [GoRuntime] (g : Growth) (w : InsWorld) : Act Unit InsCall → InsWorld
  | .new _ => { w with refs := w.refs ++ [⟨InsertStmt.zero, .nil, .nil⟩] }
  | .call i c =>
    match w.refs[i]? with
    | none => w
    | some r =>
      match r.call g w.heap c with
      | (h, .error _) => ⟨h, w.refs⟩
      | (h, .ok r') => ⟨h, w.refs ++ [r']⟩
  | .render i reached =>
    match w.refs[i]? with
    | none => w
    | some r => ⟨r.rendered w.heap reached, w.refs⟩

/-- A program from the beginning. -/
def InsWorld.run [GoRuntime] (g : Growth) (ops : List (Act Unit InsCall)) : InsWorld :=
  ops.foldl (InsWorld.step g) ⟨⟨[], []⟩, []⟩

/-- What the builders represent. -/
def InsWorld.stmts (w : InsWorld) : List InsertStmt := w.refs.map (·.stmt w.heap)

/-! ## What a program leaves -/

/-- The builders of a program and where their clauses come from. -/
def Spec.history {K N S C : Type} [DecidableEq K] (init : N → S) (apply : C → S → Go S)
    (clause : C → K) (ops : List (Act N C)) : Hist K S :=
  ops.foldl (Hist.step init apply clause) ⟨[], []⟩

/-- No call has been made that extends the clause of this builder (made on the builder, or on
another one that has the clause from the same call). -/
def Spec.Hist.Live {K S : Type} (h : Hist K S) (k : K) (i : Nat) : Prop :=
  ∀ e, h.entries[i]? = some e → (k, e.since k) ∉ h.spent

/-- A program that makes one builder and calls methods on it, each on the result of the one
before. -/
def Spec.chain {N C : Type} (n : N) (cs : List C) : List (Act N C) :=
  .new n :: cs.mapIdx fun i c => .call i c

/-- Only renderings. -/
def Spec.OnlyRenders {N C : Type} (ops : List (Act N C)) : Prop :=
  ∀ op ∈ ops, ∃ i b, op = .render i b

/-! ## The order of columns -/

/-- Names and aliases never put two columns in opposite orders. Columns without aliases are a
special case. -/
def Spec.Agree (cols : List Column) : Prop :=
  ∀ c ∈ cols, ∀ d ∈ cols, c.name < d.name → ¬ d.alias < c.alias

/-- The same SET clause, but for the order of the columns in key-value syntax. -/
def Spec.SetOrder (p q : PairContainer) : Prop :=
  p = { q with columns := p.columns } ∧ p.columns.Perm q.columns ∧
    (q.mode ≠ .associative → p.columns = q.columns)

/-- The same UPDATE, but for that order. -/
def Spec.UpdOrder (s t : UpdateStmt) : Prop :=
  s = { t with set := s.set } ∧ SetOrder s.set t.set

/-- The same action of ON CONFLICT, but for that order. -/
def Spec.ActionOrder : ConflictAction → ConflictAction → Prop
  | .update p, .update q => SetOrder p q
  | a, b => a = b

/-- The same INSERT, but for that order. -/
def Spec.InsOrder (s t : InsertStmt) : Prop :=
  s = { t with action := s.action } ∧ ActionOrder s.action t.action

/-- The columns of the SET clause of DO UPDATE. -/
def Spec.actionColumns : ConflictAction → List Column
  | .update p => p.columns
  | _ => []

/-- All three renderings agree, in text, arguments and panics. -/
def Spec.SameRenderings [GoRuntime] (s t : Stmt) : Prop :=
  s.write.string = t.write.string ∧ s.write.namedQuery = t.write.namedQuery ∧
    s.write.query = t.write.query

end Verif
