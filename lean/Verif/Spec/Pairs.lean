import Verif.Spec.Argument
import Verif.Spec.Calls
import Verif.Spec.Clauses

/-!
# Assignments given to `Set`
-/

namespace Verif.Spec

/-- The column named by the key of a pair: a string without the white space around it, or a column
as it is; not an empty name. -/
def KeyArg : Any → Column → Prop
  | .val (.str s), c => Trimmed s c.name ∧ c.name ≠ [] ∧ c.alias = []
  | .selExpr (.column d), c => c = d ∧ d.name ≠ []
  | _, _ => False

/-- The assignment given by a key and a value. -/
def GivenPair (kv : Any × Any) (ce : Column × Expr) : Prop :=
  KeyArg kv.1 ce.1 ∧ newWrapped kv.2 = .ok ce.2

/-- The assignments given by an argument of `Set`: a pair, or a map in the order in which it is
iterated. -/
def GivenArg : Any → List (Column × Expr) → Prop
  | .pair k v, g => ∃ ce, GivenPair (k, v) ce ∧ g = [ce]
  | .strMap _ entries, g => Each GivenPair (entries.map fun kv => (.val (.str kv.1), kv.2)) g
  | .anyMap entries, g => Each GivenPair entries g
  | _, _ => False

/-- The assignments given by the arguments of one call of `Set`, in order. -/
def GivenArgs (args : List Any) (g : List (Column × Expr)) : Prop :=
  ∃ gs, Each GivenArg args gs ∧ g = gs.flatten

/-- The assignments given by a sequence of calls on an UPDATE in which every `Set` uses the
key-value syntax and `Using` does not occur. -/
inductive GivenBy : List UpdCall → List (Column × Expr) → Prop where
  | nil : GivenBy [] []
  | set {args : List Any} {l : List UpdCall} {g h : List (Column × Expr)} :
      GivenArgs args g → GivenBy l h → GivenBy (.set args :: l) (g ++ h)
  | other {call : UpdCall} {l : List UpdCall} {h : List (Column × Expr)} :
      call.clause ≠ .set → GivenBy l h → GivenBy (call :: l) h

/-- The expression given last for a column. -/
def lastGiven (g : List (Column × Expr)) (c : Column) : Option Expr :=
  ((g.filter (·.1 = c)).getLast?).map (·.2)

/-- `as` assigns every column of `g` once, the expression given last for it, and nothing else. -/
def Assigns (as g : List (Column × Expr)) : Prop :=
  (as.map (·.1)).Nodup ∧ ∀ c e, (c, e) ∈ as ↔ lastGiven g c = some e

/-- The texts of the two sides of an assignment. -/
def PairText [GoRuntime] (ce : Column × Expr) (x : Str × Str) : Prop :=
  ce.1.write.string = .ok x.1 ∧ ce.2.write.string = .ok x.2

/-- `c1 = e1, c2 = e2, …` -/
def assignText (xs : List (Str × Str)) : Str := commaText (xs.map fun x => x.1 ++ s%" = " ++ x.2)

/-! ## Iteration order of maps -/

/-- The same argument, except for the order in which a map is iterated. -/
inductive SameArg : Any → Any → Prop where
  | refl (a : Any) : SameArg a a
  | strMap (id : Nat) {entries entries' : List (Str × Any)} :
      entries.Perm entries' → SameArg (.strMap id entries) (.strMap id entries')
  | anyMap {entries entries' : List (Any × Any)} :
      entries.Perm entries' → SameArg (.anyMap entries) (.anyMap entries')

/-- The keys of a map name different columns. -/
def DistinctKeys (a : Any) : Prop := ∀ g, GivenArg a g → (g.map (·.1)).Nodup

/-- The columns have no alias. -/
def NoAlias (a : Any) : Prop := ∀ g, GivenArg a g → ∀ ce ∈ g, ce.1.alias = []

/-- The same call, except for the order in which maps are iterated. -/
inductive SameCall : UpdCall → UpdCall → Prop where
  | refl (call : UpdCall) : SameCall call call
  | set {args args' : List Any} : Each SameArg args args' → SameCall (.set args) (.set args')

/-! ## Syntaxes of SET -/

/-- Some call of `Set` gives a pair. -/
def UsesPairs (calls : List UpdCall) : Prop :=
  ∃ args, .set args ∈ calls ∧ ∃ a ∈ args, ∃ g, GivenArg a g ∧ g ≠ []

/-- Some call of `Set` gives columns. -/
def UsesColumns (calls : List UpdCall) : Prop :=
  ∃ args, .set args ∈ calls ∧ ∃ a ∈ args, ∃ cs, ColumnsArg a cs

/-- The columns given by an argument of `Set` in the column-list syntax (an empty map gives
none). -/
def ListedArg (a : Any) (cs : List Column) : Prop := ColumnsArg a cs ∨ GivenArg a [] ∧ cs = []

/-- The columns and the expressions given, in order, by a sequence of calls on an UPDATE that use
the column-list syntax. -/
inductive ListedBy : List UpdCall → List Column → List Expr → Prop where
  | nil : ListedBy [] [] []
  | set {args : List Any} {css : List (List Column)} {l : List UpdCall} {cs : List Column}
      {es : List Expr} : Each ListedArg args css → ListedBy l cs es →
      ListedBy (.set args :: l) (css.flatten ++ cs) es
  | use {args : List Any} {es' : List Expr} {l : List UpdCall} {cs : List Column}
      {es : List Expr} : Each (fun a e => newExpression a = .ok e) args es' → ListedBy l cs es →
      ListedBy (.using args :: l) cs (es' ++ es)
  | other {call : UpdCall} {l : List UpdCall} {cs : List Column} {es : List Expr} :
      call.clause ≠ .set → ListedBy l cs es → ListedBy (call :: l) cs es

end Verif.Spec
