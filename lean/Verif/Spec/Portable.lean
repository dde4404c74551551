import Verif.Spec.Layout
import Verif.Spec.Calls
import Verif.Spec.Heap

/-!
# Two versions of Go

What a text may depend on besides the code of loukoum: the table of printable characters of
`strconv`, the order in which `sort.Slice` puts elements that its comparison does not decide, and
what `fmt.Sprint` prints. They change with the version of Go.
-/

namespace Verif.Spec

/-- The names among the pieces. -/
def namesOf : List Piece → List Str
  | [] => []
  | .name n :: l => n :: namesOf l
  | _ :: l => namesOf l

/-- Both versions call the same characters of the text printable. -/
def SamePrint (r r' : GoRuntime) (t : Str) : Prop := ∀ c ∈ t, r.isPrint c = r'.isPrint c

/-- Only ASCII characters. -/
def Ascii (t : Str) : Prop := ∀ c ∈ t, c.toNat < 128

instance (t : Str) : Decidable (Ascii t) := inferInstanceAs (Decidable (∀ c ∈ t, c.toNat < 128))

/-- Both versions print the value in the same way, if it is printed with `fmt.Sprint`. -/
def SameSprint (r r' : GoRuntime) : Val → Prop
  | .slice k l => r.sprint (.slice k l) = r'.sprint (.slice k l)
  | .opaque ty id => r.sprint (.opaque ty id) = r'.sprint (.opaque ty id)
  | .valuerOk _ v => SameSprint r r' v
  | _ => True

/-- The columns to which a statement assigns by name. -/
def assignedColumns : Stmt → List Column
  | .update u => if u.set.mode = .associative then u.set.columns else []
  | .insert i =>
    match i.action with
    | .update set => if set.mode = .associative then set.columns else []
    | _ => []
  | _ => []

/-- The SET clause of a statement: of UPDATE, or of DO UPDATE. -/
def setClause : Stmt → Option PairContainer
  | .update u => some u.set
  | .insert i =>
    match i.action with
    | .update set => some set
    | _ => none
  | _ => none

/-- Each column that is assigned by name is listed once, and there is an expression for it. -/
def Kept (s : Stmt) : Prop :=
  ∀ p, setClause s = some p → p.mode = .associative →
    p.columns.Nodup ∧ ∀ c ∈ p.columns, ∃ e, (c, e) ∈ p.map

instance (cs : List Column) : Decidable (Agree cs) :=
  inferInstanceAs (Decidable (∀ c ∈ cs, ∀ d ∈ cs, c.name < d.name → ¬ d.alias < c.alias))

/-- The columns of a call of `Set` on an INSERT. -/
def InsCall.setColumns : InsCall → List Column
  | .set args =>
    match toSet args with
    | .ok pairs => pairs.columns
    | .error _ => []
  | _ => []

end Verif.Spec
