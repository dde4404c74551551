import Verif.Model.Builder
import Verif.Model.Runtime

/-!
# Conformance tests of the model

The expectations of the repository's own test-suite (builder/*_test.go, lexer/lexer_test.go,
parser/join_test.go), checked on the model by kernel computation. These are tests that the
model transcribes the code faithfully; they are not proofs of properties.
-/

namespace Verif.Tests

attribute [local instance] Runtime.sample

mutual
/-- Boolean equality of values (tests only). -/
def veq : Val → Val → Bool
  | .nil, .nil => true
  | .str a, .str b => a = b
  | .bytes a, .bytes b => a = b
  | .bool a, .bool b => a = b
  | .int k a, .int k' b => k = k' && a = b
  | .uint k a, .uint k' b => k = k' && a = b
  | .time a l, .time b l' => a = b && l = l'
  | .slice k a, .slice k' b => k = k' && veqs a b
  | .valuerNil a, .valuerNil b => a = b
  | .valuerErr a, .valuerErr b => a = b
  | .valuerOk a _, .valuerOk b _ => a = b
  | _, _ => false
/-- Boolean equality of value lists (tests only). -/
def veqs : List Val → List Val → Bool
  | [], [] => true
  | a :: l, b :: m => veq a b && veqs l m
  | _, _ => false
end

/-- builder/builder_test.go:35-45 `toNamedArgs` -/
def namedArgs (args : List Val) : List (Str × Val) :=
  args.zipIdx.map (fun (v, i) => (s%"arg_" ++ formatNat (i + 1), v))

/-- builder/builder_test.go:47-82, the three comparisons. -/
def renders (b : Go Stmt) (str query named : Str) (args : List Val) : Bool :=
  match b with
  | .error _ => false
  | .ok st =>
    (match st.write.string with
     | .ok s => s = str
     | _ => false) &&
    (match st.write.query with
     | .ok (q, a) => q = query && veqs a args
     | _ => false) &&
    (match st.write.namedQuery with
     | .ok (q, m) =>
       q = named && (match m with
         | none => args.isEmpty
         | some m => m.map (·.1) = (namedArgs args).map (·.1) && veqs (m.map (·.2)) args)
     | _ => false)

/-- The builder renders as expected. -/
abbrev Renders (b : Go Stmt) (str query named : Str) (args : List Val) : Prop :=
  renders b str query named args = true

/-- builder/builder_test.go:51-57: building or `String()` panics. -/
def fails (b : Go Stmt) : Bool :=
  match b with
  | .error _ => true
  | .ok st => match st.write.string with
    | .error _ => true
    | .ok _ => false

/-- The builder fails as expected. -/
abbrev Fails (b : Go Stmt) : Prop := fails b = true

/-- Projection of a parsed join for comparison. -/
def joined (s : Str) : Option (Str × Str × Go Str) :=
  match parseJoin s with
  | .ok (some j) => some (j.type, j.table.name, j.cond.write.string)
  | _ => none

end Verif.Tests
