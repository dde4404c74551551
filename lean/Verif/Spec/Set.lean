import Verif.Model.Builder

/-!
# Histories of a SET clause
-/

namespace Verif.Spec

/-- A SET clause that assigns nothing: no syntax was chosen, there is no pair, or one of the two
sides of a column list is missing. -/
def NoAssignment (p : PairContainer) : Prop :=
  match p.mode with
  | .unknown => True
  | .associative => p.map = []
  | .array => p.columns = [] ∨ p.expressions = []

/-- The SET clauses that can be reached with `Set` and `Using` of an UPDATE. -/
inductive ReachedSet : PairContainer → Prop where
  | new : ReachedSet PairContainer.new
  | set {b b' : UpdateStmt} {args : List Any} :
      ReachedSet b.set → b.Set args = .ok b' → ReachedSet b'.set
  | use {b b' : UpdateStmt} {args : List Any} :
      ReachedSet b.set → b.Using args = .ok b' → ReachedSet b'.set

end Verif.Spec
