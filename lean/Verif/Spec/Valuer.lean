import Verif.Model.Types

/-!
# What a `driver.Valuer` stands for
-/

namespace Verif.Spec

/-- The value a valuer yields, following valuers that yield valuers; a nil pointer stands for
nil.  Values that are not valuers, and valuers that fail, stand for themselves. -/
def resolve : Val → Val
  | .valuerNil _ => .nil
  | .valuerOk _ v => resolve v
  | v => v

/-- A value that is, or yields, a valuer that fails. -/
def fails : Val → Bool
  | .valuerErr _ => true
  | .valuerOk _ v => fails v
  | _ => false

end Verif.Spec
