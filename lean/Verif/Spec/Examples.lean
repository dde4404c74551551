import Verif.Spec.Tokens

/-!
# Documented queries

The comments of the examples give the queries without the double quotes around names.
-/

namespace Verif.Spec

/-- The token without quotes around a name. -/
def SqlTok.unquoted : SqlTok → SqlTok
  | .name t => .word t
  | t => t

/-- The text is the documented one, apart from the double quotes around names and the white space:
both consist of the same tokens. -/
def SameButQuotes (text documented : Str) : Prop :=
  ∃ ts, tokens true text = some ts ∧ tokens true documented = some (ts.map SqlTok.unquoted)

instance (t d : Str) : Decidable (SameButQuotes t d) :=
  match h : tokens true t with
  | none => .isFalse fun ⟨_, h1, _⟩ => by rw [h] at h1; cases h1
  | some ts =>
    if hd : tokens true d = some (ts.map SqlTok.unquoted) then .isTrue ⟨ts, h, hd⟩
    else .isFalse fun ⟨_, h1, h2⟩ => hd (by rw [h] at h1; cases h1; exact h2)

/-- `"arg_1": v, "arg_2": w, ...`, from this number on -/
def numbered : Nat → List Val → List (Str × Val)
  | _, [] => []
  | n, v :: l => (s%"arg_" ++ (Nat.repr n).toList, v) :: numbered (n + 1) l

end Verif.Spec
