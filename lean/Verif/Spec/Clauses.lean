import Verif.Spec.Compare

/-!
# Texts made of clauses
-/

namespace Verif.Spec

/-- The texts that are present, separated by single spaces. -/
def oneSpace (l : List (Option Str)) : Str := List.intercalate s%" " (l.filterMap id)

/-- A text that is present only under a condition. -/
def when (present : Bool) (t : Str) : Option Str := if present then some t else none

/-- The comment after a statement. -/
def commentText (c : Str) : Str := if c.isEmpty then [] else s%"; -- " ++ c

/-- `ts` are the texts of the elements of `l`, in order, `text a` being the text of `a`. -/
def Texts {α : Type} (text : α → Go Str) (l : List α) (ts : List Str) : Prop :=
  l.map text = ts.map .ok

end Verif.Spec
