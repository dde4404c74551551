import Verif.Spec.Calls

/-!
# Programs that use several builders

A program makes builders, calls methods on any of them, as often as it likes, and renders any of
them. The builders are numbered in the order in which they come into being.
-/

namespace Verif.Spec

/-- One step of a program: a new builder with what is given to make it, a call on builder `i`, which makes a new builder unless
it panics, or rendering builder `i` (`reached` says whether rendering got as far as the SET clause;
it does not if it panics before). -/
inductive Act (N C : Type) where
  | new (n : N)
  | call (i : Nat) (c : C)
  | render (i : Nat) (reached : Bool)

/-- The builders that methods are called on. -/
def receivers {N C : Type} : List (Act N C) → List Nat
  | [] => []
  | .call i _ :: l => i :: receivers l
  | _ :: l => receivers l

/-- Every builder is used for at most one further call. -/
def Linear {N C : Type} (ops : List (Act N C)) : Prop := (receivers ops).Nodup

/-- No builder is rendered. -/
def Unrendered {N C : Type} (ops : List (Act N C)) : Prop := ∀ i b, Act.render i b ∉ ops

/-! ## What should happen: builders are values -/

/-- One step if builders are values: a call adds the result to the builders there are. -/
def idealStep {N S C : Type} (init : N → S) (apply : C → S → Go S) (bs : List S) : Act N C → List S
  | .new n => bs ++ [init n]
  | .call i c =>
    match bs[i]? with
    | none => bs
    | some b =>
      match apply c b with
      | .error _ => bs
      | .ok b' => bs ++ [b']
  | .render _ _ => bs

/-- The builders after a program, if builders are values. -/
def ideal {N S C : Type} (init : N → S) (apply : C → S → Go S) (ops : List (Act N C)) : List S :=
  ops.foldl (idealStep init apply) []

/-! ## Extending a clause twice

For every builder and every clause: the number of the builder, among its ancestors and itself, in
which the clause was last changed. Builders that agree on this number have the very same clause. -/

/-- A builder with the ancestors its clauses come from. -/
structure Entry (K S : Type) where
  stmt : S
  since : K → Nat

/-- The builders, and the clauses from which a longer one has been made. -/
structure Hist (K S : Type) where
  entries : List (Entry K S)
  spent : List (K × Nat)

variable {K N S C : Type} [DecidableEq K]

/-- One step, with the account of where clauses come from. -/
def Hist.step (init : N → S) (apply : C → S → Go S) (clause : C → K) (h : Hist K S) : Act N C → Hist K S
  | .new n => { h with entries := h.entries ++ [⟨init n, fun _ => h.entries.length⟩] }
  | .call i c =>
    match h.entries[i]? with
    | none => h
    | some e =>
      match apply c e.stmt with
      | .error _ => { h with spent := (clause c, e.since (clause c)) :: h.spent }
      | .ok b => {
          entries := h.entries ++
            [⟨b, fun k => if k = clause c then h.entries.length else e.since k⟩]
          spent := (clause c, e.since (clause c)) :: h.spent }
  | .render _ _ => h

/-- The step does not extend a clause that has been extended before. -/
def Hist.Allows (clause : C → K) (accumulates : K → Bool) (h : Hist K S) : Act N C → Prop
  | .call i c => ∀ e, h.entries[i]? = some e → accumulates (clause c) = true →
      (clause c, e.since (clause c)) ∉ h.spent
  | _ => True

/-- The program extends no clause twice: of all builders that have the very same content of a
clause (same list, from the same call), at most one call extends it. Builders may be forked freely
as long as the forks extend different clauses or only set clauses that do not accumulate. -/
def ExtendsOnce (init : N → S) (apply : C → S → Go S) (clause : C → K) (accumulates : K → Bool) :
    Hist K S → List (Act N C) → Prop
  | _, [] => True
  | h, op :: l =>
    h.Allows clause accumulates op ∧
      ExtendsOnce init apply clause accumulates (h.step init apply clause op) l

end Verif.Spec
