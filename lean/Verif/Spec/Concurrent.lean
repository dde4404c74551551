import Verif.Model.Concurrent

/-!
# Interleavings
-/

namespace Verif.Spec
open Concurrent

/-- An array of columns and the goroutines that work on it. -/
structure World (ρ : Type) where
  cells : Cells
  threads : List (Act ρ)

/-- Some goroutine makes its next access. -/
inductive Step {ρ : Type} : World ρ → World ρ → Prop
  | read {w : World ρ} {t i : Nat} {next : Column → Act ρ} :
      w.threads[t]? = some (.read i next) →
      Step w ⟨w.cells, w.threads.set t (next (w.cells i))⟩
  | write {w : World ρ} {t i : Nat} {c : Column} {next : Act ρ} :
      w.threads[t]? = some (.write i c next) →
      Step w ⟨fun j => if j = i then c else w.cells j, w.threads.set t next⟩

/-- Any number of accesses, in any order of the goroutines. -/
inductive Steps {ρ : Type} : World ρ → World ρ → Prop
  | refl {w : World ρ} : Steps w w
  | tail {u v w : World ρ} : Steps u v → Step v w → Steps u w

/-- An array that holds these columns. -/
def arrayOf (l : List Column) : Cells := fun i => l.getD i { name := [], alias := [] }

/-- The columns have no alias and their names go up. -/
def Ascending (l : List Column) : Prop :=
  (∀ c ∈ l, c.alias = []) ∧ l.Pairwise fun a b => a.name < b.name

/-- No column comes before the one in front of it, by name or by alias. -/
def AtRest (l : List Column) : Prop :=
  ∀ j (h : j + 1 < l.length), ¬ l[j + 1].name < l[j].name ∧ ¬ l[j + 1].alias < l[j].alias

/-- The array after two cells have been exchanged. -/
def exchange (m : Cells) (i j : Nat) : Cells :=
  fun k => if k = j then m i else if k = i then m j else m k

end Verif.Spec

namespace Verif.Concurrent
open Spec

/-- What is in the array after a way to sort has run alone. -/
def Sorter.run : Sorter → Cells → Cells
  | .stop, m => m
  | .less i j next, m => Sorter.run (next (columnLess (m i) (m j))) m
  | .swap i j next, m => Sorter.run next (exchange m i j)

/-- Run alone on this array, it compares but swaps nothing. -/
def Sorter.Still : Sorter → Cells → Prop
  | .stop, _ => True
  | .less i j next, m => Sorter.Still (next (columnLess (m i) (m j))) m
  | .swap _ _ _, _ => False

/-- It stays within the first `n` cells. -/
def Sorter.Within (n : Nat) : Sorter → Prop
  | .stop => True
  | .less i j next => i < n ∧ j < n ∧ ∀ b, Sorter.Within n (next b)
  | .swap i j next => i < n ∧ j < n ∧ Sorter.Within n next

end Verif.Concurrent
