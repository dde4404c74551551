import Verif.Spec.Set
import Verif.Lemmas.Clauses

/-!
# Lemmas about SET clauses
-/

set_option linter.unusedSectionVars false

namespace Verif
open Spec

/-- What holds of every SET clause the builders make. -/
def SetWF (p : PairContainer) : Prop :=
  match p.mode with
  | .unknown => p.map = [] ∧ p.columns = [] ∧ p.expressions = []
  | .associative => p.expressions = []
  | .array => p.map = [] ∧ p.columns ≠ []

theorem add_ok {p q : PairContainer} {c : Column} {e : Expr} (h : p.add c e = .ok q) :
    p.mode ≠ .array ∧ q = { p with
      mode := .associative
      columns := if (mapLookup c p.map).isSome then p.columns else p.columns ++ [c]
      map := mapAssign c e p.map } := by
  unfold PairContainer.add at h
  cases hm : p.mode <;> simp [hm, Go.panic] at h
  · exact ⟨by simp, h.symm⟩
  · exact ⟨by simp, h.symm⟩

theorem set_ok {p q : PairContainer} {c : Column} (h : p.set c = .ok q) :
    p.mode ≠ .associative ∧ q = { p with mode := .array, columns := p.columns ++ [c] } := by
  unfold PairContainer.set at h
  cases hm : p.mode <;> simp [hm, Go.panic] at h
  · exact ⟨by simp, h.symm⟩
  · exact ⟨by simp, h.symm⟩

theorem use_ok {p q : PairContainer} {e : Expr} (h : p.use e = .ok q) :
    p.mode = .array ∧ q = { p with expressions := p.expressions ++ [e] } := by
  unfold PairContainer.use at h
  cases hm : p.mode <;> simp [hm, Go.panic] at h
  exact ⟨rfl, h.symm⟩

theorem add_wf {p q : PairContainer} {c : Column} {e : Expr} (hp : SetWF p)
    (h : p.add c e = .ok q) : SetWF q := by
  obtain ⟨h1, rfl⟩ := add_ok h
  unfold SetWF at hp ⊢
  cases hm : p.mode <;> simp_all

theorem set_wf {p q : PairContainer} {c : Column} (hp : SetWF p) (h : p.set c = .ok q) :
    SetWF q := by
  obtain ⟨h1, rfl⟩ := set_ok h
  unfold SetWF at hp ⊢
  cases hm : p.mode <;> simp_all

theorem use_wf {p q : PairContainer} {e : Expr} (hp : SetWF p) (h : p.use e = .ok q) :
    SetWF q := by
  obtain ⟨h1, rfl⟩ := use_ok h
  unfold SetWF at hp ⊢
  simp_all

theorem addPair_wf {p q : PairContainer} {k v : Any} (hp : SetWF p)
    (h : addPair p k v = .ok q) : SetWF q := by
  unfold addPair at h
  split at h
  · cases h
  · split at h
    · cases h
    · exact add_wf hp h

theorem addPairs_wf {l : List (Any × Any)} : ∀ {p q : PairContainer}, SetWF p →
    addPairs p l = .ok q → SetWF q := by
  induction l with
  | nil => intro p q hp h; cases h; exact hp
  | cons kv l ih =>
    intro p q hp h
    obtain ⟨k, v⟩ := kv
    rw [addPairs] at h
    split at h
    · cases h
    · next h1 => exact ih (addPair_wf hp h1) h

theorem setColumns_wf {l : List Column} : ∀ {p q : PairContainer}, SetWF p →
    setColumns p l = .ok q → SetWF q := by
  induction l with
  | nil => intro p q hp h; cases h; exact hp
  | cons c l ih =>
    intro p q hp h
    rw [setColumns] at h
    split at h
    · cases h
    · next h1 => exact ih (set_wf hp h1) h

theorem mergeSetArg_wf {p q : PairContainer} {a : Any} (hp : SetWF p)
    (h : mergeSetArg p a = .ok q) : SetWF q := by
  unfold mergeSetArg at h
  split at h
  · split at h
    · cases h
    · exact setColumns_wf hp h
  · split at h
    · cases h
    · exact setColumns_wf hp h
  · exact addPairs_wf hp h
  · exact addPairs_wf hp h
  · exact addPair_wf hp h
  · cases h

theorem mergeSet_wf {l : List Any} : ∀ {p q : PairContainer}, SetWF p →
    mergeSet p l = .ok q → SetWF q := by
  induction l with
  | nil => intro p q hp h; cases h; exact hp
  | cons a l ih =>
    intro p q hp h
    rw [mergeSet] at h
    split at h
    · cases h
    · next h1 => exact ih (mergeSetArg_wf hp h1) h

theorem useAll_wf {l : List Any} : ∀ {p q : PairContainer}, SetWF p →
    UpdateStmt.useAll p l = .ok q → SetWF q := by
  induction l with
  | nil => intro p q hp h; cases h; exact hp
  | cons a l ih =>
    intro p q hp h
    rw [UpdateStmt.useAll] at h
    split at h
    · cases h
    · split at h
      · cases h
      · next h1 => exact ih (use_wf hp h1) h

theorem updateSet_inv {b b' : UpdateStmt} {args : List Any} (h : b.Set args = .ok b') :
    args ≠ [] ∧ ∃ s, mergeSet b.set args = .ok s ∧ b' = { b with set := s } := by
  unfold UpdateStmt.Set at h
  split at h
  · cases h
  · next hne =>
    split at h
    · cases h
    · next s hs => cases h; exact ⟨by simpa using hne, s, hs, rfl⟩

theorem updateUsing_inv {b b' : UpdateStmt} {args : List Any} (h : b.Using args = .ok b') :
    b.set.mode = .array ∧ args ≠ [] ∧ ∃ s, UpdateStmt.useAll b.set args = .ok s ∧
      b' = { b with set := s } := by
  unfold UpdateStmt.Using at h
  split at h
  · cases h
  · next hm =>
    split at h
    · cases h
    · next hne =>
      split at h
      · cases h
      · next s hs => cases h; exact ⟨by simpa using hm, by simpa using hne, s, hs, rfl⟩

theorem reached_wf {p : PairContainer} (h : ReachedSet p) : SetWF p := by
  induction h with
  | new => exact ⟨rfl, rfl, rfl⟩
  | set _ hs ih =>
    obtain ⟨_, s, hm, rfl⟩ := updateSet_inv hs
    exact mergeSet_wf ih hm
  | use _ hs ih =>
    obtain ⟨_, _, s, hm, rfl⟩ := updateUsing_inv hs
    exact useAll_wf ih hm

end Verif
