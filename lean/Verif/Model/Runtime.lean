import Verif.Model.Types

/-!
# A concrete Go runtime, used by the tests and by the examples that show that the
hypotheses of the theorems can be met. No theorem depends on it.
-/

namespace Verif.Runtime

/-- Insert `a` before the first element that is not less than or equal to it. -/
def insertBy {α : Type} (lt : α → α → Bool) (a : α) : List α → List α
  | [] => [a]
  | b :: l => if lt b a then b :: insertBy lt a l else a :: b :: l

/-- Insertion sort. -/
def sortBy {α : Type} (lt : α → α → Bool) : List α → List α
  | [] => []
  | a :: l => insertBy lt a (sortBy lt l)

theorem insertBy_perm {α : Type} (lt : α → α → Bool) (a : α) (l : List α) :
    (insertBy lt a l).Perm (a :: l) := by
  induction l with
  | nil => exact List.Perm.refl _
  | cons b l ih =>
    unfold insertBy
    split
    · exact (List.Perm.cons b ih).trans (List.Perm.swap a b l)
    · exact List.Perm.refl _

theorem sortBy_perm {α : Type} (lt : α → α → Bool) (l : List α) : (sortBy lt l).Perm l := by
  induction l with
  | nil => exact List.Perm.refl _
  | cons a l ih => exact (insertBy_perm lt a _).trans (List.Perm.cons a ih)

theorem insertBy_sorted {α : Type} (lt : α → α → Bool) (P : α → Prop)
    (hirr : ∀ a, P a → lt a a = false)
    (htrans : ∀ a b c, P a → P b → P c → lt a b = true → lt b c = true → lt a c = true)
    (hneg : ∀ a b c, P a → P b → P c → lt b a = false → lt c b = false → lt c a = false)
    (a : α) (l : List α) (ha : P a) (hl : ∀ x ∈ l, P x)
    (h : l.Pairwise (fun x y => lt y x = false)) :
    (insertBy lt a l).Pairwise (fun x y => lt y x = false) := by
  induction l with
  | nil => exact List.pairwise_singleton _ _
  | cons b l ih =>
    have hb := hl b List.mem_cons_self
    have hl' : ∀ x ∈ l, P x := fun x hx => hl x (List.mem_cons_of_mem _ hx)
    rw [List.pairwise_cons] at h
    unfold insertBy
    split
    · rename_i hba
      rw [List.pairwise_cons]
      refine ⟨?_, ih hl' h.2⟩
      intro x hx
      have hx' := (insertBy_perm lt a l).mem_iff.1 hx
      rcases List.mem_cons.1 hx' with rfl | hx''
      · cases hxb : lt x b with
        | false => rfl
        | true => rw [← hirr x ha, ← htrans _ _ _ ha hb ha hxb hba]
      · exact h.1 x hx''
    · rename_i hba
      have hba' : lt b a = false := by simpa using hba
      rw [List.pairwise_cons]
      refine ⟨?_, List.pairwise_cons.2 h⟩
      intro x hx
      rcases List.mem_cons.1 hx with rfl | hx'
      · exact hba'
      · exact hneg a b x ha hb (hl' x hx') hba' (h.1 x hx')

theorem sortBy_sorted' {α : Type} (lt : α → α → Bool) (P : α → Prop)
    (hirr : ∀ a, P a → lt a a = false)
    (htrans : ∀ a b c, P a → P b → P c → lt a b = true → lt b c = true → lt a c = true)
    (hinc : ∀ a b c, P a → P b → P c → lt a b = false → lt b a = false → lt b c = false →
      lt c b = false → lt a c = false ∧ lt c a = false) (l : List α) (hl : ∀ x ∈ l, P x) :
    (sortBy lt l).Pairwise (fun a b => lt b a = false) := by
  have hneg : ∀ a b c, P a → P b → P c → lt b a = false → lt c b = false → lt c a = false := by
    intro a b c pa pb pc hba hcb
    cases hca : lt c a with
    | false => rfl
    | true =>
      have hbc : lt b c = false := by
        cases hbc : lt b c with
        | false => rfl
        | true => rw [← hba, htrans _ _ _ pb pc pa hbc hca]
      have hab : lt a b = false := by
        cases hab : lt a b with
        | false => rfl
        | true => rw [← hcb, htrans _ _ _ pc pa pb hca hab]
      rw [← hca, (hinc a b c pa pb pc hab hba hbc hcb).2]
  induction l with
  | nil => exact List.Pairwise.nil
  | cons a l ih =>
    have hl' : ∀ x ∈ l, P x := fun x hx => hl x (List.mem_cons_of_mem _ hx)
    exact insertBy_sorted lt P hirr htrans hneg a _ (hl a List.mem_cons_self)
      (fun x hx => hl' x ((sortBy_perm lt l).mem_iff.1 hx)) (ih hl')

theorem sortBy_sorted {α : Type} (lt : α → α → Bool) (l : List α)
    (hirr : ∀ a ∈ l, lt a a = false)
    (htrans : ∀ a ∈ l, ∀ b ∈ l, ∀ c ∈ l, lt a b = true → lt b c = true → lt a c = true)
    (hinc : ∀ a ∈ l, ∀ b ∈ l, ∀ c ∈ l, lt a b = false → lt b a = false → lt b c = false →
      lt c b = false → lt a c = false ∧ lt c a = false) :
    (sortBy lt l).Pairwise (fun a b => lt b a = false) :=
  sortBy_sorted' lt (· ∈ l) hirr (fun a b c ha hb hc => htrans a ha b hb c hc)
    (fun a b c ha hb hc => hinc a ha b hb c hc) l (fun _ h => h)

/-- A runtime: ASCII-only printability, insertion sort, constant texts for values of
other types. -/
@[reducible] def sample : GoRuntime where
  isPrint c := 32 ≤ c.toNat && c.toNat ≤ 126
  isPrint_ascii _ _ := rfl
  sprint _ := s%"?"
  sortSlice := sortBy
  sortSlice_perm := sortBy_perm
  sortSlice_sorted := sortBy_sorted

/-- Another runtime: all characters outside ASCII are printable, the sort begins at the other end,
and other constant texts for values of other types. -/
@[reducible] def other : GoRuntime where
  isPrint c := (32 ≤ c.toNat && c.toNat ≤ 126) || 128 ≤ c.toNat
  isPrint_ascii c h := by
    have : ¬ 128 ≤ c.toNat := by omega
    simp [this]
  sprint _ := s%"!"
  sortSlice lt l := sortBy lt l.reverse
  sortSlice_perm lt l := (sortBy_perm lt _).trans l.reverse_perm
  sortSlice_sorted lt l h1 h2 h3 := sortBy_sorted lt l.reverse
    (fun a ha => h1 a (by simpa using ha))
    (fun a ha b hb c hc => h2 a (by simpa using ha) b (by simpa using hb) c (by simpa using hc))
    (fun a ha b hb c hc => h3 a (by simpa using ha) b (by simpa using hb) c (by simpa using hc))

end Verif.Runtime
