import Verif.Lemmas.DeriveInsert
import Verif.Lemmas.DeriveUpdateOne

/-!
# Lemmas for C80: one goroutine alone, on a builder that has an action
-/

set_option linter.unusedSectionVars false

namespace Verif.DeriveInsert.One
open Spec
open Derive (View)
open Concurrent (Act Sorter Cells readCells renderingBy keyValues finish finish_readCells)
open DeriveUpdate (Sorts)

variable {ρ α : Type}

theorem step_one {m : Cells} {a : Act ρ} {w : World ρ} (h : Step ⟨m, [a]⟩ w) :
    ∃ m' a', w = ⟨m', [a']⟩ ∧ (finish a' m').2 = (finish a m).2 := by
  generalize hv : (⟨m, [a]⟩ : World ρ) = v at h
  cases h with
  | @read t i next ht =>
    subst hv
    obtain ⟨hl, he⟩ := List.getElem?_eq_some_iff.1 ht
    obtain rfl : t = 0 := by simpa using hl
    obtain rfl : a = _ := he
    exact ⟨_, _, rfl, rfl⟩
  | @write t i x next ht =>
    subst hv
    obtain ⟨hl, he⟩ := List.getElem?_eq_some_iff.1 ht
    obtain rfl : t = 0 := by simpa using hl
    obtain rfl : a = _ := he
    exact ⟨_, _, rfl, rfl⟩

theorem steps_one {m : Cells} {a : Act ρ} {w : World ρ} (h : Steps ⟨m, [a]⟩ w) :
    ∃ m' a', w = ⟨m', [a']⟩ ∧ (finish a' m').2 = (finish a m).2 := by
  generalize hv : (⟨m, [a]⟩ : World ρ) = v at h
  induction h with
  | refl => exact ⟨m, a, hv.symm, rfl⟩
  | tail _ s ih =>
    obtain ⟨m', a', rfl, h2⟩ := ih
    obtain ⟨m'', a'', h3, h4⟩ := step_one s
    exact ⟨m'', a'', h3, h4.trans h2⟩

variable [GoRuntime]

/-- The pairs of DO UPDATE in the builder are sorted as `sort.Slice` does. -/
def Sorted (sorter : Nat → Sorter) (s : InsertStmt) : Prop :=
  ∀ p, s.action = .update p → p.isEmpty = false → p.mode = .associative →
    Sorts (sorter p.columns.length) p.columns

theorem finish_render {m : Cells} {s : InsertStmt} {sorter : Nat → Sorter}
    (he : s.action.isEmpty = false) (hs : Sorted sorter s)
    (hm : ∀ p, s.action = .update p → ∀ i (h : i < p.columns.length), m i = p.columns[i])
    (render : W → Go α) :
    (finish (Copy.render sorter render ⟨s, .own s.target, true⟩) m).2 =
      render (Stmt.insert s).write := by
  unfold Copy.render
  simp only
  split
  · next p _ ha =>
    have hp : p.isEmpty = false := by rw [ha] at he; exact he
    unfold renderingBy
    by_cases hmode : p.mode = .associative
    · have hk : keyValues (Stmt.insert s) = some p := by
        simp only [keyValues, ha, if_pos hmode]
      obtain ⟨h1, h2⟩ := hs p ha hp hmode
      rw [hk]
      simp only
      rw [DeriveUpdate.One.finish_act, finish_readCells, List.nil_append]
      have e : (List.range p.columns.length).map ((sorter p.columns.length).run m) =
          GoRuntime.sortSlice columnLess p.columns := by
        rw [← h2]
        refine List.map_congr_left fun i hi => ?_
        refine DeriveUpdate.One.run_congr h1 (fun j hj => ?_) i (List.mem_range.1 hi)
        rw [Concurrent.arrayOf_lt hj]
        exact hm p ha j hj
      rw [e, Concurrent.write_eq hk]
      rfl
    · have hk : keyValues (Stmt.insert s) = none := by
        simp only [keyValues, ha, if_neg hmode]
      rw [hk]
      rfl
  · rfl

theorem finish_goroutine {cap : Nat} {sorter : Nat → Sorter} {m : Cells} (render : W → Go α) :
    ∀ (cs : List InsCall) (s : InsertStmt), s.action.isEmpty = false → Sorted sorter s →
      (∀ p, s.action = .update p → ∀ i (h : i < p.columns.length), m i = p.columns[i]) →
      (finish (goroutine cap sorter render cs ⟨s, .own s.target, true⟩) m).2 =
        Job.alone ⟨cs, render⟩ s
  | [], s, he, hs, hm => finish_render he hs hm render
  | c :: cs, s, he, hs, hm => by
    by_cases hc : ∃ args, c = .onConflict args
    · obtain ⟨args, rfl⟩ := hc
      simp only [goroutine, Copy.call, Copy.OnConflict, Job.alone, runAll, InsCall.apply,
        InsertStmt.OnConflict, he, Bool.not_false, if_true, finish]
      rfl
    · have hc' : ∀ args, c ≠ .onConflict args := fun args h => hc ⟨args, h⟩
      rw [goroutine, call_other hc']
      simp only [Copy.other, Job.alone, runAll]
      cases h : c.apply s with
      | error p => rfl
      | ok s' =>
        have h1 := other_action hc' h
        have h2 := other_target hc' h
        have ih := finish_goroutine (cap := cap) (sorter := sorter) (m := m) render cs s'
          (by rw [h1]; exact he) (by unfold Sorted; rw [h1]; exact hs) (by rw [h1]; exact hm)
        rw [h2] at ih
        exact ih

end Verif.DeriveInsert.One
