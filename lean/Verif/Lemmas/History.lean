import Verif.Spec.History

/-!
# Programs that use every builder once extend no clause twice
-/

namespace Verif
open Spec

variable {K N S C : Type} [DecidableEq K]

/-- Builders that have not been used have clauses of their own. -/
structure OwnClauses (used : List Nat) (h : Hist K S) : Prop where
  fresh : ∀ i e, h.entries[i]? = some e → i ∉ used → ∀ k, (k, e.since k) ∉ h.spent
  apart : ∀ i j e f, h.entries[i]? = some e → h.entries[j]? = some f → i ∉ used → j ∉ used →
    i ≠ j → ∀ k, e.since k ≠ f.since k
  old : ∀ (i : Nat) e, h.entries[i]? = some e → ∀ k, e.since k < h.entries.length
  spent : ∀ k v, (k, v) ∈ h.spent → v < h.entries.length

theorem snoc_cases {α : Type} {l : List α} {x y : α} {i : Nat} (h : (l ++ [x])[i]? = some y) :
    (i < l.length ∧ l[i]? = some y) ∨ (i = l.length ∧ x = y) := by
  rcases Nat.lt_trichotomy i l.length with hi | hi | hi
  · rw [List.getElem?_append_left hi] at h; exact .inl ⟨hi, h⟩
  · subst hi; simp at h; exact .inr ⟨rfl, h⟩
  · rw [List.getElem?_eq_none (by simp; omega)] at h; cases h

theorem ownClauses_step (init : N → S) (apply : C → S → Go S) (clause : C → K) {used : List Nat}
    {h : Hist K S} (ho : OwnClauses used h) (op : Act N C) (hu : ∀ i c, op = .call i c → i ∉ used) :
    OwnClauses (receivers [op] ++ used) (h.step init apply clause op) := by
  cases op with
  | render i b => exact ho
  | new n =>
    refine ⟨?_, ?_, ?_, ?_⟩
    · intro i e he hi k
      rcases snoc_cases he with ⟨_, he⟩ | ⟨_, he⟩
      · exact ho.fresh i e he hi k
      · subst he
        intro hm
        exact absurd (ho.spent _ _ hm) (Nat.lt_irrefl _)
    · intro i j e f he hf hi hj hij k
      rcases snoc_cases he with ⟨_, he⟩ | ⟨hi', he⟩ <;> rcases snoc_cases hf with ⟨_, hf⟩ | ⟨hj', hf⟩
      · exact ho.apart i j e f he hf hi hj hij k
      · subst hf; exact Nat.ne_of_lt (ho.old i e he k)
      · subst he; exact (Nat.ne_of_lt (ho.old j f hf k)).symm
      · omega
    · intro i e he k
      simp only [Hist.step, List.length_append, List.length_singleton]
      rcases snoc_cases he with ⟨_, he⟩ | ⟨_, he⟩
      · have := ho.old i e he k; omega
      · subst he; simp only; omega
    · intro k v hv
      have := ho.spent k v hv
      simp only [Hist.step, List.length_append, List.length_singleton]; omega
  | call i c =>
    have hiu : i ∉ used := hu i c rfl
    show OwnClauses (i :: used) _
    cases hg : h.entries[i]? with
    | none =>
      simp only [Hist.step, hg]
      exact ⟨fun j e he hj => ho.fresh j e he fun x => hj (List.mem_cons_of_mem _ x),
        fun j k e f he hf hj hk => ho.apart j k e f he hf (fun x => hj (List.mem_cons_of_mem _ x))
          (fun x => hk (List.mem_cons_of_mem _ x)), ho.old, ho.spent⟩
    | some e0 =>
      have hfr : ∀ j e, h.entries[j]? = some e → j ∉ i :: used →
          ∀ k, (k, e.since k) ∉ (clause c, e0.since (clause c)) :: h.spent := by
        intro j e he hj k hm
        rcases List.mem_cons.1 hm with hm | hm
        · have hk := (Prod.mk.inj hm)
          have hji : j ≠ i := fun x => hj (by rw [x]; exact List.mem_cons_self)
          refine ho.apart j i e e0 he hg (fun x => hj (List.mem_cons_of_mem _ x)) hiu hji k ?_
          rw [hk.2, hk.1]
        · exact ho.fresh j e he (fun x => hj (List.mem_cons_of_mem _ x)) k hm
      have hsp : ∀ k v, (k, v) ∈ (clause c, e0.since (clause c)) :: h.spent →
          v < h.entries.length := by
        intro k v hm
        rcases List.mem_cons.1 hm with hm | hm
        · rw [(Prod.mk.inj hm).2]; exact ho.old i e0 hg _
        · exact ho.spent k v hm
      simp only [Hist.step, hg]
      cases apply c e0.stmt with
      | error p =>
        exact ⟨hfr, fun j k e f he hf hj hk =>
          ho.apart j k e f he hf (fun x => hj (List.mem_cons_of_mem _ x))
            (fun x => hk (List.mem_cons_of_mem _ x)), ho.old, hsp⟩
      | ok b =>
        refine ⟨?_, ?_, ?_, ?_⟩
        · intro j e he hj k
          rcases snoc_cases he with ⟨_, he⟩ | ⟨_, he⟩
          · exact hfr j e he hj k
          · subst he
            simp only
            intro hm
            split at hm
            · exact absurd (hsp _ _ hm) (Nat.lt_irrefl _)
            · rename_i hk
              rcases List.mem_cons.1 hm with hm | hm
              · exact hk (Prod.mk.inj hm).1
              · exact ho.fresh i e0 hg hiu k hm
        · intro j j' e f he hf hj hj' hne k
          rcases snoc_cases he with ⟨_, he⟩ | ⟨h1, he⟩ <;>
            rcases snoc_cases hf with ⟨_, hf⟩ | ⟨h2, hf⟩
          · exact ho.apart j j' e f he hf (fun x => hj (List.mem_cons_of_mem _ x))
              (fun x => hj' (List.mem_cons_of_mem _ x)) hne k
          · subst hf
            simp only
            split
            · exact Nat.ne_of_lt (ho.old j e he k)
            · exact ho.apart j i e e0 he hg (fun x => hj (List.mem_cons_of_mem _ x)) hiu
                (fun x => hj (by rw [x]; exact List.mem_cons_self)) k
          · subst he
            simp only
            split
            · exact (Nat.ne_of_lt (ho.old j' f hf k)).symm
            · exact (ho.apart j' i f e0 hf hg (fun x => hj' (List.mem_cons_of_mem _ x)) hiu
                (fun x => hj' (by rw [x]; exact List.mem_cons_self)) k).symm
          · omega
        · intro j e he k
          simp only [List.length_append, List.length_singleton]
          rcases snoc_cases he with ⟨_, he⟩ | ⟨_, he⟩
          · have := ho.old j e he k; omega
          · subst he
            simp only
            split
            · omega
            · have := ho.old i e0 hg k; omega
        · intro k v hm
          have := hsp k v hm
          simp only [List.length_append, List.length_singleton]; omega

theorem receivers_cons (op : Act N C) (l : List (Act N C)) :
    receivers (op :: l) = receivers [op] ++ receivers l := by
  cases op <;> rfl

theorem extendsOnce_of_own (init : N → S) (apply : C → S → Go S) (clause : C → K) (acc : K → Bool)
    (ops : List (Act N C)) : ∀ (used : List Nat) (h : Hist K S), OwnClauses used h →
      (receivers ops).Nodup → (∀ i, i ∈ receivers ops → i ∉ used) →
      ExtendsOnce init apply clause acc h ops := by
  induction ops with
  | nil => intros; trivial
  | cons op l ih =>
    intro used h ho hn hu
    rw [receivers_cons] at hn hu
    have hn' := List.nodup_append.1 hn
    have hop : ∀ i c, op = .call i c → i ∉ used := by
      intro i c he
      apply hu
      subst he
      exact List.mem_append.2 (.inl List.mem_cons_self)
    refine ⟨?_, ih _ _ (ownClauses_step init apply clause ho op hop) hn'.2.1 ?_⟩
    · cases op with
      | call i c =>
        intro e he _
        exact ho.fresh i e he (hop i c rfl) _
      | _ => trivial
    · intro i hi hm
      rcases List.mem_append.1 hm with hm | hm
      · exact hn'.2.2 i hm i hi rfl
      · exact hu i (List.mem_append.2 (.inr hi)) hm

/-- Using every builder for at most one further call, no clause is extended twice. -/
theorem extendsOnce_of_linear (init : N → S) (apply : C → S → Go S) (clause : C → K) (acc : K → Bool)
    {ops : List (Act N C)} (h : Linear ops) :
    ExtendsOnce init apply clause acc ⟨[], []⟩ ops :=
  extendsOnce_of_own init apply clause acc ops [] _
    ⟨by simp, by simp, by simp, by simp⟩ h fun _ _ => by simp

/-- The account of builders is that of the ideal program. -/
theorem step_ideal (init : N → S) (apply : C → S → Go S) (clause : C → K) (h : Hist K S) (op : Act N C) :
    (h.step init apply clause op).entries.map (·.stmt) =
      idealStep init apply (h.entries.map (·.stmt)) op := by
  cases op with
  | new n => simp [Hist.step, idealStep]
  | render i b => rfl
  | call i c =>
    simp only [Hist.step, idealStep, List.getElem?_map]
    cases h.entries[i]? with
    | none => rfl
    | some e =>
      simp only [Option.map_some]
      cases apply c e.stmt with
      | error p => rfl
      | ok b => simp

/-- The clauses extended, of one kind. -/
def spentOf {K : Type} [DecidableEq K] (spent : List (K × Nat)) (k : K) : List Nat :=
  (spent.filter (·.1 = k)).map (·.2)

theorem mem_spentOf {K : Type} [DecidableEq K] {spent : List (K × Nat)} {k : K} {v : Nat} :
    v ∈ spentOf spent k ↔ (k, v) ∈ spent := by
  unfold spentOf
  simp only [List.mem_map, List.mem_filter, decide_eq_true_eq, Prod.exists, exists_eq_right]

theorem spentOf_cons_self {K : Type} [DecidableEq K] {spent : List (K × Nat)} {k : K} {v : Nat} :
    spentOf ((k, v) :: spent) k = v :: spentOf spent k := by
  simp [spentOf]

theorem spentOf_cons_ne {K : Type} [DecidableEq K] {spent : List (K × Nat)} {k j : K} {v : Nat}
    (h : j ≠ k) : spentOf ((j, v) :: spent) k = spentOf spent k := by
  simp [spentOf, h]

instance (clause : C → K) (acc : K → Bool) (h : Hist K S) (op : Act N C) :
    Decidable (h.Allows clause acc op) :=
  match op with
  | .new _ => .isTrue trivial
  | .render _ _ => .isTrue trivial
  | .call i c =>
    match he : h.entries[i]? with
    | none => .isTrue fun e h1 => by rw [he] at h1; cases h1
    | some e =>
      if h2 : acc (clause c) = true → (clause c, e.since (clause c)) ∉ h.spent then
        .isTrue fun e' h1 => by rw [he] at h1; cases h1; exact h2
      else .isFalse fun h1 => h2 (h1 e he)

instance extendsOnceDecidable (init : N → S) (apply : C → S → Go S) (clause : C → K)
    (acc : K → Bool) : ∀ (ops : List (Act N C)) (h : Hist K S),
    Decidable (ExtendsOnce init apply clause acc h ops)
  | [], _ => .isTrue trivial
  | op :: l, h =>
    have := extendsOnceDecidable init apply clause acc l (h.step init apply clause op)
    inferInstanceAs (Decidable (_ ∧ _))

theorem extendsOnce_append (init : N → S) (apply : C → S → Go S) (clause : C → K) (acc : K → Bool)
    (ops ops' : List (Act N C)) : ∀ (h : Hist K S),
    ExtendsOnce init apply clause acc h (ops ++ ops') → ExtendsOnce init apply clause acc h ops := by
  induction ops with
  | nil => intros; trivial
  | cons op l ih => exact fun h he => ⟨he.1, ih _ he.2⟩

/-- Builders stay, and what has been extended stays so. -/
theorem hist_grows (init : N → S) (apply : C → S → Go S) (clause : C → K) (ops : List (Act N C)) :
    ∀ (h : Hist K S), (∃ l, (ops.foldl (Hist.step init apply clause) h).entries = h.entries ++ l) ∧
      ∀ x ∈ h.spent, x ∈ (ops.foldl (Hist.step init apply clause) h).spent := by
  induction ops with
  | nil => exact fun h => ⟨⟨[], by simp⟩, fun _ hx => hx⟩
  | cons op l ih =>
    intro h
    obtain ⟨⟨m, h1⟩, h2⟩ := ih (h.step init apply clause op)
    have h3 : (∃ m', (h.step init apply clause op).entries = h.entries ++ m') ∧
        ∀ x ∈ h.spent, x ∈ (h.step init apply clause op).spent := by
      cases op with
      | new n => exact ⟨⟨_, rfl⟩, fun _ hx => hx⟩
      | render i b => exact ⟨⟨[], by simp [Hist.step]⟩, fun _ hx => hx⟩
      | call i c =>
        simp only [Hist.step]
        cases h.entries[i]? with
        | none => exact ⟨⟨[], by simp⟩, fun _ hx => hx⟩
        | some e =>
          simp only
          cases apply c e.stmt with
          | error p => exact ⟨⟨[], by simp⟩, fun _ hx => List.mem_cons_of_mem _ hx⟩
          | ok b => exact ⟨⟨_, rfl⟩, fun _ hx => List.mem_cons_of_mem _ hx⟩
    obtain ⟨⟨m', h4⟩, h5⟩ := h3
    exact ⟨⟨m' ++ m, by rw [List.foldl_cons, h1, h4, List.append_assoc]⟩, fun x hx => h2 x (h5 x hx)⟩

end Verif
