import Verif.Spec.Returning
import Verif.Lemmas.Rows

/-!
# Lemmas for C77
-/

namespace Verif.Returning
open Spec

theorem del_returned : ∀ (steps : List DelStep) {d d' : SqlDelete},
    runSteps DelStep.on steps d = some d' →
    d'.returning = d.returning ++ steps.flatMap DelStep.returned := by
  intro steps
  induction steps with
  | nil => intro d d' h; cases h; simp
  | cons c steps ih =>
    intro d d' h
    rw [runSteps] at h
    split at h
    · cases h
    next d1 h1 =>
    rw [ih h, List.flatMap_cons, ← List.append_assoc]
    congr 1
    cases c <;> simp only [DelStep.on] at h1
    all_goals (repeat' split at h1)
    all_goals cases h1
    all_goals simp_all [DelStep.returned]

theorem upd_returned : ∀ (steps : List UpdStep) {u u' : SqlUpdate},
    runSteps UpdStep.on steps u = some u' →
    u'.returning = u.returning ++ steps.flatMap UpdStep.returned := by
  intro steps
  induction steps with
  | nil => intro d d' h; cases h; simp
  | cons c steps ih =>
    intro d d' h
    rw [runSteps] at h
    split at h
    · cases h
    next d1 h1 =>
    rw [ih h, List.flatMap_cons, ← List.append_assoc]
    congr 1
    cases c <;> simp only [UpdStep.on, Option.map_eq_some_iff] at h1
    all_goals (repeat' split at h1)
    all_goals first | (obtain ⟨_, _, rfl⟩ := h1) | cases h1
    all_goals simp_all [UpdStep.returned]

theorem ins_returned : ∀ (steps : List InsStep) {i i' : SqlInsert},
    runSteps InsStep.on steps i = some i' →
    i'.returning = i.returning ++ steps.flatMap InsStep.returned := by
  intro steps
  induction steps with
  | nil => intro d d' h; cases h; simp
  | cons c steps ih =>
    intro d d' h
    rw [runSteps] at h
    split at h
    · cases h
    next d1 h1 =>
    rw [ih h, List.flatMap_cons, ← List.append_assoc]
    congr 1
    cases c <;> simp only [InsStep.on] at h1
    all_goals (repeat' split at h1)
    all_goals cases h1
    all_goals simp_all [InsStep.returned]

/-! ## DELETE -/

theorem filter_find {A B : Type} (f : A → List B) (p : B → Bool) : ∀ l : List A,
    (l.filterMap fun a => (f a).find? p).length + (l.filter fun a => !(f a).any p).length = l.length
  | [] => rfl
  | a :: l => by
    have ih := filter_find f p l
    rw [List.filterMap_cons, List.filter_cons]
    cases h : (f a).find? p with
    | none =>
      have : (f a).any p = false := by
        rw [List.any_eq_false]; rw [List.find?_eq_none] at h; simpa using h
      simp only [this, Bool.not_false, if_true, List.length_cons]
      omega
    | some b =>
      have : (f a).any p = true := by
        rw [List.any_eq_true]
        exact ⟨b, List.mem_of_find?_eq_some h, List.find?_some h⟩
      simp only [this, Bool.not_true, Bool.false_eq_true, if_false, List.length_cons]
      omega

/-! ## INSERT -/

theorem find_none_any {A : Type} {p : A → Bool} {l : List A} (h : l.find? p = none) :
    l.any p = false := by
  rw [List.any_eq_false]; rw [List.find?_eq_none] at h; exact h

theorem find_some_any {A : Type} {p : A → Bool} {l : List A} {a : A} (h : l.find? p = some a) :
    l.any p = true := by
  rw [List.any_eq_true]
  exact ⟨a, List.mem_of_find?_eq_some h, List.find?_some h⟩

theorem change_spec {D : Database} {target : List Ref} {f : SqlRow → SqlRow → SqlRow} {new : SqlRow} :
    ∀ {rows rows' : List (SqlRow × Bool)} {x : SqlRow × Bool},
    D.change target f new rows = some rows' →
    (rows.find? fun r => D.clash target r.1 new) = some x →
    (f x.1 new, true) ∈ rows' ∧ (∀ r, (r, true) ∈ rows → (r, true) ∈ rows') ∧
      rows'.length = rows.length
  | [], _, _, _, h2 => by simp at h2
  | (r, w) :: rows, rows', x, h1, h2 => by
    rw [Database.change] at h1
    rw [List.find?_cons] at h2
    split at h1
    · next hc =>
      simp only [hc] at h2
      cases h2
      split at h1
      · cases h1
      · next hw =>
        cases h1
        simp only [Bool.not_eq_true] at hw
        subst hw
        refine ⟨List.mem_cons_self, ?_, rfl⟩
        intro r' hr
        simp only [List.mem_cons, Prod.mk.injEq, Bool.true_eq_false, and_false, false_or] at hr
        exact List.mem_cons_of_mem _ hr
    · next hc =>
      simp only [Bool.not_eq_true] at hc
      simp only [hc] at h2
      rw [Option.map_eq_some_iff] at h1
      obtain ⟨l, h3, rfl⟩ := h1
      obtain ⟨i1, i2, i3⟩ := change_spec h3 h2
      refine ⟨List.mem_cons_of_mem _ i1, ?_, by simp [i3]⟩
      intro r' hr
      rcases List.mem_cons.1 hr with hr | hr
      · rw [hr]; exact List.mem_cons_self
      · exact List.mem_cons_of_mem _ (i2 r' hr)

theorem insertOne_spec {D : Database} {target : List Ref} {how : Resolve} {new : SqlRow}
    {rows rows' : List (SqlRow × Bool)} (h : D.insertOne target how rows new = some rows') :
    (∀ r, D.writes target how rows new = some r → (r, true) ∈ rows') ∧
      (∀ r, (r, true) ∈ rows → (r, true) ∈ rows') ∧
      (how = none → rows'.length = rows.length + (D.writes target how rows new).toList.length) ∧
      (how.isSome = true → (D.writes target how rows new).toList.length = 1) := by
  unfold Database.insertOne at h
  unfold Database.writes
  cases hf : rows.find? fun r => D.clash target r.1 new with
  | none =>
    rw [find_none_any hf] at h
    cases h
    refine ⟨?_, ?_, ?_, ?_⟩
    · intro r hr; cases hr; simp
    · intro r hr; exact List.mem_append_left _ hr
    · intro _; simp
    · intro _; simp
  | some x =>
    rw [find_some_any hf, if_pos rfl] at h
    cases how with
    | none =>
      cases h
      exact ⟨fun r hr => by simp at hr, fun r hr => hr, fun _ => by simp, fun h => by simp at h⟩
    | some f =>
      obtain ⟨i1, i2, i3⟩ := change_spec h hf
      refine ⟨fun r hr => ?_, i2, fun h => by simp at h, fun _ => by simp⟩
      cases hr
      exact i1

/-- The rows that are written are there in the end. -/
theorem written_spec {D : Database} {target : List Ref} {how : Resolve} :
    ∀ (news : List SqlRow) {rows zs : List (SqlRow × Bool)},
      news.foldlM (D.insertOne target how) rows = some zs →
      ∃ l, D.written target how rows news = some l ∧ (∀ r ∈ l, (r, true) ∈ zs) ∧
        (∀ r, (r, true) ∈ rows → (r, true) ∈ zs) ∧
        (how = none → zs.length = rows.length + l.length) ∧
        (how.isSome = true → l.length = news.length)
  | [], rows, zs, h => by
    cases h
    exact ⟨[], rfl, by simp, fun _ h => h, by simp, by simp⟩
  | n :: news, rows, zs, h => by
    rw [List.foldlM_cons] at h
    cases h1 : D.insertOne target how rows n with
    | none => rw [h1] at h; cases h
    | some rows' =>
      rw [h1] at h
      obtain ⟨l, j1, j2, j3, j4, j5⟩ := written_spec news (rows := rows') h
      obtain ⟨k1, k2, k3, k4⟩ := insertOne_spec h1
      refine ⟨(D.writes target how rows n).toList ++ l, ?_, ?_, fun r hr => j3 r (k2 r hr), ?_, ?_⟩
      · rw [Database.written, h1, Option.bind_some, j1]; rfl
      · intro r hr
        rcases List.mem_append.1 hr with hr | hr
        · exact j3 r (k1 r (by simpa using hr))
        · exact j2 r hr
      · intro hn
        rw [j4 hn, k3 hn, List.length_append]; omega
      · intro hn
        rw [List.length_append, k4 hn, j5 hn, List.length_cons]; omega

/-- The rows that an INSERT writes are in the table after it. There is one for each row given, except
that with DO NOTHING there is one for each row by which the table has become longer. -/
theorem writtenAll_spec {D : Database} {how : Option (List Ref × Resolve)}
    {news rows after : List SqlRow} (h : D.insertAll how news rows = some after) :
    ∃ l, D.writtenAll how news rows = some l ∧ (∀ r ∈ l, r ∈ after) ∧
      ((∀ c, how = some c → c.2 = none) → after.length = rows.length + l.length) ∧
      ((∀ c, how = some c → c.2.isSome = true) → l.length = news.length) := by
  unfold Database.insertAll at h
  unfold Database.writtenAll
  cases how with
  | none =>
    cases h
    exact ⟨news, rfl, fun r hr => List.mem_append_right _ hr, fun _ => by simp, fun _ => rfl⟩
  | some c =>
    obtain ⟨target, how⟩ := c
    simp only [Option.map_eq_some_iff] at h
    obtain ⟨zs, h1, rfl⟩ := h
    obtain ⟨l, j1, j2, _, j4, j5⟩ := written_spec news h1
    refine ⟨l, j1, fun r hr => List.mem_map.2 ⟨_, j2 r hr, rfl⟩, fun hn => ?_, fun hn => ?_⟩
    · simpa using j4 (hn _ rfl)
    · exact j5 (hn _ rfl)

end Verif.Returning
