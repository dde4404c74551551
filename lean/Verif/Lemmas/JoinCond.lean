import Verif.Spec.OnTree
import Verif.Lemmas.JoinText

/-!
# Lemmas about the conditions of joins
-/

set_option linter.unusedSectionVars false

namespace Verif
open Spec

theorem onTree_link (acc : Expr) (t : Cond (Str × Str)) (h : onTree acc = some t)
    (ls : List JoinLink) :
    onTree (linkExpr acc ls) = some (leftTree t (ls.map fun l => (l.conn, (l.left, l.right)))) := by
  induction ls generalizing acc t with
  | nil => exact h
  | cons l ls ih =>
    refine ih _ _ ?_
    cases hc : l.conn <;> simp [onTree, h, Conn.word, Cond.join]

theorem truth_or_assoc (a b c : Truth) : (a.or b).or c = a.or (b.or c) := by
  cases a <;> cases b <;> cases c <;> rfl

/-- The value of the left-grouped tree. -/
def leftEval {α : Type} (ν : α → Truth) (acc : Truth) : List (Conn × α) → Truth
  | [] => acc
  | (.and, a) :: l => leftEval ν (acc.and (ν a)) l
  | (.or, a) :: l => leftEval ν (acc.or (ν a)) l

theorem eval_leftTree {α : Type} (ν : α → Truth) (t : Cond α) (l : List (Conn × α)) :
    (leftTree t l).eval ν = leftEval ν (t.eval ν) l := by
  induction l generalizing t with
  | nil => rfl
  | cons x l ih =>
    obtain ⟨c, a⟩ := x
    rw [leftTree, ih]
    cases c <;> rfl

theorem leftEval_or {α : Type} (ν : α → Truth) (l : List (Conn × α))
    (h : ∀ c ∈ l.map (·.1), c = Conn.or) (x y : Truth) :
    leftEval ν (x.or y) l = x.or (leftEval ν y l) := by
  induction l generalizing y with
  | nil => rfl
  | cons e l ih =>
    obtain ⟨c, a⟩ := e
    have hc : c = .or := h c (by simp)
    subst hc
    rw [leftEval, leftEval, truth_or_assoc, ih (fun c hc => h c (List.mem_cons_of_mem _ hc))]

theorem leftEval_flat_or {α : Type} (ν : α → Truth) (l : List (Conn × α))
    (h : ∀ c ∈ l.map (·.1), c = Conn.or) (x : Truth) : leftEval ν x l = flatEval ν x l := by
  induction l generalizing x with
  | nil => rfl
  | cons e l ih =>
    obtain ⟨c, a⟩ := e
    have hc : c = .or := h c (by simp)
    subst hc
    have hl := fun c hc => h c (List.mem_cons_of_mem _ hc)
    rw [leftEval, flatEval, leftEval_or ν l hl, ih hl]

theorem leftEval_flat {α : Type} (ν : α → Truth) (l : List (Conn × α))
    (h : noAndAfterOr (l.map (·.1))) (x : Truth) : leftEval ν x l = flatEval ν x l := by
  induction l generalizing x with
  | nil => rfl
  | cons e l ih =>
    obtain ⟨c, a⟩ := e
    cases c with
    | and => rw [leftEval, flatEval]; exact ih h _
    | or =>
      have hl : ∀ c ∈ l.map (·.1), c = Conn.or := h
      rw [leftEval, flatEval, leftEval_or ν l hl, leftEval_flat_or ν l hl]

theorem flatEval_yes {α : Type} (ν : α → Truth) (l1 l2 : List (Conn × α)) (b : α)
    (h : ∀ x ∈ l1, x.1 = Conn.and ∧ ν x.2 = .yes) :
    flatEval ν .yes (l1 ++ (.or, b) :: l2) = .yes := by
  induction l1 with
  | nil => simp [flatEval, Truth.or]
  | cons e l ih =>
    obtain ⟨c, a⟩ := e
    obtain ⟨hc, ha⟩ := h _ List.mem_cons_self
    simp only at hc ha
    subst hc
    rw [List.cons_append, flatEval, ha]
    exact ih (fun x hx => h x (List.mem_cons_of_mem _ hx))

theorem leftEval_append {α : Type} (ν : α → Truth) (x : Truth) (l1 l2 : List (Conn × α)) :
    leftEval ν x (l1 ++ l2) = leftEval ν (leftEval ν x l1) l2 := by
  induction l1 generalizing x with
  | nil => rfl
  | cons e l ih => obtain ⟨c, a⟩ := e; cases c <;> exact ih _

theorem leftEval_no {α : Type} (ν : α → Truth) (l : List (Conn × α)) (h : ∀ x ∈ l, ν x.2 = .no) :
    leftEval ν .no l = .no := by
  induction l with
  | nil => rfl
  | cons e l ih =>
    obtain ⟨c, a⟩ := e
    have ha := h _ List.mem_cons_self
    simp only at ha
    have := ih (fun x hx => h x (List.mem_cons_of_mem _ hx))
    cases c
    · rw [leftEval, ha]; exact this
    · rw [leftEval, ha]; exact this

theorem split_and_after_or {α : Type} (l : List (Conn × α)) (h : ¬ noAndAfterOr (l.map (·.1))) :
    ∃ l1 b m c l3, l = l1 ++ (.or, b) :: (m ++ (.and, c) :: l3) ∧ (∀ x ∈ l1, x.1 = Conn.and) := by
  induction l with
  | nil => exact absurd trivial h
  | cons e l ih =>
    obtain ⟨c, a⟩ := e
    cases c with
    | and =>
      obtain ⟨l1, b, m, c, l3, h1, h2⟩ := ih h
      refine ⟨(.and, a) :: l1, b, m, c, l3, by rw [h1]; rfl, ?_⟩
      intro x hx
      rcases List.mem_cons.1 hx with rfl | hx
      · rfl
      · exact h2 x hx
    | or =>
      have h' : ¬ ∀ c ∈ l.map (·.1), c = Conn.or := h
      simp only [Classical.not_forall] at h'
      obtain ⟨c, hc, hne⟩ := h'
      have hc' : c = .and := by cases c with
        | and => rfl
        | or => exact absurd rfl hne
      subst hc'
      obtain ⟨x, hx, hx1⟩ := List.mem_map.1 hc
      obtain ⟨m, l3, hml⟩ := List.append_of_mem hx
      obtain ⟨c, d⟩ := x
      simp only at hx1
      subst hx1
      exact ⟨[], a, m, d, l3, by rw [hml]; rfl, by simp⟩


theorem comparisons_skip (pre toks : List Tok) :
    List.Sublist (comparisons toks) (comparisons (pre ++ toks)) := by
  induction pre with
  | nil => exact List.Sublist.refl _
  | cons a pre ih =>
    rw [List.cons_append, comparisons]
    exact ih.trans (List.sublist_append_right _ _)

theorem comparisons_here (a e b : Tok) (toks : List Tok) (ha : a.type = s%"Literal")
    (he : e.type = s%"=") (hb : b.type = s%"Literal") :
    List.Sublist ((a.value, b.value) :: comparisons toks) (comparisons (a :: e :: b :: toks)) := by
  rw [comparisons]
  simp only [comparisonAt, ha, he, hb, and_self, if_true]
  exact List.Sublist.cons_cons _ (comparisons_skip [e, b] toks)

/-- What is known of the condition while the parser runs. -/
def condKnown (A : List (Str × Str)) (ic : Bool) (e : Expr) : Prop :=
  (ic = false ∧ e = .nil) ∨ ∃ t, onTree e = some t ∧ List.Sublist t.atoms A

theorem condKnown_leave {A : List (Str × Str)} {ic : Bool} {e : Expr} (h : condKnown A ic e) :
    condKnown A false e := by
  rcases h with h | h
  · exact .inl ⟨rfl, h.2⟩
  · exact .inr h

theorem parseLoop_comparisons (n : Nat) : ∀ (toks : List Tok), toks.length = n →
    ∀ (ic : Bool) (j : Join) (A : List (Str × Str)) (j' : Join), condKnown A ic j.cond →
      parseLoop ic j toks = .ok (some j') →
      j'.cond = .nil ∨ ∃ t, onTree j'.cond = some t ∧ List.Sublist t.atoms (A ++ comparisons toks) := by
  induction n using Nat.strongRecOn with
  | _ n ih =>
    have done : ∀ (ic : Bool) (j j' : Join) (A : List (Str × Str)) (toks : List Tok),
        condKnown A ic j.cond → (Except.ok (some j) : Go (Option Join)) = .ok (some j') →
        j'.cond = .nil ∨ ∃ t, onTree j'.cond = some t ∧
          List.Sublist t.atoms (A ++ comparisons toks) := by
      intro ic j j' A toks hk h
      injection h with h
      injection h with h
      subst h
      rcases hk with hk | ⟨t, h1, h2⟩
      · exact .inl hk.2
      · exact .inr ⟨t, h1, h2.trans (List.sublist_append_left _ _)⟩
    have step : ∀ (ic : Bool) (j : Join) (A B : List (Str × Str)) (j' : Join) (pre toks : List Tok),
        pre ≠ [] → (pre ++ toks).length = n → condKnown B ic j.cond →
        List.Sublist (B ++ comparisons toks) (A ++ comparisons (pre ++ toks)) →
        parseLoop ic j toks = .ok (some j') →
        j'.cond = .nil ∨ ∃ t, onTree j'.cond = some t ∧
          List.Sublist t.atoms (A ++ comparisons (pre ++ toks)) := by
      intro ic j A B j' pre toks hp hlen hk hs h
      have hlt : toks.length < n := by
        have := List.length_pos_iff.2 hp
        rw [← hlen, List.length_append]; omega
      rcases ih _ hlt toks rfl ic j B j' hk h with h | ⟨t, h1, h2⟩
      · exact .inl h
      · exact .inr ⟨t, h1, h2.trans hs⟩
    have skip : ∀ (ic : Bool) (j : Join) (A : List (Str × Str)) (j' : Join) (pre toks : List Tok),
        pre ≠ [] → (pre ++ toks).length = n → condKnown A ic j.cond →
        parseLoop ic j toks = .ok (some j') →
        j'.cond = .nil ∨ ∃ t, onTree j'.cond = some t ∧
          List.Sublist t.atoms (A ++ comparisons (pre ++ toks)) := by
      intro ic j A j' pre toks hp hlen hk h
      exact step ic j A A j' pre toks hp hlen hk
        (List.Sublist.append_left (comparisons_skip pre toks) A) h
    intro toks hlen ic j A j' hk h
    cases toks with
    | nil => rw [parseLoop] at h; exact done ic j j' A [] hk h
    | cons e rest =>
      rw [parseLoop.eq_def] at h
      simp only at h
      split at h
      · rename_i hcond
        simp only [Bool.and_eq_true, Bool.or_eq_true, decide_eq_true_eq] at hcond
        split at h
        · cases h
        · rename_i l rest
          split at h
          · cases h
          · rename_i hl
            split at h
            · cases h
            · rename_i eq rest
              split at h
              · cases h
              · rename_i heq
                split at h
                · cases h
                · rename_i r rest
                  split at h
                  · cases h
                  · rename_i hr
                    have hl := Classical.not_not.1 hl
                    have heq := Classical.not_not.1 heq
                    have hr := Classical.not_not.1 hr
                    obtain ⟨hic, hop⟩ := hcond
                    rcases hk with hk | ⟨t, h1, h2⟩
                    · rw [hic] at hk; exact absurd hk.1 (by simp)
                    · refine step _ _ A (A ++ [(l.value, r.value)]) j' [e, l, eq, r] rest (by simp)
                        (by simpa using hlen) ?_ ?_ h
                      · refine .inr ?_
                        have : ∀ c : Conn, onTree (.infx j.cond (.logical c.word)
                            (.onClause { name := l.value } { name := r.value }))
                            = some (t.join c (.atom (l.value, r.value))) := by
                          intro c; cases c <;> simp [onTree, h1, Conn.word, Cond.join]
                        have hat : ∀ c : Conn,
                            (t.join c (.atom (l.value, r.value))).atoms
                              = t.atoms ++ [(l.value, r.value)] := by
                          intro c; cases c <;> rfl
                        by_cases ha : e.type = Token.And
                        · refine ⟨t.join .and (.atom (l.value, r.value)), ?_, ?_⟩
                          · have := this .and
                            simpa [ha, Types.And, Conn.word] using this
                          · rw [hat]; exact h2.append_right _
                        · refine ⟨t.join .or (.atom (l.value, r.value)), ?_, ?_⟩
                          · have := this .or
                            simpa [ha, Types.Or, Conn.word] using this
                          · rw [hat]; exact h2.append_right _
                      · rw [List.append_assoc]
                        refine List.Sublist.append_left ?_ A
                        exact (comparisons_here l eq r rest hl heq hr).trans
                          (comparisons_skip [e] _)
      · split at h
        · exact skip _ _ A j' [e] rest (by simp) (by simpa using hlen) (condKnown_leave hk) h
        · split at h
          · split at h
            · exact done ic j j' A _ hk h
            · rename_i x rest
              split at h
              · exact skip _ { j with type := Types.InnerJoin } A j' [e, x] rest (by simp)
                  (by simpa using hlen) (condKnown_leave hk) h
              · exact done ic j j' A _ hk h
          · split at h
            · split at h
              · exact done ic j j' A _ hk h
              · rename_i x rest
                split at h
                · exact skip _ { j with type := Types.LeftJoin } A j' [e, x] rest (by simp)
                    (by simpa using hlen) (condKnown_leave hk) h
                · exact done ic j j' A _ hk h
            · split at h
              · split at h
                · exact done ic j j' A _ hk h
                · rename_i x rest
                  split at h
                  · exact skip _ { j with type := Types.RightJoin } A j' [e, x] rest (by simp)
                      (by simpa using hlen) (condKnown_leave hk) h
                  · exact done ic j j' A _ hk h
              · split at h
                · rename_i he
                  split at h
                  · exact done ic j j' A _ hk h
                  · rename_i x rest
                    split at h
                    · exact skip _ { j with table := { name := e.value } } A j' [e, x] rest
                        (by simp) (by simpa using hlen) (condKnown_leave hk) h
                    · split at h
                      · rename_i hx
                        split at h
                        · cases h
                        · rename_i y rest
                          split at h
                          · cases h
                          · rename_i hy
                            have hy := Classical.not_not.1 hy
                            refine step _ _ A [(e.value, y.value)] j' [e, x, y] rest (by simp)
                              (by simpa using hlen) ?_ ?_ h
                            · exact .inr ⟨.atom (e.value, y.value), by simp [onTree],
                                List.Sublist.refl _⟩
                            · exact (comparisons_here e x y rest he hx hy).trans
                                (List.sublist_append_right _ _)
                      · exact done ic j j' A _ hk h
                · split at h
                  · exact skip _ _ A j' [e] rest (by simp) (by simpa using hlen)
                      (condKnown_leave hk) h
                  · exact done ic j j' A _ hk h

end Verif
