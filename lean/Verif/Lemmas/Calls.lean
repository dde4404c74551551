import Verif.Spec.Calls
import Verif.Lemmas.Where

/-!
# Lemmas about calls and clauses
-/

set_option linter.unusedSectionVars false

namespace Verif
open Spec

/-! ## Outcomes -/

theorem same_refl {S : Type} (x : Go S) : SameOutcome x x := by
  cases x with
  | ok s => exact .inl ⟨s, rfl, rfl⟩
  | error p => exact .inr ⟨⟨p, rfl⟩, p, rfl⟩

theorem same_trans {S : Type} {x y z : Go S} (h : SameOutcome x y) (k : SameOutcome y z) :
    SameOutcome x z := by
  rcases h with ⟨s, rfl, rfl⟩ | ⟨⟨p, rfl⟩, q, rfl⟩
  · rcases k with ⟨t, h, rfl⟩ | ⟨⟨p, h⟩, _⟩
    · cases h; exact .inl ⟨s, rfl, rfl⟩
    · cases h
  · rcases k with ⟨t, h, rfl⟩ | ⟨_, k⟩
    · cases h
    · exact .inr ⟨⟨p, rfl⟩, k⟩

theorem same_symm {S : Type} {x y : Go S} (h : SameOutcome x y) : SameOutcome y x := by
  rcases h with ⟨s, rfl, rfl⟩ | ⟨h, k⟩
  · exact .inl ⟨s, rfl, rfl⟩
  · exact .inr ⟨k, h⟩

section
variable {S C : Type} {apply : C → S → Go S}

theorem runAll_append (l m : List C) (s : S) :
    runAll apply (l ++ m) s = match runAll apply l s with
      | .error p => .error p
      | .ok s' => runAll apply m s' := by
  induction l generalizing s with
  | nil => rfl
  | cons c l ih =>
    simp only [List.cons_append, runAll]
    cases apply c s with
    | error p => rfl
    | ok s' => exact ih s'

theorem runAll_congr {l l' m : List C} {s : S} (h : SameOutcome (runAll apply l s) (runAll apply l' s)) :
    SameOutcome (runAll apply (l ++ m) s) (runAll apply (l' ++ m) s) := by
  rw [runAll_append, runAll_append]
  rcases h with ⟨t, h, k⟩ | ⟨⟨p, h⟩, q, k⟩
  · rw [h, k]; exact same_refl _
  · rw [h, k]; exact .inr ⟨⟨p, rfl⟩, q, rfl⟩

theorem runAll_cons_congr {c : C} {l l' : List C} {s : S}
    (h : ∀ s, SameOutcome (runAll apply l s) (runAll apply l' s)) :
    SameOutcome (runAll apply (c :: l) s) (runAll apply (c :: l') s) := by
  simp only [runAll]
  cases apply c s with
  | error p => exact same_refl _
  | ok s' => exact h s'

/-- Moving a call to the front over calls with which it commutes. -/
theorem move_front {a : C} {p q : List C}
    (h : ∀ x ∈ p, ∀ s, SameOutcome (runAll apply [x, a] s) (runAll apply [a, x] s)) (s : S) :
    SameOutcome (runAll apply (p ++ a :: q) s) (runAll apply (a :: (p ++ q)) s) := by
  induction p generalizing s with
  | nil => exact same_refl _
  | cons x p ih =>
    have h1 := runAll_cons_congr (c := x) (s := s)
      (fun s => ih (fun y hy => h y (List.mem_cons_of_mem _ hy)) s)
    have h2 := runAll_congr (m := p ++ q) (h x List.mem_cons_self s)
    exact same_trans h1 h2

/-- Two sequences of calls in which, for every resource, the calls touching it are the same in the
same order, have the same outcome, if calls without common resource commute. -/
theorem reorder {R : Type} (touches : R → C → Bool) (hne : ∀ c, ∃ r, touches r c = true)
    (hswap : ∀ a b, (∀ r, touches r a = true → touches r b = false) →
      ∀ s, SameOutcome (runAll apply [a, b] s) (runAll apply [b, a] s))
    {l l' : List C} (h : ∀ r, l.filter (touches r) = l'.filter (touches r)) (s : S) :
    SameOutcome (runAll apply l s) (runAll apply l' s) := by
  induction l generalizing l' s with
  | nil =>
    cases l' with
    | nil => exact same_refl _
    | cons c l' =>
      obtain ⟨r, hr⟩ := hne c
      have := h r
      rw [List.filter_cons_of_pos hr] at this
      cases this
  | cons a l ih =>
    obtain ⟨r, hr⟩ := hne a
    -- the first call of `l'` on `r` is `a`
    obtain ⟨p, q, hl', hp⟩ : ∃ p q, l' = p ++ a :: q ∧ ∀ x ∈ p, touches r x = false := by
      have h0 := h r
      rw [List.filter_cons_of_pos hr] at h0
      clear h ih
      induction l' with
      | nil => cases h0
      | cons c l' ih =>
        by_cases hc : touches r c = true
        · rw [List.filter_cons_of_pos hc] at h0
          obtain ⟨rfl, _⟩ := List.cons.inj h0
          exact ⟨[], l', rfl, by simp⟩
        · rw [List.filter_cons_of_neg hc] at h0
          obtain ⟨p, q, rfl, hp⟩ := ih h0
          refine ⟨c :: p, q, rfl, ?_⟩
          intro x hx
          rcases List.mem_cons.1 hx with rfl | hx
          · simpa using hc
          · exact hp x hx
    subst hl'
    have hind : ∀ x ∈ p, ∀ r', touches r' a = true → touches r' x = false := by
      intro x hx r' har
      cases hxr : touches r' x with
      | false => rfl
      | true =>
        exfalso
        have h0 := h r'
        rw [List.filter_cons_of_pos har, List.filter_append] at h0
        have hmem : x ∈ p.filter (touches r') := List.mem_filter.2 ⟨hx, hxr⟩
        cases hf : p.filter (touches r') with
        | nil => rw [hf] at hmem; cases hmem
        | cons y m =>
          rw [hf] at h0
          obtain ⟨rfl, _⟩ := List.cons.inj h0
          have hy : a ∈ p.filter (touches r') := by rw [hf]; exact List.mem_cons_self
          have := hp a (List.mem_filter.1 hy).1
          rw [hr] at this
          cases this
    have hrest : ∀ r, l.filter (touches r) = (p ++ q).filter (touches r) := by
      intro r'
      have h0 := h r'
      rw [List.filter_append] at h0 ⊢
      by_cases har : touches r' a = true
      · have hpe : p.filter (touches r') = [] := by
          rw [List.filter_eq_nil_iff]
          intro x hx
          simp [hind x hx r' har]
        rw [List.filter_cons_of_pos har, hpe, List.filter_cons_of_pos har, List.nil_append] at h0
        rw [hpe, List.nil_append]
        exact (List.cons.inj h0).2
      · rw [List.filter_cons_of_neg har, List.filter_cons_of_neg har] at h0
        exact h0
    have h1 := runAll_cons_congr (c := a) (s := s) (fun s => ih hrest s)
    refine same_trans h1 (same_symm (move_front ?_ s))
    intro x hx s
    exact same_symm (hswap a x (hind x hx) s)

end

/-! ## Clauses as fields -/

/-- The clauses of a statement as fields that can be read and replaced. -/
structure Fields (S : Type) where
  /-- the fields -/
  K : Type
  /-- their contents -/
  T : K → Type
  /-- reading -/
  get : (k : K) → S → T k
  /-- replacing -/
  put : (k : K) → T k → S → S
  get_put : ∀ k x s, get k (put k x s) = x
  get_put_ne : ∀ j k x s, j ≠ k → get j (put k x s) = get j s
  put_comm : ∀ j k x y s, j ≠ k → put j x (put k y s) = put k y (put j x s)

namespace Fields
variable {S : Type} (F : Fields S)

/-- The function replaces field `k` by something that depends on the fields `k` and `r`. -/
def Local (f : S → Go S) (k r : F.K) : Prop :=
  ∀ s t, F.get k s = F.get k t → F.get r s = F.get r t →
    (∃ x, f s = .ok (F.put k x s) ∧ f t = .ok (F.put k x t)) ∨
      ((∃ p, f s = .error p) ∧ ∃ q, f t = .error q)

variable {F}

theorem Local.frame {f : S → Go S} {k r : F.K} (h : F.Local f k r) {s s' : S} (hs : f s = .ok s')
    {j : F.K} (hj : j ≠ k) : F.get j s' = F.get j s := by
  rcases h s s rfl rfl with ⟨x, h1, _⟩ | ⟨⟨p, h1⟩, _⟩
  · rw [h1] at hs; cases hs; exact F.get_put_ne j k x s hj
  · rw [h1] at hs; cases hs

theorem Local.swap {f g : S → Go S} {k r k' r' : F.K} (hf : F.Local f k r) (hg : F.Local g k' r')
    (h1 : k ≠ k') (h2 : r ≠ k') (h3 : r' ≠ k) (s : S) :
    SameOutcome (match f s with | .error p => .error p | .ok t => g t)
      (match g s with | .error p => .error p | .ok t => f t) := by
  have hf' : ∀ y, _ := fun y => hf s (F.put k' y s) (F.get_put_ne _ _ _ _ h1).symm
    (F.get_put_ne _ _ _ _ h2).symm
  have hg' : ∀ x, _ := fun x => hg s (F.put k x s) (F.get_put_ne _ _ _ _ (Ne.symm h1)).symm
    (F.get_put_ne _ _ _ _ h3).symm
  rcases hf s s rfl rfl with ⟨x, e1, _⟩ | ⟨⟨p, e1⟩, _⟩
  · rcases hg' x with ⟨y, e2, e3⟩ | ⟨⟨q, e2⟩, q', e3⟩
    · rcases hf' y with ⟨x', e4, e5⟩ | ⟨⟨p, e4⟩, _⟩
      · have hx : x' = x := by
          rw [e1] at e4
          have := congrArg (F.get k) (Except.ok.inj e4)
          rw [F.get_put, F.get_put] at this
          exact this.symm
        subst hx
        rw [e1, e2]
        exact .inl ⟨_, e3, by rw [F.put_comm _ _ _ _ _ (Ne.symm h1)]; exact e5⟩
      · rw [e1] at e4; cases e4
    · rw [e1, e2]
      exact .inr ⟨⟨q', e3⟩, q, rfl⟩
  · rcases hg s s rfl rfl with ⟨y, e2, _⟩ | ⟨⟨q, e2⟩, _⟩
    · rcases hf' y with ⟨x', e4, e5⟩ | ⟨_, p', e4⟩
      · rw [e1] at e4; cases e4
      · rw [e1, e2]
        exact .inr ⟨⟨p, rfl⟩, p', e4⟩
    · rw [e1, e2]
      exact .inr ⟨⟨p, rfl⟩, q, rfl⟩

end Fields

theorem runAll_two {S C : Type} {apply : C → S → Go S} (a b : C) (s : S) :
    runAll apply [a, b] s = match apply a s with
      | .error p => .error p
      | .ok t => apply b t := by
  simp only [runAll]
  cases apply a s with
  | error p => rfl
  | ok t => simp only; cases apply b t <;> rfl

theorem Fields.Local.commute {S C : Type} {F : Fields S} {apply : C → S → Go S} {a b : C}
    {k r k' r' : F.K} (hf : F.Local (apply a) k r) (hg : F.Local (apply b) k' r')
    (h1 : k ≠ k') (h2 : r ≠ k') (h3 : r' ≠ k) (s : S) :
    SameOutcome (runAll apply [a, b] s) (runAll apply [b, a] s) := by
  rw [runAll_two, runAll_two]
  exact hf.swap hg h1 h2 h3 s

/-! ## SELECT -/

/-- Replacing a clause. -/
def selPut : (c : SelClause) → c.Content → SelectStmt → SelectStmt
  | .distinctOn, x, b => { b with distinctOn := x }
  | .distinct, x, b => { b with distinct := x }
  | .columns, x, b => { b with exprs := x }
  | .from, x, b => { b with tables := x }
  | .joins, x, b => { b with joins := x }
  | .with, x, b => { b with withs := x }
  | .where, x, b => { b with whr := x }
  | .groupBy, x, b => { b with groupBy := x }
  | .having, x, b => { b with having := x }
  | .orderBy, x, b => { b with orderBy := x }
  | .limit, x, b => { b with limit := x }
  | .offset, x, b => { b with offset := x }
  | .suffix, x, b => { b with sfx := x }
  | .prefix, x, b => { b with pfx := x }
  | .comment, x, b => { b with comment := x }

/-- The clauses of SELECT as fields. -/
def selFields : Fields SelectStmt where
  K := SelClause
  T := SelClause.Content
  get := SelClause.get
  put := selPut
  get_put k x s := by cases k <;> rfl
  get_put_ne j k x s h := by cases j <;> cases k <;> first | exact absurd rfl h | rfl
  put_comm j k x y s h := by cases j <;> cases k <;> first | exact absurd rfl h | rfl

/-- The clause read besides the one that is set. -/
def selReads : SelCall → SelClause
  | .distinctOn _ => .groupBy
  | .suffix _ | .prefix _ => .offset
  | c => c.clause

theorem sel_local (c : SelCall) : selFields.Local c.apply c.clause (selReads c) := by
  intro s t h1 h2
  cases c with
  | distinctOn args =>
    have h2 : s.groupBy = t.groupBy := h2
    simp only [SelCall.apply, SelectStmt.DistinctOn, h2]
    by_cases hg : (!t.groupBy.isEmpty) = true
    · simp only [if_pos hg]; exact .inr ⟨⟨_, rfl⟩, _, rfl⟩
    · simp only [if_neg hg]
      cases toColumns args with
      | error p => exact .inr ⟨⟨_, rfl⟩, _, rfl⟩
      | ok cs =>
        by_cases hc : cs.isEmpty = true
        · simp only [if_pos hc]; exact .inr ⟨⟨_, rfl⟩, _, rfl⟩
        · simp only [if_neg hc]; exact .inl ⟨cs, by rw [← h2]; rfl, rfl⟩
  | distinct => exact .inl ⟨true, rfl, rfl⟩
  | columns args =>
    simp only [SelCall.apply, SelectStmt.Columns]
    cases toSelectExpressions (if args.isEmpty then [.val (.str s%"*")] else args) with
    | error p => exact .inr ⟨⟨_, rfl⟩, _, rfl⟩
    | ok cs => exact .inl ⟨cs, rfl, rfl⟩
  | «from» args =>
    have h1 : s.tables = t.tables := h1
    simp only [SelCall.apply, SelectStmt.From, h1]
    by_cases hg : (!t.tables.isEmpty) = true
    · simp only [if_pos hg]; exact .inr ⟨⟨_, rfl⟩, _, rfl⟩
    · simp only [if_neg hg]
      cases toFrom args with
      | error p => exact .inr ⟨⟨_, rfl⟩, _, rfl⟩
      | ok cs => exact .inl ⟨cs, rfl, rfl⟩
  | join args =>
    have h1 : s.joins = t.joins := h1
    have add : ∀ j, (∃ x, s.addJoin j = .ok { s with joins := x } ∧
        t.addJoin j = .ok { t with joins := x }) ∨
        ((∃ p, s.addJoin j = .error p) ∧ ∃ q, t.addJoin j = .error q) := by
      intro j
      simp only [SelectStmt.addJoin, h1]
      cases j.isEmpty with
      | error p => exact .inr ⟨⟨_, rfl⟩, _, rfl⟩
      | ok b =>
        cases b with
        | true => exact .inr ⟨⟨_, rfl⟩, _, rfl⟩
        | false => exact .inl ⟨_, rfl, rfl⟩
    show (∃ x, s.Join args = .ok { s with joins := x } ∧
        t.Join args = .ok { t with joins := x }) ∨
        ((∃ p, s.Join args = .error p) ∧ ∃ q, t.Join args = .error q)
    match args with
    | [] => exact .inr ⟨⟨_, rfl⟩, _, rfl⟩
    | [a] =>
      simp only [SelectStmt.Join]
      cases SelectStmt.joinOfArg a with
      | error p => exact .inr ⟨⟨_, rfl⟩, _, rfl⟩
      | ok j => exact add j
    | [a0, a1] =>
      simp only [SelectStmt.Join]
      cases SelectStmt.handleSelectJoin a0 a1 with
      | error p => exact .inr ⟨⟨_, rfl⟩, _, rfl⟩
      | ok j => exact add j
    | [a0, a1, a2] =>
      simp only [SelectStmt.Join]
      cases SelectStmt.handleSelectJoin a0 a1 with
      | error p => exact .inr ⟨⟨_, rfl⟩, _, rfl⟩
      | ok j =>
        cases a2 with
        | joinType ty => exact add _
        | _ => exact .inr ⟨⟨_, rfl⟩, _, rfl⟩
    | _ :: _ :: _ :: _ :: _ => exact .inr ⟨⟨_, rfl⟩, _, rfl⟩
  | «with» args =>
    have h1 : s.withs = t.withs := h1
    simp only [SelCall.apply, SelectStmt.With, h1]
    by_cases hg : t.withs.isEmpty = true
    · simp only [if_pos hg]; exact .inl ⟨args, rfl, rfl⟩
    · simp only [if_neg hg]; exact .inl ⟨_, rfl, rfl⟩
  | and c =>
    have h1 : s.whr = t.whr := h1
    simp only [SelCall.apply, SelectStmt.And, h1]
    by_cases hg : c.isNil = true
    · simp only [if_pos hg]; exact .inr ⟨⟨_, rfl⟩, _, rfl⟩
    · simp only [if_neg hg]
      cases whereAnd t.whr c with
      | error p => exact .inr ⟨⟨_, rfl⟩, _, rfl⟩
      | ok w => exact .inl ⟨w, rfl, rfl⟩
  | «where» c =>
    have h1 : s.whr = t.whr := h1
    simp only [SelCall.apply, SelectStmt.Where, SelectStmt.And, h1]
    by_cases hg : c.isNil = true
    · simp only [if_pos hg]; exact .inr ⟨⟨_, rfl⟩, _, rfl⟩
    · simp only [if_neg hg]
      cases t.whr.isUnset with
      | error p => exact .inr ⟨⟨_, rfl⟩, _, rfl⟩
      | ok b =>
        cases b with
        | true => exact .inl ⟨newWhere c, rfl, rfl⟩
        | false =>
          cases whereAnd t.whr c with
          | error p => exact .inr ⟨⟨_, rfl⟩, _, rfl⟩
          | ok w => exact .inl ⟨w, rfl, rfl⟩
  | or c =>
    have h1 : s.whr = t.whr := h1
    simp only [SelCall.apply, SelectStmt.Or, h1]
    cases whereOr t.whr c with
    | error p => exact .inr ⟨⟨_, rfl⟩, _, rfl⟩
    | ok w => exact .inl ⟨w, rfl, rfl⟩
  | groupBy args =>
    have h1 : s.groupBy = t.groupBy := h1
    simp only [SelCall.apply, SelectStmt.GroupBy, h1]
    by_cases hg : (!t.groupBy.isEmpty) = true
    · simp only [if_pos hg]; exact .inr ⟨⟨_, rfl⟩, _, rfl⟩
    · simp only [if_neg hg]
      cases toColumns args with
      | error p => exact .inr ⟨⟨_, rfl⟩, _, rfl⟩
      | ok cs =>
        by_cases hc : cs.isEmpty = true
        · simp only [if_pos hc]; exact .inr ⟨⟨_, rfl⟩, _, rfl⟩
        · simp only [if_neg hc]; exact .inl ⟨cs, rfl, rfl⟩
  | having c =>
    have h1 : s.having = t.having := h1
    simp only [SelCall.apply, SelectStmt.Having, h1]
    cases t.having.isUnset with
    | error p => exact .inr ⟨⟨_, rfl⟩, _, rfl⟩
    | ok b =>
      cases b with
      | true => exact .inl ⟨c, rfl, rfl⟩
      | false => exact .inr ⟨⟨_, rfl⟩, _, rfl⟩
  | orderBy os =>
    have h1 : s.orderBy = t.orderBy := h1
    simp only [SelCall.apply, SelectStmt.OrderBy, h1]
    exact .inl ⟨_, rfl, rfl⟩
  | limit v =>
    have h1 : s.limit = t.limit := h1
    simp only [SelCall.apply, SelectStmt.Limit, h1]
    by_cases hg : t.limit ≠ 0
    · simp only [if_pos hg]; exact .inr ⟨⟨_, rfl⟩, _, rfl⟩
    · simp only [if_neg hg]
      cases toLimit v with
      | error p => exact .inr ⟨⟨_, rfl⟩, _, rfl⟩
      | ok n => exact .inl ⟨n, rfl, rfl⟩
  | offset v =>
    have h1 : s.offset = t.offset := h1
    simp only [SelCall.apply, SelectStmt.Offset, h1]
    by_cases hg : t.offset ≠ 0
    · simp only [if_pos hg]; exact .inr ⟨⟨_, rfl⟩, _, rfl⟩
    · simp only [if_neg hg]
      cases toOffset v with
      | error p => exact .inr ⟨⟨_, rfl⟩, _, rfl⟩
      | ok n => exact .inl ⟨n, rfl, rfl⟩
  | «suffix» v =>
    have h2 : s.offset = t.offset := h2
    simp only [SelCall.apply, SelectStmt.Suffix, h2]
    by_cases hg : t.offset ≠ 0
    · simp only [if_pos hg]; exact .inr ⟨⟨_, rfl⟩, _, rfl⟩
    · simp only [if_neg hg]
      cases toSuffix v with
      | error p => exact .inr ⟨⟨_, rfl⟩, _, rfl⟩
      | ok n => exact .inl ⟨n, by rw [← h2]; rfl, rfl⟩
  | «prefix» v =>
    have h2 : s.offset = t.offset := h2
    simp only [SelCall.apply, SelectStmt.Prefix, h2]
    by_cases hg : t.offset ≠ 0
    · simp only [if_pos hg]; exact .inr ⟨⟨_, rfl⟩, _, rfl⟩
    · simp only [if_neg hg]
      cases toPrefix v with
      | error p => exact .inr ⟨⟨_, rfl⟩, _, rfl⟩
      | ok n => exact .inl ⟨n, by rw [← h2]; rfl, rfl⟩
  | comment c => exact .inl ⟨c, rfl, rfl⟩

/-! ## UPDATE -/

/-- The clauses of UPDATE as fields. -/
def updFields : Fields UpdateStmt where
  K := UpdClause
  T := UpdClause.Content
  get := UpdClause.get
  put
    | .only, x, b => { b with only := x }
    | .set, x, b => { b with set := x }
    | .with, x, b => { b with withs := x }
    | .where, x, b => { b with whr := x }
    | .from, x, b => { b with tables := x }
    | .returning, x, b => { b with returning := x }
    | .comment, x, b => { b with comment := x }
  get_put k x s := by cases k <;> rfl
  get_put_ne j k x s h := by cases j <;> cases k <;> first | exact absurd rfl h | rfl
  put_comm j k x y s h := by cases j <;> cases k <;> first | exact absurd rfl h | rfl

theorem upd_local (c : UpdCall) : updFields.Local c.apply c.clause c.clause := by
  intro s t h1 _
  cases c with
  | only => exact .inl ⟨true, rfl, rfl⟩
  | set args =>
    have h1 : s.set = t.set := h1
    simp only [UpdCall.apply, UpdateStmt.Set, h1]
    by_cases hg : args.isEmpty = true
    · simp only [if_pos hg]; exact .inr ⟨⟨_, rfl⟩, _, rfl⟩
    · simp only [if_neg hg]
      cases mergeSet t.set args with
      | error p => exact .inr ⟨⟨_, rfl⟩, _, rfl⟩
      | ok x => exact .inl ⟨x, rfl, rfl⟩
  | «using» args =>
    have h1 : s.set = t.set := h1
    simp only [UpdCall.apply, UpdateStmt.Using, h1]
    by_cases hm : t.set.mode ≠ .array
    · simp only [if_pos hm]; exact .inr ⟨⟨_, rfl⟩, _, rfl⟩
    · simp only [if_neg hm]
      by_cases hg : args.isEmpty = true
      · simp only [if_pos hg]; exact .inr ⟨⟨_, rfl⟩, _, rfl⟩
      · simp only [if_neg hg]
        cases UpdateStmt.useAll t.set args with
        | error p => exact .inr ⟨⟨_, rfl⟩, _, rfl⟩
        | ok x => exact .inl ⟨x, rfl, rfl⟩
  | «with» args =>
    have h1 : s.withs = t.withs := h1
    simp only [UpdCall.apply, UpdateStmt.With, h1]
    by_cases hg : t.withs.isEmpty = true
    · simp only [if_pos hg]; exact .inl ⟨args, rfl, rfl⟩
    · simp only [if_neg hg]; exact .inl ⟨_, rfl, rfl⟩
  | and c =>
    have h1 : s.whr = t.whr := h1
    simp only [UpdCall.apply, UpdateStmt.And, h1]
    cases whereAnd t.whr c with
    | error p => exact .inr ⟨⟨_, rfl⟩, _, rfl⟩
    | ok w => exact .inl ⟨w, rfl, rfl⟩
  | «where» c =>
    have h1 : s.whr = t.whr := h1
    simp only [UpdCall.apply, UpdateStmt.Where, UpdateStmt.And, h1]
    cases t.whr.isUnset with
    | error p => exact .inr ⟨⟨_, rfl⟩, _, rfl⟩
    | ok b =>
      cases b with
      | true => exact .inl ⟨newWhere c, rfl, rfl⟩
      | false =>
        cases whereAnd t.whr c with
        | error p => exact .inr ⟨⟨_, rfl⟩, _, rfl⟩
        | ok w => exact .inl ⟨w, rfl, rfl⟩
  | or c =>
    have h1 : s.whr = t.whr := h1
    simp only [UpdCall.apply, UpdateStmt.Or, h1]
    cases whereOr t.whr c with
    | error p => exact .inr ⟨⟨_, rfl⟩, _, rfl⟩
    | ok w => exact .inl ⟨w, rfl, rfl⟩
  | «from» a =>
    have h1 : s.tables = t.tables := h1
    simp only [UpdCall.apply, UpdateStmt.From, h1]
    by_cases hg : (!t.tables.isEmpty) = true
    · simp only [if_pos hg]; exact .inr ⟨⟨_, rfl⟩, _, rfl⟩
    · simp only [if_neg hg]
      cases toFrom [a] with
      | error p => exact .inr ⟨⟨_, rfl⟩, _, rfl⟩
      | ok x => exact .inl ⟨x, rfl, rfl⟩
  | returning args =>
    have h1 : s.returning = t.returning := h1
    simp only [UpdCall.apply, UpdateStmt.Returning, h1]
    by_cases hg : (!t.returning.isEmpty) = true
    · simp only [if_pos hg]; exact .inr ⟨⟨_, rfl⟩, _, rfl⟩
    · simp only [if_neg hg]
      cases toSelectExpressions args with
      | error p => exact .inr ⟨⟨_, rfl⟩, _, rfl⟩
      | ok x => exact .inl ⟨x, rfl, rfl⟩
  | comment c => exact .inl ⟨c, rfl, rfl⟩

/-! ## DELETE -/

/-- The clauses of DELETE as fields. -/
def delFields : Fields DeleteStmt where
  K := DelClause
  T := DelClause.Content
  get := DelClause.get
  put
    | .from, x, b => { b with tables := x }
    | .using, x, b => { b with usings := x }
    | .where, x, b => { b with whr := x }
    | .returning, x, b => { b with returning := x }
    | .comment, x, b => { b with comment := x }
  get_put k x s := by cases k <;> rfl
  get_put_ne j k x s h := by cases j <;> cases k <;> first | exact absurd rfl h | rfl
  put_comm j k x y s h := by cases j <;> cases k <;> first | exact absurd rfl h | rfl

theorem del_local (c : DelCall) : delFields.Local c.apply c.clause c.clause := by
  intro s t h1 _
  cases c with
  | «from» args =>
    have h1 : s.tables = t.tables := h1
    simp only [DelCall.apply, DeleteStmt.From, h1]
    by_cases hg : (!t.tables.isEmpty) = true
    · simp only [if_pos hg]; exact .inr ⟨⟨_, rfl⟩, _, rfl⟩
    · simp only [if_neg hg]
      cases toFrom args with
      | error p => exact .inr ⟨⟨_, rfl⟩, _, rfl⟩
      | ok x => exact .inl ⟨x, rfl, rfl⟩
  | «using» args =>
    have h1 : s.usings = t.usings := h1
    simp only [DelCall.apply, DeleteStmt.Using, h1]
    by_cases hg : (!t.usings.isEmpty) = true
    · simp only [if_pos hg]; exact .inr ⟨⟨_, rfl⟩, _, rfl⟩
    · simp only [if_neg hg]
      cases toTables args with
      | error p => exact .inr ⟨⟨_, rfl⟩, _, rfl⟩
      | ok x => exact .inl ⟨x, rfl, rfl⟩
  | and c =>
    have h1 : s.whr = t.whr := h1
    simp only [DelCall.apply, DeleteStmt.And, h1]
    cases whereAnd t.whr c with
    | error p => exact .inr ⟨⟨_, rfl⟩, _, rfl⟩
    | ok w => exact .inl ⟨w, rfl, rfl⟩
  | «where» c =>
    have h1 : s.whr = t.whr := h1
    simp only [DelCall.apply, DeleteStmt.Where, DeleteStmt.And, h1]
    cases t.whr.isUnset with
    | error p => exact .inr ⟨⟨_, rfl⟩, _, rfl⟩
    | ok b =>
      cases b with
      | true => exact .inl ⟨newWhere c, rfl, rfl⟩
      | false =>
        cases whereAnd t.whr c with
        | error p => exact .inr ⟨⟨_, rfl⟩, _, rfl⟩
        | ok w => exact .inl ⟨w, rfl, rfl⟩
  | or c =>
    have h1 : s.whr = t.whr := h1
    simp only [DelCall.apply, DeleteStmt.Or, h1]
    cases whereOr t.whr c with
    | error p => exact .inr ⟨⟨_, rfl⟩, _, rfl⟩
    | ok w => exact .inl ⟨w, rfl, rfl⟩
  | returning args =>
    have h1 : s.returning = t.returning := h1
    simp only [DelCall.apply, DeleteStmt.Returning, h1]
    by_cases hg : (!t.returning.isEmpty) = true
    · simp only [if_pos hg]; exact .inr ⟨⟨_, rfl⟩, _, rfl⟩
    · simp only [if_neg hg]
      cases toSelectExpressions args with
      | error p => exact .inr ⟨⟨_, rfl⟩, _, rfl⟩
      | ok x => exact .inl ⟨x, rfl, rfl⟩
  | comment c => exact .inl ⟨c, rfl, rfl⟩

/-! ## INSERT -/

/-- The clauses of INSERT, columns and values taken together. -/
inductive InsGroup where
  | into | data | onConflict | returning | comment

/-- The groups of clauses of INSERT as fields. -/
def insFields : Fields InsertStmt where
  K := InsGroup
  T
    | .into => Table
    | .data => List Column × Expr
    | .onConflict => List Column × ConflictAction
    | .returning => List SelExpr
    | .comment => Str
  get
    | .into, b => b.into
    | .data, b => (b.columns, b.values)
    | .onConflict, b => (b.target, b.action)
    | .returning, b => b.returning
    | .comment, b => b.comment
  put
    | .into, x, b => { b with into := x }
    | .data, x, b => { b with columns := x.1, values := x.2 }
    | .onConflict, x, b => { b with target := x.1, action := x.2 }
    | .returning, x, b => { b with returning := x }
    | .comment, x, b => { b with comment := x }
  get_put k x s := by cases k <;> rfl
  get_put_ne j k x s h := by cases j <;> cases k <;> first | exact absurd rfl h | rfl
  put_comm j k x y s h := by cases j <;> cases k <;> first | exact absurd rfl h | rfl

/-- The group of clauses a call is about. -/
def insGroup : InsCall → InsGroup
  | .into _ => .into
  | .columns _ | .values _ | .set _ => .data
  | .onConflict _ => .onConflict
  | .returning _ => .returning
  | .comment _ => .comment

/-- The loop only depends on and only changes the conflict clause. -/
theorem onConflictLoop_local (args : List Any) (s t : InsertStmt) (h1 : s.target = t.target)
    (h2 : s.action = t.action) :
    (∃ x y, s.onConflictLoop args = .ok { s with target := x, action := y } ∧
      t.onConflictLoop args = .ok { t with target := x, action := y }) ∨
    ((∃ p, s.onConflictLoop args = .error p) ∧ ∃ q, t.onConflictLoop args = .error q) := by
  induction args generalizing s t with
  | nil => exact .inr ⟨⟨_, rfl⟩, _, rfl⟩
  | cons a l ih =>
    have step : ∀ c, (∃ x y,
        InsertStmt.onConflictLoop { s with target := s.target ++ [c] } l =
          .ok { s with target := x, action := y } ∧
        InsertStmt.onConflictLoop { t with target := t.target ++ [c] } l =
          .ok { t with target := x, action := y }) ∨
        ((∃ p, InsertStmt.onConflictLoop { s with target := s.target ++ [c] } l = .error p) ∧
          ∃ q, InsertStmt.onConflictLoop { t with target := t.target ++ [c] } l = .error q) :=
      fun c => ih _ _ (by simp only [h1]) h2
    unfold InsertStmt.onConflictLoop
    split
    · exact .inl ⟨t.target, _, by rw [h1], rfl⟩
    · rw [h1]
      split
      · exact .inr ⟨⟨_, rfl⟩, _, rfl⟩
      · exact .inl ⟨t.target, _, rfl, rfl⟩
    · split
      · exact .inr ⟨⟨_, rfl⟩, _, rfl⟩
      · exact step _
    · split
      · exact .inr ⟨⟨_, rfl⟩, _, rfl⟩
      · exact step _
    · exact .inr ⟨⟨_, rfl⟩, _, rfl⟩

variable [GoRuntime]

theorem ins_local (c : InsCall) : insFields.Local c.apply (insGroup c) (insGroup c) := by
  intro s t h1 _
  cases c with
  | into a =>
    have h1 : s.into = t.into := h1
    simp only [InsCall.apply, InsertStmt.Into, h1]
    by_cases hg : (!t.into.isEmpty) = true
    · simp only [if_pos hg]; exact .inr ⟨⟨_, rfl⟩, _, rfl⟩
    · simp only [if_neg hg]
      cases toInto a with
      | error p => exact .inr ⟨⟨_, rfl⟩, _, rfl⟩
      | ok x => exact .inl ⟨x, rfl, rfl⟩
  | columns args =>
    have hc : s.columns = t.columns := (Prod.ext_iff.1 h1).1
    have hv : s.values = t.values := (Prod.ext_iff.1 h1).2
    show (∃ x : List Column × Expr,
      s.Columns args = .ok { s with columns := x.1, values := x.2 } ∧
      t.Columns args = .ok { t with columns := x.1, values := x.2 }) ∨ _
    simp only [InsCall.apply, InsertStmt.Columns]
    by_cases ha : args.isEmpty = true
    · simp only [if_pos ha]
      exact .inl ⟨(t.columns, t.values), by rw [← hc, ← hv], rfl⟩
    · simp only [if_neg ha, hc]
      by_cases hg : (!t.columns.isEmpty) = true
      · simp only [if_pos hg]; exact .inr ⟨⟨_, rfl⟩, _, rfl⟩
      · simp only [if_neg hg]
        cases toColumns args with
        | error p => exact .inr ⟨⟨_, rfl⟩, _, rfl⟩
        | ok cs => exact .inl ⟨(cs, t.values), by rw [← hv], rfl⟩
  | values args =>
    have hc : s.columns = t.columns := (Prod.ext_iff.1 h1).1
    have hv : s.values = t.values := (Prod.ext_iff.1 h1).2
    show (∃ x : List Column × Expr,
      s.Values args = .ok { s with columns := x.1, values := x.2 } ∧
      t.Values args = .ok { t with columns := x.1, values := x.2 }) ∨ _
    simp only [InsCall.apply, InsertStmt.Values, hv]
    cases t.values.isUnset with
    | error p => exact .inr ⟨⟨_, rfl⟩, _, rfl⟩
    | ok b =>
      cases b with
      | false => exact .inr ⟨⟨_, rfl⟩, _, rfl⟩
      | true =>
        cases newArrayListExpression args with
        | error p => exact .inr ⟨⟨_, rfl⟩, _, rfl⟩
        | ok e => exact .inl ⟨(t.columns, e), by rw [← hc], rfl⟩
  | set args =>
    have hc : s.columns = t.columns := (Prod.ext_iff.1 h1).1
    have hv : s.values = t.values := (Prod.ext_iff.1 h1).2
    show (∃ x : List Column × Expr,
      s.Set args = .ok { s with columns := x.1, values := x.2 } ∧
      t.Set args = .ok { t with columns := x.1, values := x.2 }) ∨ _
    simp only [InsCall.apply, InsertStmt.Set, hc, hv]
    by_cases hg : (!t.columns.isEmpty) = true
    · simp only [if_pos hg]; exact .inr ⟨⟨_, rfl⟩, _, rfl⟩
    · simp only [if_neg hg]
      cases t.values.isUnset with
      | error p => exact .inr ⟨⟨_, rfl⟩, _, rfl⟩
      | ok b =>
        cases b with
        | false => exact .inr ⟨⟨_, rfl⟩, _, rfl⟩
        | true =>
          cases toSet args with
          | error p => exact .inr ⟨⟨_, rfl⟩, _, rfl⟩
          | ok set =>
            simp only
            cases set.values with
            | error p => exact .inr ⟨⟨_, rfl⟩, _, rfl⟩
            | ok ce =>
              obtain ⟨cs, es⟩ := ce
              simp only
              cases newArrayListExpression [.exprs es] with
              | error p => exact .inr ⟨⟨_, rfl⟩, _, rfl⟩
              | ok e => exact .inl ⟨(cs, e), rfl, rfl⟩
  | onConflict args =>
    have hc : s.target = t.target := (Prod.ext_iff.1 h1).1
    have hv : s.action = t.action := (Prod.ext_iff.1 h1).2
    show (∃ x : List Column × ConflictAction,
      s.OnConflict args = .ok { s with target := x.1, action := x.2 } ∧
      t.OnConflict args = .ok { t with target := x.1, action := x.2 }) ∨
      ((∃ p, s.OnConflict args = .error p) ∧ ∃ q, t.OnConflict args = .error q)
    unfold InsertStmt.OnConflict
    rw [hv]
    by_cases hg : (!t.action.isEmpty) = true
    · simp only [if_pos hg]; exact .inr ⟨⟨_, rfl⟩, _, rfl⟩
    · simp only [if_neg hg]
      by_cases ha : args.isEmpty = true
      · simp only [if_pos ha]; exact .inr ⟨⟨_, rfl⟩, _, rfl⟩
      · simp only [if_neg ha]
        rcases onConflictLoop_local args s t hc hv with ⟨x, y, e1, e2⟩ | h
        · exact .inl ⟨(x, y), e1, e2⟩
        · exact .inr h
  | returning args =>
    have h1 : s.returning = t.returning := h1
    simp only [InsCall.apply, InsertStmt.Returning, h1]
    by_cases hg : (!t.returning.isEmpty) = true
    · simp only [if_pos hg]; exact .inr ⟨⟨_, rfl⟩, _, rfl⟩
    · simp only [if_neg hg]
      cases toSelectExpressions args with
      | error p => exact .inr ⟨⟨_, rfl⟩, _, rfl⟩
      | ok x => exact .inl ⟨x, rfl, rfl⟩
  | comment c => exact .inl ⟨c, rfl, rfl⟩

theorem columns_values_swap (as bs : List Any) (s : InsertStmt) :
    SameOutcome (runAll InsCall.apply [.columns as, .values bs] s)
      (runAll InsCall.apply [.values bs, .columns as] s) := by
  rw [runAll_two, runAll_two]
  simp only [InsCall.apply]
  unfold InsertStmt.Columns
  by_cases ha : as.isEmpty = true
  · simp only [if_pos ha]
    cases s.Values bs with
    | error p => exact .inr ⟨⟨_, rfl⟩, _, rfl⟩
    | ok t => exact .inl ⟨_, rfl, rfl⟩
  · simp only [if_neg ha]
    unfold InsertStmt.Values
    by_cases hg : (!s.columns.isEmpty) = true
    · simp only [if_pos hg]
      cases s.values.isUnset with
      | error p => exact .inr ⟨⟨_, rfl⟩, _, rfl⟩
      | ok b =>
        cases b with
        | false => exact .inr ⟨⟨_, rfl⟩, _, rfl⟩
        | true =>
          cases newArrayListExpression bs with
          | error p => exact .inr ⟨⟨_, rfl⟩, _, rfl⟩
          | ok e => exact .inr ⟨⟨_, rfl⟩, _, by simp only [if_pos hg]; rfl⟩
    · simp only [if_neg hg]
      cases toColumns as with
      | error p =>
        cases s.values.isUnset with
        | error p => exact .inr ⟨⟨_, rfl⟩, _, rfl⟩
        | ok b =>
          cases b with
          | false => exact .inr ⟨⟨_, rfl⟩, _, rfl⟩
          | true =>
            cases newArrayListExpression bs with
            | error p => exact .inr ⟨⟨_, rfl⟩, _, rfl⟩
            | ok e => exact .inr ⟨⟨_, rfl⟩, _, by simp only [if_neg hg]; rfl⟩
      | ok cs =>
        simp only
        cases s.values.isUnset with
        | error p => exact .inr ⟨⟨_, rfl⟩, _, rfl⟩
        | ok b =>
          cases b with
          | false => exact .inr ⟨⟨_, rfl⟩, _, rfl⟩
          | true =>
            cases newArrayListExpression bs with
            | error p => exact .inr ⟨⟨_, rfl⟩, _, rfl⟩
            | ok e => exact .inl ⟨_, rfl, by simp only [if_neg hg]⟩

end Verif
