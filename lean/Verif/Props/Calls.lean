import Verif.Lemmas.Calls
import Verif.Props.Sample

/-!
# C23 and C24: what one call does to the clauses of a builder, and the order of calls
-/

set_option linter.unusedSectionVars false

namespace Verif.Props
open Spec

/-! ## Clauses that a call is not about -/

/-- C23. A call on a SELECT changes no other clause. -/
theorem C23_select_frame (call : SelCall) (b b' : SelectStmt) (h : call.apply b = .ok b')
    (c : SelClause) (hc : c ≠ call.clause) : c.get b' = c.get b :=
  (sel_local call).frame h hc

/-- C23. A call on an UPDATE changes no other clause. -/
theorem C23_update_frame (call : UpdCall) (b b' : UpdateStmt) (h : call.apply b = .ok b')
    (c : UpdClause) (hc : c ≠ call.clause) : c.get b' = c.get b :=
  (upd_local call).frame h hc

/-- C23. A call on a DELETE changes no other clause. -/
theorem C23_delete_frame (call : DelCall) (b b' : DeleteStmt) (h : call.apply b = .ok b')
    (c : DelClause) (hc : c ≠ call.clause) : c.get b' = c.get b :=
  (del_local call).frame h hc

private theorem columns_values {b b' : InsertStmt} {args : List Any} (h : b.Columns args = .ok b') :
    b'.values = b.values := by
  unfold InsertStmt.Columns at h
  split at h
  · cases h; rfl
  · split at h
    · cases h
    · split at h <;> cases h
      rfl

private theorem values_columns {b b' : InsertStmt} {args : List Any} (h : b.Values args = .ok b') :
    b'.columns = b.columns := by
  unfold InsertStmt.Values at h
  split at h
  · cases h
  · cases h
  · split at h <;> cases h
    rfl

/-- C23. A call on an INSERT changes no other clause. -/
theorem C23_insert_frame [GoRuntime] (call : InsCall) (b b' : InsertStmt)
    (h : call.apply b = .ok b') (c : InsClause) (hc : c ∉ call.clauses) : c.get b' = c.get b := by
  have hf : ∀ g : InsGroup, g ≠ insGroup call → insFields.get g b' = insFields.get g b :=
    fun g hg => (ins_local call).frame h hg
  cases c with
  | into => exact hf .into (by cases call <;> first | (simp [insGroup]; done) | simp [InsCall.clauses] at hc)
  | onConflict =>
    exact hf .onConflict (by cases call <;> first | (simp [insGroup]; done) | simp [InsCall.clauses] at hc)
  | returning =>
    exact hf .returning (by cases call <;> first | (simp [insGroup]; done) | simp [InsCall.clauses] at hc)
  | comment =>
    exact hf .comment (by cases call <;> first | (simp [insGroup]; done) | simp [InsCall.clauses] at hc)
  | columns =>
    cases call with
    | columns => simp [InsCall.clauses] at hc
    | set => simp [InsCall.clauses] at hc
    | values => exact values_columns h
    | _ => exact (Prod.ext_iff.1 (hf .data (by simp [insGroup]))).1
  | values =>
    cases call with
    | values => simp [InsCall.clauses] at hc
    | set => simp [InsCall.clauses] at hc
    | columns => exact columns_values h
    | _ => exact (Prod.ext_iff.1 (hf .data (by simp [insGroup]))).2

/-! ## C23: clauses that are set once -/

/-- C23 for SELECT, except DISTINCT ON, prefix and suffix: setting a clause a second time panics. -/
theorem C23_select_partial (call : SelCall) (b : SelectStmt) (hs : call.clause.single = true)
    (hx : call.clause ∉ [.distinctOn, .prefix, .suffix]) (h : call.clause.isSet b = true) :
    ∃ p, call.apply b = .error p := by
  cases call with
  | «from» args =>
    have h : (!b.tables.isEmpty) = true := h
    exact ⟨_, if_pos h⟩
  | groupBy args =>
    have h : (!b.groupBy.isEmpty) = true := h
    exact ⟨_, if_pos h⟩
  | having c =>
    have h : (!blank b.having) = true := h
    simp only [SelCall.apply, SelectStmt.Having]
    cases hu : b.having.isUnset with
    | error p => exact ⟨p, rfl⟩
    | ok x =>
      cases x with
      | false => exact ⟨_, rfl⟩
      | true => rw [isUnset_ok hu] at h; cases h
  | limit v =>
    have h : b.limit ≠ 0 := of_decide_eq_true h
    exact ⟨_, if_pos h⟩
  | offset v =>
    have h : b.offset ≠ 0 := of_decide_eq_true h
    exact ⟨_, if_pos h⟩
  | distinctOn | «prefix» | «suffix» => simp [SelCall.clause] at hx
  | _ => simp [SelCall.clause, SelClause.single] at hs

/-- C23 for UPDATE. -/
theorem C23_update (call : UpdCall) (b : UpdateStmt) (hs : call.clause.single = true)
    (h : call.clause.isSet b = true) : ∃ p, call.apply b = .error p := by
  cases call with
  | «from» args =>
    have h : (!b.tables.isEmpty) = true := h
    exact ⟨_, if_pos h⟩
  | returning args =>
    have h : (!b.returning.isEmpty) = true := h
    exact ⟨_, if_pos h⟩
  | _ => simp [UpdCall.clause, UpdClause.single] at hs

/-- C23 for DELETE. -/
theorem C23_delete (call : DelCall) (b : DeleteStmt) (hs : call.clause.single = true)
    (h : call.clause.isSet b = true) : ∃ p, call.apply b = .error p := by
  cases call with
  | «from» args =>
    have h : (!b.tables.isEmpty) = true := h
    exact ⟨_, if_pos h⟩
  | «using» args =>
    have h : (!b.usings.isEmpty) = true := h
    exact ⟨_, if_pos h⟩
  | returning args =>
    have h : (!b.returning.isEmpty) = true := h
    exact ⟨_, if_pos h⟩
  | _ => simp [DelCall.clause, DelClause.single] at hs

/-- C23 for INSERT; `Columns()` without argument is no call about columns. -/
theorem C23_insert [GoRuntime] (call : InsCall) (hne : call ≠ .columns []) (b : InsertStmt)
    (c : InsClause) (hc : c ∈ call.clauses) (hs : c.single = true) (h : c.isSet b = true) :
    ∃ p, call.apply b = .error p := by
  have hval : (!blank b.values) = true → b.values.isUnset ≠ .ok true := by
    intro h hu
    rw [isUnset_ok hu] at h
    cases h
  cases call with
  | into a =>
    cases List.mem_singleton.1 hc
    have h : (!b.into.isEmpty) = true := h
    exact ⟨_, if_pos h⟩
  | columns args =>
    cases List.mem_singleton.1 hc
    have h : (!b.columns.isEmpty) = true := h
    have ha : ¬ args.isEmpty = true := by
      intro ha
      rw [List.isEmpty_iff.1 ha] at hne
      exact hne rfl
    exact ⟨_, by rw [InsCall.apply, InsertStmt.Columns, if_neg ha, if_pos h]; rfl⟩
  | values args =>
    cases List.mem_singleton.1 hc
    have h := hval h
    simp only [InsCall.apply, InsertStmt.Values]
    cases hu : b.values.isUnset with
    | error p => exact ⟨p, rfl⟩
    | ok x =>
      cases x with
      | false => exact ⟨_, rfl⟩
      | true => exact absurd hu h
  | set args =>
    simp only [InsCall.apply, InsertStmt.Set]
    simp only [InsCall.clauses, List.mem_cons, List.not_mem_nil, or_false] at hc
    split
    · exact ⟨_, rfl⟩
    · next hg =>
      rcases hc with rfl | rfl
      · exact absurd h hg
      · have h := hval h
        cases hu : b.values.isUnset with
        | error p => exact ⟨p, rfl⟩
        | ok x =>
          cases x with
          | false => exact ⟨_, rfl⟩
          | true => exact absurd hu h
  | onConflict args =>
    cases List.mem_singleton.1 hc
    have h : (!b.action.isEmpty) = true := by
      simp only [InsClause.isSet] at h
      unfold ConflictAction.isEmpty
      split at h
      · cases h
      · next e => rw [e]; rfl
      · next e => rw [e]; simp only [setIsEmpty_eq]; exact h
    exact ⟨_, if_pos h⟩
  | returning args =>
    cases List.mem_singleton.1 hc
    have h : (!b.returning.isEmpty) = true := h
    exact ⟨_, if_pos h⟩
  | comment t =>
    cases List.mem_singleton.1 hc
    cases hs

/-! The clause that was set first is there to the end. -/

private theorem kept {S C : Type} {apply : C → S → Go S} {α : Type} (get : S → α) (set : S → Prop)
    (hset : ∀ s t, get s = get t → set t → set s)
    (hstep : ∀ c s s', apply c s = .ok s' → set s → get s' = get s) {l : List C} {s s' : S}
    (h : runAll apply l s = .ok s') (hs : set s) : get s' = get s := by
  induction l generalizing s with
  | nil => cases h; rfl
  | cons c l ih =>
    simp only [runAll] at h
    cases hc : apply c s with
    | error p => rw [hc] at h; cases h
    | ok t =>
      rw [hc] at h
      have h1 := hstep c s t hc hs
      exact (ih h (hset t s h1 hs)).trans h1

private theorem error_not_ok {S : Type} {x : Go S} {s : S} (h : ∃ p, x = .error p) (hs : x = .ok s) :
    False := by
  obtain ⟨p, h⟩ := h
  rw [h] at hs
  cases hs

/-- C23 for SELECT, except DISTINCT ON, prefix and suffix: whatever calls follow, as long as none
panics, the clause stays as it was first set. -/
theorem C23_select_first_partial (calls : List SelCall) (b b' : SelectStmt)
    (h : runAll SelCall.apply calls b = .ok b') (c : SelClause) (hs : c.single = true)
    (hx : c ∉ [.distinctOn, .prefix, .suffix]) (hb : c.isSet b = true) : c.get b' = c.get b := by
  refine kept c.get (fun s => c.isSet s = true) ?_ ?_ h hb
  · intro s t hst ht
    cases c <;> simp only [SelClause.get] at hst <;> simp only [SelClause.isSet] at ht ⊢ <;>
      rw [hst] <;> exact ht
  · intro call s s' hcall hset
    by_cases hcc : c = call.clause
    · subst hcc
      exact (error_not_ok (C23_select_partial call s hs hx hset) hcall).elim
    · exact C23_select_frame call s s' hcall c hcc

/-- C23 for UPDATE: the first content stays. -/
theorem C23_update_first (calls : List UpdCall) (b b' : UpdateStmt)
    (h : runAll UpdCall.apply calls b = .ok b') (c : UpdClause) (hs : c.single = true)
    (hb : c.isSet b = true) : c.get b' = c.get b := by
  refine kept c.get (fun s => c.isSet s = true) ?_ ?_ h hb
  · intro s t hst ht
    cases c <;> simp only [UpdClause.get] at hst <;> simp only [UpdClause.isSet] at ht ⊢ <;>
      rw [hst] <;> exact ht
  · intro call s s' hcall hset
    by_cases hcc : c = call.clause
    · subst hcc
      exact (error_not_ok (C23_update call s hs hset) hcall).elim
    · exact C23_update_frame call s s' hcall c hcc

/-- C23 for DELETE: the first content stays. -/
theorem C23_delete_first (calls : List DelCall) (b b' : DeleteStmt)
    (h : runAll DelCall.apply calls b = .ok b') (c : DelClause) (hs : c.single = true)
    (hb : c.isSet b = true) : c.get b' = c.get b := by
  refine kept c.get (fun s => c.isSet s = true) ?_ ?_ h hb
  · intro s t hst ht
    cases c <;> simp only [DelClause.get] at hst <;> simp only [DelClause.isSet] at ht ⊢ <;>
      rw [hst] <;> exact ht
  · intro call s s' hcall hset
    by_cases hcc : c = call.clause
    · subst hcc
      exact (error_not_ok (C23_delete call s hs hset) hcall).elim
    · exact C23_delete_frame call s s' hcall c hcc

/-- C23 for INSERT: the first content stays. -/
theorem C23_insert_first [GoRuntime] (calls : List InsCall) (b b' : InsertStmt)
    (h : runAll InsCall.apply calls b = .ok b') (c : InsClause) (hs : c.single = true)
    (hb : c.isSet b = true) : c.get b' = c.get b := by
  refine kept c.get (fun s => c.isSet s = true) ?_ ?_ h hb
  · intro s t hst ht
    cases c with
    | onConflict =>
      have ha : s.action = t.action := (Prod.ext_iff.1 hst).2
      simp only [InsClause.isSet] at ht ⊢
      rw [ha]; exact ht
    | _ =>
      simp only [InsClause.get] at hst
      simp only [InsClause.isSet] at ht ⊢
      rw [hst]; exact ht
  · intro call s s' hcall hset
    by_cases hcc : c ∈ call.clauses
    · by_cases hne : call = .columns []
      · subst hne
        cases hcall
        rfl
      · exact (error_not_ok (C23_insert call hne s c hcc hs hset) hcall).elim
    · exact C23_insert_frame call s s' hcall c hcc

/-! The three clauses for which C23 fails. -/

/-- C23 fails for DISTINCT ON: a second `DistinctOn` replaces the first. -/
theorem C23_distinctOn_false : ¬ ∀ (b : SelectStmt) (args : List Any),
    SelClause.isSet .distinctOn b = true → ∃ p, b.DistinctOn args = .error p := by
  intro h
  obtain ⟨p, hp⟩ := h { Sample.groups with distinctOn := [{ name := s%"a" }] }
    [.val (.str s%"b")] rfl
  cases hp

/-- C23 fails for prefixes: a second `Prefix` replaces the first. -/
theorem C23_prefix_false : ¬ ∀ (b : SelectStmt) (arg : Any),
    SelClause.isSet .prefix b = true → ∃ p, b.Prefix arg = .error p := by
  intro h
  obtain ⟨p, hp⟩ := h { Sample.groups with pfx := s%"EXPLAIN" } (.val (.str s%"EXPLAIN ANALYZE")) rfl
  cases hp

/-- C23 fails for suffixes: a second `Suffix` replaces the first. -/
theorem C23_suffix_false : ¬ ∀ (b : SelectStmt) (arg : Any),
    SelClause.isSet .suffix b = true → ∃ p, b.Suffix arg = .error p := by
  intro h
  obtain ⟨p, hp⟩ := h { Sample.groups with sfx := s%"FOR UPDATE" } (.val (.str s%"FOR SHARE")) rfl
  cases hp

/-- C23, exactly, for DISTINCT ON, prefix and suffix: what has been set before is of no importance. A
second call does what it would do without the first: it panics exactly if the first call would panic,
and otherwise replaces the clause. Instead these calls panic if GROUP BY or OFFSET is set. -/
theorem C23_select_exact (b : SelectStmt) (args : List Any) (arg : Any) (cs : List Column)
    (t : Str) :
    { b with distinctOn := cs }.DistinctOn args = b.DistinctOn args ∧
    { b with pfx := t }.Prefix arg = b.Prefix arg ∧
    { b with sfx := t }.Suffix arg = b.Suffix arg ∧
    (b.groupBy ≠ [] → ∃ p, b.DistinctOn args = .error p) ∧
    (b.offset ≠ 0 → (∃ p, b.Prefix arg = .error p) ∧ ∃ p, b.Suffix arg = .error p) := by
  refine ⟨rfl, rfl, rfl, fun h => ?_, fun h => ⟨?_, ?_⟩⟩
  · exact ⟨_, if_pos (by simpa using h)⟩
  · exact ⟨_, if_pos h⟩
  · exact ⟨_, if_pos h⟩

/-! ## C24 -/

/-- C24 for UPDATE: two sequences of calls with the same calls in the same order on every clause
give the same builder, or both panic. -/
theorem C24_update (l l' : List UpdCall)
    (h : ∀ c, l.filter (fun call => call.clause = c) = l'.filter (fun call => call.clause = c))
    (b : UpdateStmt) : SameOutcome (runAll UpdCall.apply l b) (runAll UpdCall.apply l' b) := by
  refine reorder (fun (c : UpdClause) (call : UpdCall) => decide (call.clause = c))
    (fun call => ⟨call.clause, by simp⟩) ?_ h b
  intro x y hxy s
  have hne : x.clause ≠ y.clause := by
    intro e
    have := hxy x.clause (by simp)
    simp [e] at this
  exact (upd_local x).commute (upd_local y) hne hne (Ne.symm hne) s

/-- C24 for DELETE. -/
theorem C24_delete (l l' : List DelCall)
    (h : ∀ c, l.filter (fun call => call.clause = c) = l'.filter (fun call => call.clause = c))
    (b : DeleteStmt) : SameOutcome (runAll DelCall.apply l b) (runAll DelCall.apply l' b) := by
  refine reorder (fun (c : DelClause) (call : DelCall) => decide (call.clause = c))
    (fun call => ⟨call.clause, by simp⟩) ?_ h b
  intro x y hxy s
  have hne : x.clause ≠ y.clause := by
    intro e
    have := hxy x.clause (by simp)
    simp [e] at this
  exact (del_local x).commute (del_local y) hne hne (Ne.symm hne) s

/-- C24 for INSERT. -/
theorem C24_insert [GoRuntime] (l l' : List InsCall)
    (h : ∀ c, l.filter (fun call => c ∈ call.clauses) = l'.filter (fun call => c ∈ call.clauses))
    (b : InsertStmt) : SameOutcome (runAll InsCall.apply l b) (runAll InsCall.apply l' b) := by
  refine reorder (fun (c : InsClause) (call : InsCall) => decide (c ∈ call.clauses)) ?_ ?_ h b
  · intro call
    cases call <;> exact ⟨_, by simp only [InsCall.clauses]; exact decide_eq_true List.mem_cons_self⟩
  · intro x y hxy s
    have hno : ∀ c, c ∈ x.clauses → c ∉ y.clauses := by
      intro c hx hy
      have := hxy c (decide_eq_true hx)
      simp [hy] at this
    by_cases hg : insGroup x = insGroup y
    · cases x <;> cases y <;> simp only [insGroup, reduceCtorEq] at hg
      case columns.values as bs =>
        exact columns_values_swap as bs s
      case values.columns as bs =>
        exact same_symm (columns_values_swap bs as s)
      case set.values => exact absurd (hno .values (by simp [InsCall.clauses])) (by simp [InsCall.clauses])
      all_goals exact absurd (hno _ List.mem_cons_self) (by simp [InsCall.clauses])
    · exact (ins_local x).commute (ins_local y) hg hg (Ne.symm hg) s

/-- Calls about one of the clauses. -/
def about (cs : List SelClause) (l : List SelCall) : List SelCall := l.filter fun x => x.clause ∈ cs

/-- What two calls on a SELECT may have in common. -/
private inductive Res where
  | one (c : SelClause)
  | distinct | offsetPrefix | offsetSuffix

private def Res.clauses : Res → List SelClause
  | .one c => [c]
  | .distinct => [.distinctOn, .groupBy]
  | .offsetPrefix => [.offset, .prefix]
  | .offsetSuffix => [.offset, .suffix]

/-- C24 for SELECT. The full property asks only for `h`; what is missing is that in the code
`DistinctOn` looks at GROUP BY, and `Prefix` and `Suffix` look at OFFSET, so that the order of these
calls has to be the same too. -/
theorem C24_select_partial (l l' : List SelCall) (h : ∀ c, about [c] l = about [c] l')
    (hd : about [.distinctOn, .groupBy] l = about [.distinctOn, .groupBy] l')
    (hp : about [.offset, .prefix] l = about [.offset, .prefix] l')
    (hs : about [.offset, .suffix] l = about [.offset, .suffix] l') (b : SelectStmt) :
    SameOutcome (runAll SelCall.apply l b) (runAll SelCall.apply l' b) := by
  refine reorder (fun (r : Res) (call : SelCall) => decide (call.clause ∈ r.clauses))
    (fun call => ⟨.one call.clause, by simp [Res.clauses]⟩) ?_ ?_ b
  · intro x y hxy s
    have hno : ∀ r : Res, x.clause ∈ r.clauses → y.clause ∉ r.clauses := by
      intro r hx hy
      have := hxy r (decide_eq_true hx)
      simp [hy] at this
    have hne : x.clause ≠ y.clause := by
      intro e
      exact hno (.one x.clause) (by simp [Res.clauses]) (by simp [Res.clauses, e])
    have h1 : selReads x ≠ y.clause := by
      intro e
      cases x with
      | distinctOn =>
        exact hno .distinct (by simp [Res.clauses, SelCall.clause]) (by rw [← e]; simp [Res.clauses, selReads])
      | «suffix» =>
        exact hno .offsetSuffix (by simp [Res.clauses, SelCall.clause]) (by rw [← e]; simp [Res.clauses, selReads])
      | «prefix» =>
        exact hno .offsetPrefix (by simp [Res.clauses, SelCall.clause]) (by rw [← e]; simp [Res.clauses, selReads])
      | _ => exact hne e
    have h2 : selReads y ≠ x.clause := by
      intro e
      cases y with
      | distinctOn =>
        exact hno .distinct (by rw [← e]; simp [Res.clauses, selReads]) (by simp [Res.clauses, SelCall.clause])
      | «suffix» =>
        exact hno .offsetSuffix (by rw [← e]; simp [Res.clauses, selReads]) (by simp [Res.clauses, SelCall.clause])
      | «prefix» =>
        exact hno .offsetPrefix (by rw [← e]; simp [Res.clauses, selReads]) (by simp [Res.clauses, SelCall.clause])
      | _ => exact hne e.symm
    exact (sel_local x).commute (sel_local y) hne h1 h2 s
  · intro r
    cases r with
    | one c => exact h c
    | distinct => exact hd
    | offsetPrefix => exact hp
    | offsetSuffix => exact hs

/-- The full C24 fails for SELECT: `Offset` then `Suffix` panics, `Suffix` then `Offset` does not. -/
theorem C24_select_false : ¬ ∀ (l l' : List SelCall), (∀ c, about [c] l = about [c] l') →
    ∀ b, SameOutcome (runAll SelCall.apply l b) (runAll SelCall.apply l' b) := by
  intro h
  have := h [.offset (.val (.int .int 10)), .suffix (.val (.str s%"FOR UPDATE"))]
    [.suffix (.val (.str s%"FOR UPDATE")), .offset (.val (.int .int 10))]
    (by intro c; cases c <;> rfl) Sample.groups
  rcases this with ⟨s, h1, _⟩ | ⟨_, q, h2⟩
  · cases h1
  · cases h2

/-! ## Cases -/

section
attribute [local instance] Runtime.sample

/-- A clause that is set: C23 applies to a second `Limit` and a second `From`. -/
example : (SelCall.limit (.val (.int .int 5))).clause.isSet Sample.users = true ∧
    (SelCall.from [.val (.str s%"x")]).clause.isSet Sample.users = true := ⟨rfl, rfl⟩

/-- C23 applies to INSERT. -/
example : InsClause.isSet .columns Sample.insertUsers = true ∧
    InsClause.isSet .values Sample.insertUsers = true := ⟨rfl, rfl⟩

/-- C24 applies: WHERE before FROM and LIMIT before the second condition. -/
example (c d : Expr) (b : SelectStmt) :
    SameOutcome
      (runAll SelCall.apply [.from [.val (.str s%"t")], .where c, .and d, .limit (.val (.int .int 5)),
        .distinctOn [.val (.str s%"x")]] b)
      (runAll SelCall.apply [.where c, .limit (.val (.int .int 5)), .distinctOn [.val (.str s%"x")],
        .and d, .from [.val (.str s%"t")]] b) :=
  C24_select_partial _ _ (by intro c; cases c <;> rfl) (by rfl) (by rfl) (by rfl) b

/-- C24 applies to INSERT. -/
example (b : InsertStmt) :
    SameOutcome
      (runAll InsCall.apply [.columns [.val (.str s%"a")], .values [.val (.int .int 1)],
        .returning [.val (.str s%"id")]] b)
      (runAll InsCall.apply [.returning [.val (.str s%"id")], .values [.val (.int .int 1)],
        .columns [.val (.str s%"a")]] b) :=
  C24_insert _ _ (by intro c; cases c <;> rfl) b

end

end Verif.Props
