import Verif.Props.Calls
import Verif.Props.Argument

/-!
# C24: which orders of calls on a SELECT are refused
-/

namespace Verif.Props

open Verif.Spec
/-- `Offset` called with a number of rows to skip, other than none. -/
def Skips : SelCall → Prop
  | .offset (.offset n) => n ≠ 0
  | .offset a => ∃ n, IntArg a n ∧ n ≠ 0
  | _ => False

/-- No `DistinctOn` comes when GROUP BY is there, and no `Prefix` or `Suffix` when OFFSET is
there. -/
def InOrder (b : SelectStmt) (l : List SelCall) : Prop :=
  ∀ l₁ x l₂, l = l₁ ++ x :: l₂ →
    (x.clause = .distinctOn → b.groupBy = [] ∧ ∀ y ∈ l₁, y.clause ≠ .groupBy) ∧
    (x.clause = .prefix ∨ x.clause = .suffix → b.offset = 0 ∧ ∀ y ∈ l₁, ¬ Skips y)

/-- The calls without looking at other clauses. -/
private def free : SelCall → SelectStmt → Go SelectStmt
  | .distinctOn args, b =>
    match toColumns args with
    | .error p => .error p
    | .ok cs => if cs.isEmpty then Go.panic "" else .ok { b with distinctOn := cs }
  | .suffix v, b =>
    match toSuffix v with
    | .error p => .error p
    | .ok s => .ok { b with sfx := s }
  | .prefix v, b =>
    match toPrefix v with
    | .error p => .error p
    | .ok s => .ok { b with pfx := s }
  | c, b => c.apply b

private theorem free_local (c : SelCall) : selFields.Local (free c) c.clause c.clause := by
  intro s t h1 h2
  cases c with
  | distinctOn args =>
    simp only [free]
    cases toColumns args with
    | error p => exact .inr ⟨⟨_, rfl⟩, _, rfl⟩
    | ok cs =>
      by_cases hc : cs.isEmpty = true
      · simp only [if_pos hc]; exact .inr ⟨⟨_, rfl⟩, _, rfl⟩
      · simp only [if_neg hc]; exact .inl ⟨cs, rfl, rfl⟩
  | «suffix» v =>
    simp only [free]
    cases toSuffix v with
    | error p => exact .inr ⟨⟨_, rfl⟩, _, rfl⟩
    | ok x => exact .inl ⟨x, rfl, rfl⟩
  | «prefix» v =>
    simp only [free]
    cases toPrefix v with
    | error p => exact .inr ⟨⟨_, rfl⟩, _, rfl⟩
    | ok x => exact .inl ⟨x, rfl, rfl⟩
  | distinct => exact sel_local .distinct s t h1 h2
  | columns args => exact sel_local (.columns args) s t h1 h2
  | «from» args => exact sel_local (.from args) s t h1 h2
  | join args => exact sel_local (.join args) s t h1 h2
  | «with» args => exact sel_local (.with args) s t h1 h2
  | «where» args => exact sel_local (.where args) s t h1 h2
  | and args => exact sel_local (.and args) s t h1 h2
  | or args => exact sel_local (.or args) s t h1 h2
  | groupBy args => exact sel_local (.groupBy args) s t h1 h2
  | having args => exact sel_local (.having args) s t h1 h2
  | orderBy args => exact sel_local (.orderBy args) s t h1 h2
  | limit args => exact sel_local (.limit args) s t h1 h2
  | offset args => exact sel_local (.offset args) s t h1 h2
  | comment args => exact sel_local (.comment args) s t h1 h2

/-- What a call looks at in another clause. -/
private def Allowed (x : SelCall) (b : SelectStmt) : Prop :=
  (x.clause = .distinctOn → b.groupBy = []) ∧ (x.clause = .prefix ∨ x.clause = .suffix → b.offset = 0)

private theorem apply_free (c : SelCall) (b s : SelectStmt) :
    c.apply b = .ok s ↔ free c b = .ok s ∧ Allowed c b := by
  cases c with
  | distinctOn args =>
    simp only [SelCall.apply, SelectStmt.DistinctOn, free, Allowed, SelCall.clause]
    cases hb : b.groupBy with
    | nil =>
      simp only [List.isEmpty_nil, Bool.not_true, Bool.false_eq_true, if_false]
      cases toColumns args with
      | error p => simp
      | ok cs => by_cases hc : cs.isEmpty = true <;> simp [hc, Go.panic]
    | cons => simp [Go.panic]
  | «suffix» v =>
    simp only [SelCall.apply, SelectStmt.Suffix, free, Allowed, SelCall.clause]
    by_cases hb : b.offset = 0
    · rw [if_neg (by simp [hb])]
      exact ⟨fun h => ⟨h, by simp, fun _ => hb⟩, fun h => h.1⟩
    · rw [if_pos hb]
      simp [hb, Go.panic]
  | «prefix» v =>
    simp only [SelCall.apply, SelectStmt.Prefix, free, Allowed, SelCall.clause]
    by_cases hb : b.offset = 0
    · rw [if_neg (by simp [hb])]
      exact ⟨fun h => ⟨h, by simp, fun _ => hb⟩, fun h => h.1⟩
    · rw [if_pos hb]
      simp [hb, Go.panic]
  | _ => simp [free, Allowed, SelCall.clause]

/-- After a call GROUP BY is there if it was there or the call is `GroupBy`. -/
private theorem free_groupBy {c : SelCall} {b s : SelectStmt} (h : free c b = .ok s) :
    s.groupBy = [] ↔ b.groupBy = [] ∧ c.clause ≠ .groupBy := by
  by_cases hc : c.clause = .groupBy
  · cases c <;> simp only [SelCall.clause, reduceCtorEq] at hc
    case groupBy args =>
    simp only [free, SelCall.apply, SelectStmt.GroupBy] at h
    simp only [SelCall.clause, ne_eq, not_true_eq_false, and_false, iff_false]
    split at h
    · cases h
    · split at h
      · cases h
      · next cs _ =>
        split at h
        · cases h
        · next hcs => cases h; simpa using hcs
  · have := (free_local c).frame h (j := .groupBy) (Ne.symm hc)
    rw [show s.groupBy = b.groupBy from this]
    simp [hc]

private theorem free_offset {c : SelCall} {b s : SelectStmt} (h : free c b = .ok s)
    (hg : ∀ v, c = .offset v → GoArg v) : s.offset = 0 ↔ b.offset = 0 ∧ ¬ Skips c := by
  by_cases hc : c.clause = .offset
  · cases c <;> simp only [SelCall.clause, reduceCtorEq] at hc
    case offset v =>
    simp only [free, SelCall.apply] at h
    by_cases hb : b.offset = 0
    · by_cases hp : Plain v
      · obtain ⟨n, h1, _, _, rfl⟩ := (C26_offset b hb v (hg v rfl) hp s).1 h
        have e : Skips (.offset v) ↔ ∃ m, IntArg v m ∧ m ≠ 0 := by
          cases v with
          | offset => exact hp.elim
          | _ => exact Iff.rfl
        rw [e]
        simp only [hb, true_and]
        constructor
        · rintro hn ⟨m, hm, hm0⟩
          exact hm0 ((intArg_unique v (hg v rfl) m n hm h1).trans hn)
        · intro hn
          exact Classical.byContradiction fun h0 => hn ⟨n, h1, h0⟩
      · cases v with
        | offset n =>
          simp only [SelectStmt.Offset, hb, ne_eq, not_true_eq_false, if_false, toOffset] at h
          cases h
          simp [Skips, hb]
        | limit n =>
          simp only [SelectStmt.Offset, hb, ne_eq, not_true_eq_false, if_false, toOffset, toInt64] at h
          cases h
        | _ => exact absurd trivial hp
    · simp only [SelectStmt.Offset, hb, ne_eq, not_false_eq_true, if_true] at h
      cases h
  · have := (free_local c).frame h (j := .offset) (Ne.symm hc)
    rw [show s.offset = b.offset from this]
    have : ¬ Skips c := by
      cases c <;> first | exact fun h => h | exact absurd rfl hc
    simp [this]

private theorem inOrder_cons {c : SelCall} {l : List SelCall} {b s : SelectStmt}
    (h : free c b = .ok s) (hg : ∀ v, c = .offset v → GoArg v) :
    InOrder b (c :: l) ↔ Allowed c b ∧ InOrder s l := by
  constructor
  · intro hi
    refine ⟨⟨fun hx => ((hi [] c l rfl).1 hx).1, fun hx => ((hi [] c l rfl).2 hx).1⟩, ?_⟩
    rintro l₁ x l₂ rfl
    have := hi (c :: l₁) x l₂ rfl
    refine ⟨fun hx => ?_, fun hx => ?_⟩
    · have := this.1 hx
      exact ⟨(free_groupBy h).2 ⟨this.1, this.2 c List.mem_cons_self⟩,
        fun y hy => this.2 y (List.mem_cons_of_mem _ hy)⟩
    · have := this.2 hx
      exact ⟨(free_offset h hg).2 ⟨this.1, this.2 c List.mem_cons_self⟩,
        fun y hy => this.2 y (List.mem_cons_of_mem _ hy)⟩
  · rintro ⟨ha, hi⟩ l₁ x l₂ e
    cases l₁ with
    | nil =>
      cases e
      exact ⟨fun hx => ⟨ha.1 hx, by simp⟩, fun hx => ⟨ha.2 hx, by simp⟩⟩
    | cons y l₁ =>
      cases e
      have := hi l₁ x l₂ rfl
      refine ⟨fun hx => ?_, fun hx => ?_⟩
      · have := this.1 hx
        have h1 := (free_groupBy h).1 this.1
        refine ⟨h1.1, fun z hz => ?_⟩
        rcases List.mem_cons.1 hz with rfl | hz
        · exact h1.2
        · exact this.2 z hz
      · have := this.2 hx
        have h1 := (free_offset h hg).1 this.1
        refine ⟨h1.1, fun z hz => ?_⟩
        rcases List.mem_cons.1 hz with rfl | hz
        · exact h1.2
        · exact this.2 z hz

private theorem run_free (l : List SelCall) (b s : SelectStmt)
    (h : runAll SelCall.apply l b = .ok s) : runAll free l b = .ok s := by
  induction l generalizing b with
  | nil => exact h
  | cons c l ih =>
    simp only [runAll] at h ⊢
    cases hc : c.apply b with
    | error p => rw [hc] at h; cases h
    | ok t =>
      rw [hc] at h
      rw [((apply_free c b t).1 hc).1]
      exact ih t h

private theorem run_exact (l : List SelCall) (hg : ∀ v, .offset v ∈ l → GoArg v) (b s : SelectStmt) :
    runAll SelCall.apply l b = .ok s ↔ runAll free l b = .ok s ∧ InOrder b l := by
  induction l generalizing b with
  | nil =>
    refine ⟨fun h => ⟨h, ?_⟩, fun h => h.1⟩
    intro l₁ x l₂ e
    cases l₁ <;> cases e
  | cons c l ih =>
    simp only [runAll]
    cases hf : free c b with
    | error p =>
      simp only [reduceCtorEq, false_and, iff_false]
      cases hc : c.apply b with
      | error p => simp
      | ok t => rw [((apply_free c b t).1 hc).1] at hf; cases hf
    | ok t =>
      simp only
      rw [inOrder_cons hf fun v e => hg v (e ▸ List.mem_cons_self)]
      by_cases ha : Allowed c b
      · rw [(apply_free c b t).2 ⟨hf, ha⟩]
        simp only [ha, true_and]
        exact ih (fun v hv => hg v (List.mem_cons_of_mem _ hv)) t
      · simp only [ha, false_and, and_false, iff_false]
        cases hc : c.apply b with
        | error p => simp
        | ok u => exact absurd ((apply_free c b u).1 hc).2 ha

private theorem free_reorder (l l' : List SelCall) (h : ∀ c, about [c] l = about [c] l')
    (b : SelectStmt) : SameOutcome (runAll free l b) (runAll free l' b) := by
  refine reorder (fun (c : SelClause) (call : SelCall) => decide (call.clause ∈ [c]))
    (fun call => ⟨call.clause, by simp⟩) ?_ h b
  intro x y hxy s
  have hne : x.clause ≠ y.clause := by
    intro e
    have := hxy x.clause (by simp)
    simp [e] at this
  exact (free_local x).commute (free_local y) hne hne (Ne.symm hne) s

/-- C24 for SELECT, whatever the order between clauses: two sequences of calls with the same calls
in the same order on every clause never give two different builders. -/
theorem C24_select_agree (l l' : List SelCall) (h : ∀ c, about [c] l = about [c] l')
    (b s s' : SelectStmt) (hs : runAll SelCall.apply l b = .ok s)
    (hs' : runAll SelCall.apply l' b = .ok s') : s = s' := by
  rcases free_reorder l l' h b with ⟨t, h1, h2⟩ | ⟨⟨p, h1⟩, _⟩
  · rw [run_free l b s hs] at h1
    rw [run_free l' b s' hs'] at h2
    cases h1; cases h2; rfl
  · rw [run_free l b s hs] at h1; cases h1

/-- C24 for SELECT, exactly: calls that are accepted in one order are accepted in another that is
the same on every clause, with the same result, exactly if no `DistinctOn` comes when GROUP BY is
there and no `Prefix` or `Suffix` when OFFSET is there. Otherwise the other order panics. -/
theorem C24_select_exact (l l' : List SelCall) (h : ∀ c, about [c] l = about [c] l')
    (hg : ∀ v, .offset v ∈ l → GoArg v) (b s : SelectStmt)
    (hs : runAll SelCall.apply l b = .ok s) :
    (runAll SelCall.apply l' b = .ok s ↔ InOrder b l') ∧
      (¬ InOrder b l' → ∃ p, runAll SelCall.apply l' b = .error p) := by
  have hg' : ∀ v, .offset v ∈ l' → GoArg v := by
    intro v hv
    have : SelCall.offset v ∈ about [.offset] l := by
      rw [h .offset]
      exact List.mem_filter.2 ⟨hv, by simp [SelCall.clause]⟩
    exact hg v (List.mem_filter.1 this).1
  have hf : runAll free l' b = .ok s := by
    rcases free_reorder l l' h b with ⟨t, h1, h2⟩ | ⟨⟨p, h1⟩, _⟩
    · rw [run_free l b s hs] at h1; cases h1; exact h2
    · rw [run_free l b s hs] at h1; cases h1
  refine ⟨?_, ?_⟩
  · rw [run_exact l' hg' b s]
    exact ⟨fun x => x.2, fun x => ⟨hf, x⟩⟩
  · intro hn
    cases hr : runAll SelCall.apply l' b with
    | error p => exact ⟨p, rfl⟩
    | ok t => exact absurd ((run_exact l' hg' b t).1 hr).2 hn

/-! ## Cases -/

private def pageThenSuffix : List SelCall :=
  [.from [.val (.str s%"t")], .offset (.val (.int .int 10)), .limit (.val (.int .int 5)),
    .suffix (.val (.str s%"FOR UPDATE"))]

/-- Skipping no row does not count: `Offset(0)` may come before `Suffix`. -/
example : InOrder SelectStmt.zero [.offset (.val (.int .int 0)), .suffix (.val (.str s%"FOR UPDATE"))] := by
  intro l₁ x l₂ e
  match l₁, e with
  | [], e => cases e; simp [SelCall.clause]
  | [_], e =>
    cases e
    refine ⟨by simp [SelCall.clause], fun _ => ⟨rfl, ?_⟩⟩
    intro y hy hs
    cases List.mem_singleton.1 hy
    obtain ⟨n, rfl, hn⟩ := hs
    exact hn rfl
  | _ :: _ :: l₁, e => cases l₁ <;> cases e

/-- `C24_select_exact` applies: the suffix first is accepted, the suffix last is out of order. -/
example : (∀ c, about [c] [.suffix (.val (.str s%"FOR UPDATE")), .limit (.val (.int .int 5)),
      .offset (.val (.int .int 10)), .from [.val (.str s%"t")]] = about [c] pageThenSuffix) ∧
    (∃ s, runAll SelCall.apply [.suffix (.val (.str s%"FOR UPDATE")), .limit (.val (.int .int 5)),
      .offset (.val (.int .int 10)), .from [.val (.str s%"t")]] SelectStmt.zero = .ok s) ∧
    ¬ InOrder SelectStmt.zero pageThenSuffix := by
  refine ⟨by intro c; cases c <;> rfl, ⟨_, rfl⟩, ?_⟩
  intro h
  refine ((h [.from [.val (.str s%"t")], .offset (.val (.int .int 10)), .limit (.val (.int .int 5))]
    (.suffix (.val (.str s%"FOR UPDATE"))) [] rfl).2 (.inr rfl)).2 (.offset (.val (.int .int 10)))
    (by simp) ⟨10, rfl, by decide⟩

end Verif.Props
