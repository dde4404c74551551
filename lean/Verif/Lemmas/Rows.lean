import Verif.Spec.Rows
import Verif.Spec.Argument

/-!
# Lemmas: executing the statements of the machine
-/

namespace Verif
open Spec

theorem truthOf_value (t : Truth) : truthOf t.value = t := by cases t <;> rfl

theorem eval_and (D : Database) (ws : List SqlWith) (r : SqlRow) (x y : Sql) :
    truthOf (D.eval ws r (.binary s%"AND" x y)) =
      (truthOf (D.eval ws r x)).and (truthOf (D.eval ws r y)) := by
  rw [Database.eval, if_pos rfl, truthOf_value]

theorem eval_or (D : Database) (ws : List SqlWith) (r : SqlRow) (x y : Sql) :
    truthOf (D.eval ws r (.binary s%"OR" x y)) =
      (truthOf (D.eval ws r x)).or (truthOf (D.eval ws r y)) := by
  rw [Database.eval, if_neg (by decide), if_pos rfl, truthOf_value]

/-- The conditions with their truth values. -/
def judged (D : Database) (ws : List SqlWith) (r : SqlRow) (l : List (Conn × Sql)) :
    List (Conn × Truth) := l.map fun c => (c.1, truthOf (D.eval ws r c.2))

/-- The truth value of an optional condition. -/
def truthAt (D : Database) (ws : List SqlWith) (r : SqlRow) (w : Option Sql) : Option Truth :=
  w.map fun e => truthOf (D.eval ws r e)

theorem truthAt_addCond (D : Database) (ws : List SqlWith) (r : SqlRow) (w : Option Sql) (k : Conn)
    (e : Sql) (l : List (Conn × Sql)) :
    conjoin (truthAt D ws r (some (addCond k.word w e))) (judged D ws r l) =
      conjoin (truthAt D ws r w) (judged D ws r ((k, e) :: l)) := by
  cases w with
  | none => rfl
  | some w =>
    cases k
    · show conjoin (some (truthOf (D.eval ws r (.binary s%"AND" w e)))) _ = _
      rw [eval_and]; rfl
    · show conjoin (some (truthOf (D.eval ws r (.binary s%"OR" w e)))) _ = _
      rw [eval_or]; rfl

/-- The rows selected are the rows wanted. -/
theorem selects_wanted {D : Database} {ws : List SqlWith} {w : Option Sql} {l : List (Conn × Sql)}
    (h : ∀ r, truthAt D ws r w = conjoin none (judged D ws r l)) : D.selects ws w = D.wanted ws l := by
  funext r
  have h := h r
  unfold Database.wanted
  unfold judged at h
  rw [← h]
  cases w <;> rfl

/-! ## Assignments -/

variable {D : Database}

theorem find_assign (c : Str) (a : Ref × Sql) : ∀ l : List (Ref × Sql),
    D.Distinct ((a :: l).map (·.1)) →
    (assign l a).find? (fun x => D.column x.1 = c) =
      if D.column a.1 = c then some a else l.find? (fun x => D.column x.1 = c) := by
  intro l
  induction l with
  | nil => intro _; by_cases h : D.column a.1 = c <;> simp [assign, h]
  | cons b l ih =>
    intro hd
    have hd' : D.Distinct ((a :: l).map (·.1)) := by
      intro x hx y hy
      refine hd x ?_ y ?_
      · simp only [List.map_cons, List.mem_cons] at hx ⊢; exact hx.imp_right .inr
      · simp only [List.map_cons, List.mem_cons] at hy ⊢; exact hy.imp_right .inr
    rw [assign]
    by_cases h1 : b.1 = a.1
    · rw [if_pos h1]
      by_cases h : D.column a.1 = c
      · simp [h]
      · simp [h, h1]
    · rw [if_neg h1]
      have hne : D.column a.1 ≠ D.column b.1 := fun h =>
        h1 (hd a.1 (by simp) b.1 (by simp) h).symm
      split
      · by_cases h : D.column a.1 = c <;> simp [h]
      · rw [List.find?_cons, ih hd']
        by_cases h : D.column a.1 = c
        · have : D.column b.1 ≠ c := fun h' => hne (h.trans h'.symm)
          simp [h, this]
        · simp only [h, if_false, List.find?_cons]

theorem mem_assign {a x : Ref × Sql} : ∀ {l : List (Ref × Sql)}, x ∈ assign l a → x = a ∨ x ∈ l := by
  intro l
  induction l with
  | nil => intro h; simpa [assign] using h
  | cons b l ih =>
    intro h
    rw [assign] at h
    split at h
    · rcases List.mem_cons.1 h with h | h
      · exact .inl h
      · exact .inr (List.mem_cons_of_mem _ h)
    · split at h
      · exact List.mem_cons.1 h
      · rcases List.mem_cons.1 h with h | h
        · exact .inr (h ▸ List.mem_cons_self)
        · exact (ih h).imp_right (List.mem_cons_of_mem _)

theorem name_lt_trans {s t u : Str} (h1 : s < t) (h2 : t < u) : s < u := List.lt_trans h1 h2

theorem name_lt_asymm {s t : Str} (h : s < t) : ¬ t < s := List.lt_asymm h

/-- In the order of the names, each name once. -/
def Ordered (l : List (Ref × Sql)) : Prop :=
  l.Pairwise fun x y => x.1 ≠ y.1 ∧ ¬ refText y.1 < refText x.1

theorem ordered_assign {a : Ref × Sql} : ∀ {l : List (Ref × Sql)}, Ordered l → Ordered (assign l a) := by
  intro l
  unfold Ordered
  induction l with
  | nil => intro _; simp [assign]
  | cons b l ih =>
    intro h
    rw [List.pairwise_cons] at h
    rw [assign]
    by_cases h1 : b.1 = a.1
    · rw [if_pos h1, List.pairwise_cons]
      exact ⟨fun y hy => h1 ▸ h.1 y hy, h.2⟩
    · rw [if_neg h1]
      by_cases h2 : refText a.1 < refText b.1
      · rw [if_pos h2, List.pairwise_cons, List.pairwise_cons]
        refine ⟨fun y hy => ?_, h⟩
        rcases List.mem_cons.1 hy with rfl | hy
        · exact ⟨fun e => h1 e.symm, name_lt_asymm h2⟩
        · have h3 := (h.1 y hy).2
          exact ⟨fun e => h3 (e ▸ h2), fun e => h3 (name_lt_trans e h2)⟩
      · rw [if_neg h2, List.pairwise_cons]
        refine ⟨fun y hy => ?_, ih h.2⟩
        rcases mem_assign hy with rfl | hy
        · exact ⟨h1, h2⟩
        · exact h.1 y hy

theorem assignMany_spec (c : Str) : ∀ (m l : List (Ref × Sql)), D.Distinct ((l ++ m).map (·.1)) →
    Ordered l → Ordered (assignMany l m) ∧ (∀ x ∈ assignMany l m, x ∈ l ∨ x ∈ m) ∧
      (assignMany l m).find? (fun x => D.column x.1 = c) =
        (m.reverse.find? (fun x => D.column x.1 = c)).or (l.find? (fun x => D.column x.1 = c)) := by
  intro m
  induction m with
  | nil => intro l _ h; exact ⟨h, fun x hx => .inl hx, by simp [assignMany]⟩
  | cons a m ih =>
    intro l hd h
    have sub : ∀ x ∈ (assign l a ++ m).map (·.1), x ∈ (l ++ a :: m).map (·.1) := by
      intro x hx
      obtain ⟨y, hy, rfl⟩ := List.mem_map.1 hx
      refine List.mem_map.2 ⟨y, ?_, rfl⟩
      rcases List.mem_append.1 hy with hy | hy
      · rcases mem_assign hy with rfl | hy
        · simp
        · simp [hy]
      · simp [hy]
    have hd1 : D.Distinct ((a :: l).map (·.1)) := by
      intro x hx y hy
      refine hd x ?_ y ?_
      · simp only [List.map_append, List.map_cons, List.mem_append, List.mem_cons] at hx ⊢
        rcases hx with h | h
        · exact .inr (.inl h)
        · exact .inl h
      · simp only [List.map_append, List.map_cons, List.mem_append, List.mem_cons] at hy ⊢
        rcases hy with h | h
        · exact .inr (.inl h)
        · exact .inl h
    have hd2 : D.Distinct ((assign l a ++ m).map (·.1)) := fun x hx y hy => hd x (sub x hx) y (sub y hy)
    obtain ⟨i1, i2, i3⟩ := ih (assign l a) hd2 (ordered_assign h)
    refine ⟨i1, fun x hx => ?_, ?_⟩
    · rcases i2 x hx with hx | hx
      · rcases mem_assign hx with rfl | hx
        · exact .inr List.mem_cons_self
        · exact .inl hx
      · exact .inr (List.mem_cons_of_mem _ hx)
    · show (assignMany (assign l a) m).find? _ = _
      rw [i3, find_assign c a l hd1, List.reverse_cons, List.find?_append, Option.or_assoc]
      congr 1
      by_cases h : D.column a.1 = c <;> simp [h]

theorem assignMany_append (l m n : List (Ref × Sql)) :
    assignMany (assignMany l m) n = assignMany l (m ++ n) := by
  simp [assignMany, List.foldl_append]

theorem once_assignMany (m : List (Ref × Sql)) (hd : D.Distinct (m.map (·.1))) :
    D.once ((assignMany [] m).map (·.1)) = true := by
  obtain ⟨h1, h2, _⟩ := assignMany_spec [] m [] hd List.Pairwise.nil
  unfold Database.once
  rw [decide_eq_true_eq, List.Nodup, List.pairwise_map, List.pairwise_map]
  refine List.Pairwise.imp_of_mem ?_ h1
  intro x y hx hy h e
  refine h.1 (hd _ ?_ _ ?_ e)
  · exact List.mem_map.2 ⟨x, (h2 x hx).resolve_left (by simp), rfl⟩
  · exact List.mem_map.2 ⟨y, (h2 y hy).resolve_left (by simp), rfl⟩

theorem assign_given (ws : List SqlWith) (m : List (Ref × Sql)) (hd : D.Distinct (m.map (·.1)))
    (v r : SqlRow) : D.assign ws (assignMany [] m) v r = fun c =>
      match D.given m c with
      | some e => D.eval ws v e
      | none => r c := by
  funext c
  unfold Database.assign Database.given
  rw [(assignMany_spec c m [] hd List.Pairwise.nil).2.2]
  cases m.reverse.find? fun x => D.column x.1 = c <;> simp

theorem assign_listed (ws : List SqlWith) (v r : SqlRow) (cs : List Ref) (es : List Sql) :
    D.assign ws (cs.zip es) v r = fun c =>
      match D.listed cs es c with
      | some e => D.eval ws v e
      | none => r c := by
  funext c
  unfold Database.assign
  induction cs generalizing es with
  | nil => simp [Database.listed]
  | cons n cs ih =>
    cases es with
    | nil => simp [Database.listed]
    | cons e es =>
      rw [List.zip_cons_cons, List.find?_cons, Database.listed]
      by_cases h : D.column n = c
      · simp [h]
      · simp only [h, decide_false, if_false]
        exact ih es

/-! ## The calls of a program -/

theorem del_calls : ∀ (steps : List DelStep) {d d' : SqlDelete}, d.tables ≠ [] →
    runSteps DelStep.on steps d = some d' →
    d'.tables = d.tables ∧ d'.usings = d.usings ++ steps.flatMap DelStep.further ∧
      ∀ D ws r, truthAt D ws r d'.whr =
        conjoin (truthAt D ws r d.whr) (judged D ws r (steps.flatMap DelStep.condition)) := by
  intro steps
  induction steps with
  | nil =>
    intro d d' _ h
    cases h
    refine ⟨rfl, by simp, fun D ws r => ?_⟩
    cases truthAt D ws r d.whr <;> rfl
  | cons c steps ih =>
    intro d d' ht h
    rw [runSteps] at h
    split at h
    · cases h
    next d1 h1 =>
    simp only [List.flatMap_cons]
    cases c with
    | «from» ts =>
      rw [DelStep.on, if_neg (fun e => ht e.2)] at h1; cases h1
    | «using» ts =>
      rw [DelStep.on] at h1
      split at h1
      next hu =>
        cases h1
        obtain ⟨i1, i2, i3⟩ := ih (d := { d with usings := ts }) ht h
        exact ⟨i1, by rw [i2, hu]; rfl, i3⟩
      · cases h1
    | «where» e =>
      cases h1
      obtain ⟨i1, i2, i3⟩ := ih (d := { d with whr := some (addCond s%"AND" d.whr e) }) ht h
      exact ⟨i1, i2, fun D ws r => (i3 D ws r).trans (truthAt_addCond D ws r d.whr .and e _)⟩
    | and e =>
      rw [DelStep.on] at h1
      split at h1
      · cases h1
        obtain ⟨i1, i2, i3⟩ := ih (d := { d with whr := some (addCond s%"AND" d.whr e) }) ht h
        exact ⟨i1, i2, fun D ws r => (i3 D ws r).trans (truthAt_addCond D ws r d.whr .and e _)⟩
      · cases h1
    | or e =>
      rw [DelStep.on] at h1
      split at h1
      · cases h1
        obtain ⟨i1, i2, i3⟩ := ih (d := { d with whr := some (addCond s%"OR" d.whr e) }) ht h
        exact ⟨i1, i2, fun D ws r => (i3 D ws r).trans (truthAt_addCond D ws r d.whr .or e _)⟩
      · cases h1
    | returning is =>
      rw [DelStep.on] at h1
      split at h1
      · cases h1; exact ih (d := { d with returning := is }) ht h
      · cases h1
    | comment _ => cases h1; exact ih ht h

/-- The assignments of an UPDATE that the calls so far give. -/
def Gathers (a : List (Ref × Sql)) (cs : List Ref) (es : List Sql) : SetState → Prop
  | .none => a = [] ∧ cs = [] ∧ es = []
  | .pairs l => l = assignMany [] a ∧ cs = [] ∧ es = []
  | .columns cs' es' => cs' = cs ∧ es' = es ∧ a = []

theorem upd_calls : ∀ (steps : List UpdStep) {u u' : SqlUpdate} {a : List (Ref × Sql)} {cs : List Ref}
    {es : List Sql}, Gathers a cs es u.set → runSteps UpdStep.on steps u = some u' →
    Gathers (a ++ steps.flatMap UpdStep.assigned) (cs ++ steps.flatMap UpdStep.columns)
        (es ++ steps.flatMap UpdStep.values) u'.set ∧
      u'.withs = u.withs ++ steps.flatMap UpdStep.withs ∧
      u'.tables = u.tables ++ steps.flatMap UpdStep.further ∧
      u'.table = { u.table with only := u.table.only || steps.any UpdStep.isOnly } ∧
      ∀ D ws r, truthAt D ws r u'.whr =
        conjoin (truthAt D ws r u.whr) (judged D ws r (steps.flatMap UpdStep.condition)) := by
  intro steps
  induction steps with
  | nil =>
    intro u u' a cs es hs h
    cases h
    refine ⟨by simpa using hs, by simp, by simp, by simp, fun D ws r => ?_⟩
    cases truthAt D ws r u.whr <;> rfl
  | cons c steps ih =>
    intro u u' a cs es hs h
    rw [runSteps] at h
    split at h
    · cases h
    next u1 h1 =>
    simp only [List.flatMap_cons, List.any_cons]
    cases c with
    | only =>
      cases h1
      obtain ⟨i1, i2, i3, i5, i4⟩ := ih (u := { u with table := { u.table with only := true } }) hs h
      exact ⟨i1, i2, i3, by rw [i5]; simp [UpdStep.isOnly], i4⟩
    | comment _ => cases h1; exact ih hs h
    | set l =>
      rw [UpdStep.on, Option.map_eq_some_iff] at h1
      obtain ⟨s, h2, rfl⟩ := h1
      have h3 : Gathers (a ++ l) cs es s := by
        cases hu : u.set <;> rw [hu] at hs h2 <;> cases l <;>
          simp only [SetState.assign, reduceCtorEq, Option.some.injEq] at h2
        · subst h2; exact ⟨by rw [hs.1]; rfl, hs.2⟩
        · subst h2; exact ⟨by rw [hs.1, assignMany_append], hs.2⟩
      have h4 := ih (u := { u with set := s }) h3 h
      simpa [UpdStep.assigned, UpdStep.columns, UpdStep.values, UpdStep.withs, UpdStep.further,
        UpdStep.condition, UpdStep.isOnly] using h4
    | setColumns l =>
      rw [UpdStep.on, Option.map_eq_some_iff] at h1
      obtain ⟨s, h2, rfl⟩ := h1
      have h3 : Gathers a (cs ++ l) es s := by
        cases hu : u.set <;> rw [hu] at hs h2 <;> cases l <;>
          simp only [SetState.addColumns, reduceCtorEq, Option.some.injEq] at h2
        · subst h2; exact ⟨by rw [hs.2.1]; rfl, hs.2.2.symm, hs.1⟩
        · subst h2; exact ⟨by rw [hs.1], hs.2⟩
      have h4 := ih (u := { u with set := s }) h3 h
      simpa [UpdStep.assigned, UpdStep.columns, UpdStep.values, UpdStep.withs, UpdStep.further,
        UpdStep.condition, UpdStep.isOnly] using h4
    | «using» l =>
      rw [UpdStep.on, Option.map_eq_some_iff] at h1
      obtain ⟨s, h2, rfl⟩ := h1
      have h3 : Gathers a cs (es ++ l) s := by
        cases hu : u.set <;> rw [hu] at hs h2 <;> cases l <;>
          simp only [SetState.addValues, reduceCtorEq, Option.some.injEq] at h2
        subst h2; exact ⟨hs.1, by rw [hs.2.1], hs.2.2⟩
      have h4 := ih (u := { u with set := s }) h3 h
      simpa [UpdStep.assigned, UpdStep.columns, UpdStep.values, UpdStep.withs, UpdStep.further,
        UpdStep.condition, UpdStep.isOnly] using h4
    | «with» ws =>
      cases h1
      obtain ⟨i1, i2, i3, i5, i4⟩ := ih (u := { u with withs := u.withs ++ ws }) hs h
      exact ⟨i1, by rw [i2, List.append_assoc]; rfl, i3, i5, i4⟩
    | «where» e =>
      cases h1
      obtain ⟨i1, i2, i3, i5, i4⟩ :=
        ih (u := { u with whr := some (addCond s%"AND" u.whr e) }) hs h
      exact ⟨i1, i2, i3, i5, fun D ws r => (i4 D ws r).trans (truthAt_addCond D ws r u.whr .and e _)⟩
    | and e =>
      rw [UpdStep.on] at h1
      split at h1
      · cases h1
        obtain ⟨i1, i2, i3, i5, i4⟩ :=
          ih (u := { u with whr := some (addCond s%"AND" u.whr e) }) hs h
        exact ⟨i1, i2, i3, i5, fun D ws r => (i4 D ws r).trans (truthAt_addCond D ws r u.whr .and e _)⟩
      · cases h1
    | or e =>
      rw [UpdStep.on] at h1
      split at h1
      · cases h1
        obtain ⟨i1, i2, i3, i5, i4⟩ :=
          ih (u := { u with whr := some (addCond s%"OR" u.whr e) }) hs h
        exact ⟨i1, i2, i3, i5, fun D ws r => (i4 D ws r).trans (truthAt_addCond D ws r u.whr .or e _)⟩
      · cases h1
    | «from» t =>
      rw [UpdStep.on] at h1
      split at h1
      next hu =>
        cases h1
        obtain ⟨i1, i2, i3, i5, i4⟩ := ih (u := { u with tables := [t] }) hs h
        exact ⟨i1, i2, by rw [i3, hu]; rfl, i5, i4⟩
      · cases h1
    | returning is =>
      rw [UpdStep.on] at h1
      split at h1
      · cases h1; exact ih (u := { u with returning := is }) hs h
      · cases h1

/-- The parts of a query that say which rows it gives. -/
theorem sel_calls : ∀ (steps : List SelStep) {ws d is ts js w g h o li off} {q : SqlSelect},
    runSteps SelStep.on steps (.mk ws d is ts js w g h o li off) = some q →
    ∃ w', q = .mk (ws ++ steps.flatMap SelStep.withs) (lastOf SelStep.unique d steps)
        (lastOf SelStep.items is steps) (ts ++ steps.flatMap SelStep.tables)
        (js ++ steps.flatMap SelStep.joins) w' (g ++ steps.flatMap SelStep.groups)
        (h.or (steps.findSome? SelStep.groupCondition)) (o ++ steps.flatMap SelStep.orders)
        (li.or (steps.findSome? SelStep.most)) (off.or (steps.findSome? SelStep.skipped)) ∧
      ∀ D ws r, truthAt D ws r w' =
        conjoin (truthAt D ws r w) (judged D ws r (steps.flatMap SelStep.condition)) := by
  intro steps
  induction steps with
  | nil =>
    intro ws d is ts js w g h o li off q hq
    cases hq
    refine ⟨w, by simp [lastOf], fun D ws r => ?_⟩
    cases truthAt D ws r w <;> rfl
  | cons c steps ih =>
    intro ws d is ts js w g h o li off q hq
    rw [runSteps] at hq
    split at hq
    · cases hq
    next q1 h1 =>
    simp only [List.flatMap_cons, List.findSome?_cons, lastOf]
    cases c with
    | join j =>
      cases h1
      obtain ⟨w', i1, i2⟩ := ih hq
      exact ⟨w', by rw [i1, List.append_assoc]; rfl, i2⟩
    | distinct | columns _ | comment _ =>
      cases h1
      obtain ⟨w', i1, i2⟩ := ih hq
      exact ⟨w', i1, i2⟩
    | «with» ws' =>
      cases h1
      obtain ⟨w', i1, i2⟩ := ih hq
      exact ⟨w', by rw [i1, List.append_assoc]; rfl, i2⟩
    | orderBy o' =>
      cases h1
      obtain ⟨w', i1, i2⟩ := ih hq
      exact ⟨w', by rw [i1, List.append_assoc]; rfl, i2⟩
    | «where» e =>
      cases h1
      obtain ⟨w', i1, i2⟩ := ih hq
      exact ⟨w', i1, fun D ws r => (i2 D ws r).trans (truthAt_addCond D ws r w .and e _)⟩
    | and e =>
      rw [SelStep.on] at h1
      split at h1
      · cases h1
        obtain ⟨w', i1, i2⟩ := ih hq
        exact ⟨w', i1, fun D ws r => (i2 D ws r).trans (truthAt_addCond D ws r w .and e _)⟩
      · cases h1
    | or e =>
      rw [SelStep.on] at h1
      split at h1
      · cases h1
        obtain ⟨w', i1, i2⟩ := ih hq
        exact ⟨w', i1, fun D ws r => (i2 D ws r).trans (truthAt_addCond D ws r w .or e _)⟩
      · cases h1
    | «from» ts' =>
      rw [SelStep.on] at h1
      split at h1
      next hg =>
        cases h1
        obtain ⟨w', i1, i2⟩ := ih hq
        exact ⟨w', by rw [i1, hg.2]; rfl, i2⟩
      · cases h1
    | distinctOn _ =>
      rw [SelStep.on] at h1
      split at h1
      · cases h1
        obtain ⟨w', i1, i2⟩ := ih hq
        exact ⟨w', i1, i2⟩
      · cases h1
    | groupBy cs =>
      rw [SelStep.on] at h1
      split at h1
      next hg =>
        cases h1
        obtain ⟨w', i1, i2⟩ := ih hq
        exact ⟨w', by rw [i1, hg.2]; rfl, i2⟩
      · cases h1
    | having e =>
      rw [SelStep.on] at h1
      split at h1
      next hh =>
        cases h1
        obtain ⟨w', i1, i2⟩ := ih hq
        exact ⟨w', by rw [i1, Option.isNone_iff_eq_none.1 hh]; rfl, i2⟩
      · cases h1
    | limit n =>
      rw [SelStep.on] at h1
      split at h1
      next hh =>
        cases h1
        obtain ⟨w', i1, i2⟩ := ih hq
        exact ⟨w', by rw [i1, Option.isNone_iff_eq_none.1 hh]; rfl, i2⟩
      · cases h1
    | offset n =>
      rw [SelStep.on] at h1
      split at h1
      next hh =>
        cases h1
        obtain ⟨w', i1, i2⟩ := ih hq
        exact ⟨w', by rw [i1, Option.isNone_iff_eq_none.1 hh]; rfl, i2⟩
      · cases h1

/-- Without `Set`: columns and rows are what the calls list. -/
theorem ins_run_values : ∀ (steps : List InsStep) {i i' : SqlInsert},
    steps.findSome? InsStep.assigned = none →
    runSteps InsStep.on steps i = some i' →
    i'.columns = i.columns ++ steps.flatMap InsStep.listed ∧
      i'.rows = i.rows ++ steps.flatMap InsStep.added := by
  intro steps
  induction steps with
  | nil => intro i i' _ h; cases h; simp
  | cons c steps ih =>
    intro i i' hs h
    rw [runSteps] at h
    split at h
    · cases h
    next i1 h1 =>
    simp only [List.flatMap_cons]
    cases c with
    | into _ => cases h1
    | set l => simp [InsStep.assigned] at hs
    | conflictNothing t =>
      rw [InsStep.on] at h1
      split at h1
      · cases h1; exact ih (i := { i with conflict := some (t, .nothing) }) hs h
      · cases h1
    | conflictUpdate t l =>
      rw [InsStep.on] at h1
      split at h1
      · cases h1
        exact ih (i := { i with conflict := some (t, .update (.pairs (assignMany [] l))) }) hs h
      · cases h1
    | comment _ => cases h1; exact ih hs h
    | returning is =>
      rw [InsStep.on] at h1
      split at h1
      · cases h1; exact ih (i := { i with returning := is }) hs h
      · cases h1
    | columns cs =>
      rw [InsStep.on] at h1
      split at h1
      next he => subst he; cases h1; exact ih hs h
      · split at h1
        next he =>
          cases h1
          obtain ⟨i1, i2⟩ := ih (i := { i with columns := cs }) hs h
          exact ⟨by rw [i1, he]; rfl, i2⟩
        · cases h1
    | values rows =>
      rw [InsStep.on] at h1
      split at h1
      next he =>
        cases h1
        obtain ⟨i1, i2⟩ := ih (i := { i with rows := rows }) hs h
        exact ⟨i1, by rw [i2, List.isEmpty_iff.1 he]; rfl⟩
      · cases h1

/-- What is said about conflicts, in SQL. -/
def conflictSaid (c : List Ref × Option (List (Ref × Sql))) : List Ref × SqlAction :=
  match c.2 with
  | none => (c.1, .nothing)
  | some l => (c.1, .update (.pairs (assignMany [] l)))

/-- At most one call says what to do on conflict. -/
theorem ins_run_conflict : ∀ (steps : List InsStep) {i i' : SqlInsert},
    runSteps InsStep.on steps i = some i' →
    i'.conflict = i.conflict.or ((steps.findSome? InsStep.resolved).map conflictSaid) := by
  intro steps
  induction steps with
  | nil => intro i i' h; cases h; simp
  | cons c steps ih =>
    intro i i' h
    rw [runSteps] at h
    split at h
    · cases h
    next i1 h1 =>
    rw [ih h, List.findSome?_cons]
    cases c with
    | into _ => cases h1
    | comment _ => cases h1; rfl
    | conflictNothing t =>
      rw [InsStep.on] at h1
      split at h1
      next he => cases h1; rw [Option.isNone_iff_eq_none.1 he]; rfl
      · cases h1
    | conflictUpdate t l =>
      rw [InsStep.on] at h1
      split at h1
      next he => cases h1; rw [Option.isNone_iff_eq_none.1 he.1]; rfl
      · cases h1
    | _ =>
      simp only [InsStep.on] at h1
      repeat' split at h1
      all_goals cases h1
      all_goals rfl

/-- The table stays. -/
theorem ins_run_into : ∀ (steps : List InsStep) {i i' : SqlInsert},
    runSteps InsStep.on steps i = some i' → i'.into = i.into := by
  intro steps
  induction steps with
  | nil => intro i i' h; cases h; rfl
  | cons c steps ih =>
    intro i i' h
    rw [runSteps] at h
    split at h
    · cases h
    next i1 h1 =>
    refine (ih h).trans ?_
    cases c <;> simp only [InsStep.on] at h1
    all_goals (repeat' split at h1)
    all_goals cases h1
    all_goals rfl

/-- Once there are rows, they stay. -/
theorem ins_run_kept : ∀ (steps : List InsStep) {i i' : SqlInsert}, i.columns ≠ [] → i.rows ≠ [] →
    runSteps InsStep.on steps i = some i' →
    steps.findSome? InsStep.assigned = none ∧ i'.columns = i.columns ∧
      i'.rows = i.rows := by
  intro steps
  induction steps with
  | nil => intro i i' _ _ h; cases h; simp
  | cons c steps ih =>
    intro i i' hcs hrs h
    rw [runSteps] at h
    split at h
    · cases h
    next i1 h1 =>
    rw [List.findSome?_cons]
    cases c with
    | into _ => cases h1
    | set l => rw [InsStep.on, if_neg (fun e => hcs e.1)] at h1; cases h1
    | conflictNothing t =>
      rw [InsStep.on] at h1
      split at h1
      · cases h1; exact ih (i := { i with conflict := some (t, .nothing) }) hcs hrs h
      · cases h1
    | conflictUpdate t l =>
      rw [InsStep.on] at h1
      split at h1
      · cases h1
        exact ih (i := { i with conflict := some (t, .update (.pairs (assignMany [] l))) }) hcs hrs h
      · cases h1
    | comment _ => cases h1; exact ih hcs hrs h
    | returning is =>
      rw [InsStep.on] at h1
      split at h1
      · cases h1; exact ih (i := { i with returning := is }) hcs hrs h
      · cases h1
    | columns cs =>
      rw [InsStep.on, if_neg hcs] at h1
      split at h1
      · cases h1; exact ih hcs hrs h
      · cases h1
    | values rows =>
      rw [InsStep.on, if_neg (fun e => hrs (List.isEmpty_iff.1 e))] at h1
      cases h1

theorem many_ne_nil : ∀ m n : List (Ref × Sql), n ≠ [] ∨ m ≠ [] → assignMany n m ≠ [] := by
  intro m
  induction m with
  | nil => intro n h; simpa [assignMany] using h
  | cons a m ih =>
    intro n _
    refine ih (assign n a) (.inl ?_)
    cases n with
    | nil => simp [assign]
    | cons b n =>
      rw [assign]
      split
      · simp
      · split <;> simp

/-- `Set` gives one row. -/
theorem ins_run_set : ∀ (steps : List InsStep) {i i' : SqlInsert} {l : List (Ref × Sql)},
    steps.findSome? InsStep.assigned = some l → l ≠ [] →
    runSteps InsStep.on steps i = some i' →
    i'.columns = (assignMany [] l).map (·.1) ∧ i'.rows = [(assignMany [] l).map (·.2)] := by
  intro steps
  induction steps with
  | nil => intro i i' l h; cases h
  | cons c steps ih =>
    intro i i' l hs hl h
    rw [runSteps] at h
    split at h
    · cases h
    next i1 h1 =>
    rw [List.findSome?_cons] at hs
    cases c with
    | into _ => cases h1
    | set m =>
      cases hs
      rw [InsStep.on] at h1
      split at h1
      · cases h1
        have hne : assignMany [] l ≠ [] := by
          intro e
          exact many_ne_nil l [] (.inr hl) e
        obtain ⟨_, i2, i3⟩ := ins_run_kept steps (i := { i with
          columns := (assignMany [] l).map (·.1)
          rows := [(assignMany [] l).map (·.2)] }) (by simpa using hne) (by simp) h
        exact ⟨i2, i3⟩
      · cases h1
    | conflictNothing t =>
      rw [InsStep.on] at h1
      split at h1
      · cases h1; exact ih (i := { i with conflict := some (t, .nothing) }) hs hl h
      · cases h1
    | conflictUpdate t m =>
      rw [InsStep.on] at h1
      split at h1
      · cases h1
        exact ih (i := { i with conflict := some (t, .update (.pairs (assignMany [] m))) }) hs hl h
      · cases h1
    | comment _ => cases h1; exact ih hs hl h
    | returning is =>
      rw [InsStep.on] at h1
      split at h1
      · cases h1; exact ih (i := { i with returning := is }) hs hl h
      · cases h1
    | columns cs =>
      rw [InsStep.on] at h1
      split at h1
      · cases h1; exact ih hs hl h
      · split at h1
        · cases h1; exact ih (i := { i with columns := cs }) hs hl h
        · cases h1
    | values rows =>
      rw [InsStep.on] at h1
      split at h1
      · cases h1; exact ih (i := { i with rows := rows }) hs hl h
      · cases h1

/-- A program that calls `Set` does so once. -/
theorem ins_only_set : ∀ (steps : List InsStep) {i i' : SqlInsert} {l : List (Ref × Sql)},
    InsStep.set l ∈ steps → steps.all InsStep.fits = true →
    runSteps InsStep.on steps i = some i' → steps.findSome? InsStep.assigned = some l ∧ l ≠ [] := by
  intro steps
  induction steps with
  | nil => intro i i' l h; cases h
  | cons c steps ih =>
    intro i i' l hl hf h
    rw [List.all_cons, Bool.and_eq_true] at hf
    rw [runSteps] at h
    split at h
    · cases h
    next i1 h1 =>
    by_cases hm : ∃ m, c = .set m
    · obtain ⟨m, rfl⟩ := hm
      have hm : m ≠ [] := by
        intro e; subst e; simp [InsStep.fits] at hf
      rcases List.mem_cons.1 hl with e | hl
      · cases e; exact ⟨rfl, hm⟩
      · exfalso
        rw [InsStep.on] at h1
        split at h1
        · cases h1
          have h2 := (ins_run_kept steps (i := { i with
            columns := (assignMany [] m).map (·.1)
            rows := [(assignMany [] m).map (·.2)] }) (by simpa using many_ne_nil m [] (.inr hm))
            (by simp) h).1
          have h3 := List.findSome?_eq_none_iff.1 h2 _ hl
          cases h3
        · cases h1
    · rcases List.mem_cons.1 hl with e | hl
      · exact absurd ⟨l, e.symm⟩ hm
      · obtain ⟨j1, j2⟩ := ih hl hf.2 h
        refine ⟨?_, j2⟩
        rw [List.findSome?_cons]
        cases c with
        | set m => exact absurd ⟨m, rfl⟩ hm
        | _ => exact j1

/-! ## Rows in the way -/

/-- A row of the table during an INSERT: as it was, or changed on conflict. -/
def Touched (D : Database) (target : List Ref) (how : Resolve) (r : SqlRow) (x : SqlRow × Bool) : Prop :=
  x = (r, false) ∨ ∃ f new, how = some f ∧ D.clash target r new = true ∧ x = (f r new, true)

theorem change_touched {D : Database} {target : List Ref} {f : SqlRow → SqlRow → SqlRow} {new : SqlRow}
    {rows : List SqlRow} {xs : List (SqlRow × Bool)} (h : Each (Touched D target (some f)) rows xs) :
    ∀ {ys zs : List (SqlRow × Bool)}, D.change target f new (xs ++ ys) = some zs →
      ∃ xs' ys', zs = xs' ++ ys' ∧ Each (Touched D target (some f)) rows xs' := by
  induction h with
  | nil => intro ys zs _; exact ⟨[], zs, rfl, .nil⟩
  | @cons r x rows xs hx hxs ih =>
    intro ys zs h
    obtain ⟨v, w⟩ := x
    rw [List.cons_append, Database.change] at h
    split at h
    next hc =>
      split at h
      · cases h
      next hw =>
        cases h
        rcases hx with e | ⟨g, n, _, _, e⟩
        · cases e
          exact ⟨(f r new, true) :: xs, ys, rfl, .cons (.inr ⟨f, new, rfl, hc, rfl⟩) hxs⟩
        · cases e; exact absurd rfl hw
    · rw [Option.map_eq_some_iff] at h
      obtain ⟨zs', h1, rfl⟩ := h
      obtain ⟨xs', ys', rfl, h2⟩ := ih h1
      exact ⟨(v, w) :: xs', ys', rfl, .cons hx h2⟩

theorem insertOne_touched {D : Database} {target : List Ref} {how : Resolve} {new : SqlRow}
    {rows : List SqlRow} {xs ys zs : List (SqlRow × Bool)} (h : Each (Touched D target how) rows xs)
    (hi : D.insertOne target how (xs ++ ys) new = some zs) :
    ∃ xs' ys', zs = xs' ++ ys' ∧ Each (Touched D target how) rows xs' := by
  unfold Database.insertOne at hi
  split at hi
  · cases how with
    | none => cases hi; exact ⟨xs, ys, rfl, h⟩
    | some f => exact change_touched h hi
  · cases hi; exact ⟨xs, ys ++ [(new, true)], by rw [List.append_assoc], h⟩

theorem insertMany_touched {D : Database} {target : List Ref} {how : Resolve} {rows : List SqlRow} :
    ∀ (news : List SqlRow) {xs ys zs : List (SqlRow × Bool)}, Each (Touched D target how) rows xs →
      news.foldlM (D.insertOne target how) (xs ++ ys) = some zs →
      ∃ xs' ys', zs = xs' ++ ys' ∧ Each (Touched D target how) rows xs' := by
  intro news
  induction news with
  | nil => intro xs ys zs h hz; cases hz; exact ⟨xs, ys, rfl, h⟩
  | cons n news ih =>
    intro xs ys zs h hz
    rw [List.foldlM_cons] at hz
    cases h1 : D.insertOne target how (xs ++ ys) n with
    | none => rw [h1] at hz; cases hz
    | some ws =>
      rw [h1] at hz
      obtain ⟨xs', ys', rfl, h2⟩ := insertOne_touched h h1
      exact ih h2 hz

theorem fresh_touched (D : Database) (target : List Ref) (how : Resolve) : ∀ rows : List SqlRow,
    Each (Touched D target how) rows (rows.map (·, false))
  | [] => .nil
  | _ :: rows => .cons (.inl rfl) (fresh_touched D target how rows)

/-- The rows of the table stay at their places; those that are changed are in the way of a row that
was to be inserted, and are changed as said. -/
theorem insertAll_kept {D : Database} {how : Option (List Ref × Resolve)} {news rows after : List SqlRow}
    (h : D.insertAll how news rows = some after) :
    ∃ kept added, after = kept ++ added ∧ Each (fun r r' => r' = r ∨ ∃ target f new,
      how = some (target, some f) ∧ D.clash target r new = true ∧ r' = f r new) rows kept := by
  cases how with
  | none =>
    cases h
    refine ⟨rows, news, rfl, ?_⟩
    induction rows with
    | nil => exact .nil
    | cons r rows ih => exact .cons (.inl rfl) ih
  | some c =>
    obtain ⟨target, how⟩ := c
    unfold Database.insertAll at h
    rw [Option.map_eq_some_iff] at h
    obtain ⟨zs, h1, rfl⟩ := h
    rw [← List.append_nil (rows.map (·, false))] at h1
    obtain ⟨xs, ys, rfl, h2⟩ := insertMany_touched news (fresh_touched D target how rows) h1
    refine ⟨xs.map (·.1), ys.map (·.1), List.map_append, ?_⟩
    clear h1
    induction h2 with
    | nil => exact .nil
    | cons hx _ ih =>
      refine .cons ?_ ih
      rcases hx with rfl | ⟨f, new, rfl, hc, rfl⟩
      · exact .inl rfl
      · exact .inr ⟨target, f, new, rfl, hc, rfl⟩

/-! ## More conditions -/

/-- `Or` is refused when no condition was given. -/
theorem del_or_needs : ∀ (steps : List DelStep) {d d' : SqlDelete} {e : Sql}, d.whr = none →
    runSteps DelStep.on (steps ++ [.or e]) d = some d' → steps.flatMap DelStep.condition ≠ [] := by
  intro steps
  induction steps with
  | nil =>
    intro d d' e hw h
    simp [runSteps, DelStep.on, hw] at h
  | cons c steps ih =>
    intro d d' e hw h
    rw [List.cons_append, runSteps] at h
    split at h
    · cases h
    next d1 h1 =>
    rw [List.flatMap_cons]
    cases c with
    | «where» _ | and _ | or _ => simp [DelStep.condition]
    | «from» _ | «using» _ | returning _ =>
      rw [DelStep.on] at h1
      split at h1
      · cases h1
        rw [DelStep.condition.eq_def]
        refine ih ?_ h
        exact hw
      · cases h1
    | comment _ =>
      cases h1
      exact ih hw h

/-- One more condition. -/
def joined1 : Option Truth → Conn × Truth → Option Truth
  | none, (_, t) => some t
  | some s, (.and, t) => some (s.and t)
  | some s, (.or, t) => some (s.or t)

theorem conjoin_snoc (l : List (Conn × Truth)) (x : Conn × Truth) : ∀ t,
    conjoin t (l ++ [x]) = joined1 (conjoin t l) x := by
  induction l with
  | nil => intro t; obtain ⟨k, u⟩ := x; cases t <;> cases k <;> rfl
  | cons y l ih => intro t; obtain ⟨k, u⟩ := y; cases t <;> cases k <;> exact ih _

theorem conjoin_some (l : List (Conn × Truth)) : ∀ t, conjoin (some t) l ≠ none := by
  induction l with
  | nil => intro t h; cases h
  | cons y l ih => intro t; obtain ⟨k, u⟩ := y; cases k <;> exact ih _

theorem conjoin_none {l : List (Conn × Truth)} (h : conjoin none l = none) : l = [] := by
  cases l with
  | nil => rfl
  | cons y l => obtain ⟨k, u⟩ := y; exact absurd h (conjoin_some l u)

theorem sublist_filter {α : Type} {p q : α → Bool} (h : ∀ a, p a = true → q a = true) :
    ∀ l : List α, (l.filter p).Sublist (l.filter q) := by
  intro l
  induction l with
  | nil => exact .slnil
  | cons a l ih =>
    simp only [List.filter_cons]
    cases hp : p a
    · cases hq : q a
      · exact ih
      · exact ih.cons a
    · rw [h a hp]; exact ih.cons_cons a

end Verif
