import Verif.Lemmas.Rows
import Verif.Props.Machine

/-!
# C70: what a program sends touches the rows that its calls ask for
-/

set_option linter.unusedSectionVars false

namespace Verif.Props
open Spec

section
variable [GoRuntime]

/-- The builder that a program gives is the one of C62. -/
theorem outcome_ok {S T : Type} {program : Go S} {o : Option T} {P : S → T → Prop} {s : S}
    (h : Outcome program o P) (hs : program = .ok s) : ∃ t, o = some t ∧ P s t := by
  unfold Outcome at h
  cases o with
  | none => obtain ⟨p, hp⟩ := h; rw [hs] at hp; cases hp
  | some t =>
    obtain ⟨s', h1, h2⟩ := h
    rw [hs] at h1
    cases h1
    exact ⟨t, rfl, h2⟩

/-- C70, DELETE. If the calls build a statement, then what is sent is read by a SQL parser as a
statement that removes exactly the rows for which (alone, or with rows of the tables of `Using`) the
conditions of the calls are true: each joined by AND or OR to all of those before, in the order of
the calls. A condition that is false or NULL keeps the row; without conditions all rows are
removed. -/
theorem C70_delete (b : Bool) (t : SqlTable) (ht : fitsFrom t = true) (steps : List DelStep)
    (hs : steps.all DelStep.fits = true) (s : DeleteStmt)
    (h : (delete (buildFrom t) >>= runAll DelStep.apply steps) = .ok s) :
    ∃ text args m, (Stmt.delete s).write.query = .ok (text, args) ∧
      readStmt b text args = some m ∧
      m.target = some t ∧
      ∀ (D : Database) (rows : List SqlRow), D.exec m rows = some (rows.filter fun r =>
        !(D.combine (steps.flatMap DelStep.further) r).any
          (D.wanted [] (steps.flatMap DelStep.condition))) := by
  obtain ⟨d, h1, text, args, h2, h3⟩ := outcome_ok (C62_delete b t ht steps hs) h
  obtain ⟨i1, i2, i3⟩ := del_calls steps (by simp [deleteStart]) h1
  have i4 : d.usings = steps.flatMap DelStep.further := i2
  have i5 : d.tables = [t] := i1
  refine ⟨text, args, _, h2, h3, by unfold SqlDelete.stmt; rw [i5]; rfl, fun D rows => ?_⟩
  unfold SqlDelete.stmt
  rw [i4, i5, Database.exec, selects_wanted fun r => i3 D [] r]

/-- C70, UPDATE with `Set` by name. Exactly the rows asked for are changed. In those, a column that
is named in a call of `Set` has the value of the last call that names it, computed from the row (with
the rows of `From`) before the update; all other columns are as before. -/
theorem C70_update (b : Bool) (t : SqlTable) (ht : fitsTable t = true) (ho : t.only = false)
    (steps : List UpdStep) (hs : steps.all UpdStep.fits = true) (s : UpdateStmt)
    (h : (update (.table (buildTable t)) >>= runAll UpdStep.apply steps) = .ok s)
    (hset : steps.flatMap UpdStep.assigned ≠ []) :
    ∃ text args m, (Stmt.update s).write.query = .ok (text, args) ∧
      readStmt b text args = some m ∧
      m.target = some { t with only := steps.any UpdStep.isOnly } ∧
      ∀ (D : Database) (rows : List SqlRow),
        D.Distinct ((steps.flatMap UpdStep.assigned).map (·.1)) →
        D.exec m rows = some (rows.map fun r =>
          match (D.combine (steps.flatMap UpdStep.further) r).find?
            (D.wanted (steps.flatMap UpdStep.withs) (steps.flatMap UpdStep.condition)) with
          | none => r
          | some «at» => fun c =>
            match D.given (steps.flatMap UpdStep.assigned) c with
            | some e => D.eval (steps.flatMap UpdStep.withs) «at» e
            | none => r c) := by
  obtain ⟨u, h1, h2, _⟩ := outcome_ok (C62_update b t ht ho steps hs) h
  obtain ⟨i1, i2, i3, i7, i4⟩ := upd_calls steps (a := []) (cs := []) (es := []) (u := updateStart t)
    ⟨rfl, rfl, rfl⟩ h1
  have i7 : u.table = { t with only := steps.any UpdStep.isOnly } := by
    rw [i7, updateStart, ho, Bool.false_or]
  rw [List.nil_append] at i1
  cases hu : u.set with
  | none => rw [hu] at i1; exact absurd i1.1 hset
  | columns cs es => rw [hu] at i1; exact absurd i1.2.2 hset
  | pairs l =>
    rw [hu] at i1
    have hl : l = assignMany [] (steps.flatMap UpdStep.assigned) := i1.1
    obtain ⟨text, args, h3, h4⟩ := h2 _ (by unfold SqlUpdate.stmt; rw [hu])
    refine ⟨text, args, _, h3, h4, by rw [i7]; rfl, fun D rows hd => ?_⟩
    have i5 : u.withs = steps.flatMap UpdStep.withs := i2
    have i6 : u.tables = steps.flatMap UpdStep.further := i3
    rw [Database.exec, hl, if_pos (once_assignMany _ hd), i5, i6, Database.update,
      selects_wanted fun r => i4 D _ r]
    simp only [assign_given _ _ hd]
    rfl

/-- C70, UPDATE with columns and values. The n-th value is for the n-th column, over all calls; if
there are more of one than of the other, or a column is there twice, the database refuses. -/
theorem C70_update_columns (b : Bool) (t : SqlTable) (ht : fitsTable t = true) (ho : t.only = false)
    (steps : List UpdStep) (hs : steps.all UpdStep.fits = true) (s : UpdateStmt)
    (h : (update (.table (buildTable t)) >>= runAll UpdStep.apply steps) = .ok s)
    (hset : steps.flatMap UpdStep.values ≠ []) :
    ∃ text args m, (Stmt.update s).write.query = .ok (text, args) ∧
      readStmt b text args = some m ∧
      m.target = some { t with only := steps.any UpdStep.isOnly } ∧
      ∀ (D : Database) (rows : List SqlRow), D.exec m rows =
        if D.once (steps.flatMap UpdStep.columns) ∧
          (steps.flatMap UpdStep.columns).length = (steps.flatMap UpdStep.values).length then
          some (rows.map fun r =>
            match (D.combine (steps.flatMap UpdStep.further) r).find?
              (D.wanted (steps.flatMap UpdStep.withs) (steps.flatMap UpdStep.condition)) with
            | none => r
            | some «at» => fun c =>
              match D.listed (steps.flatMap UpdStep.columns) (steps.flatMap UpdStep.values) c with
              | some e => D.eval (steps.flatMap UpdStep.withs) «at» e
              | none => r c)
        else none := by
  obtain ⟨u, h1, h2, _⟩ := outcome_ok (C62_update b t ht ho steps hs) h
  obtain ⟨i1, i2, i3, i7, i4⟩ := upd_calls steps (a := []) (cs := []) (es := []) (u := updateStart t)
    ⟨rfl, rfl, rfl⟩ h1
  have i7 : u.table = { t with only := steps.any UpdStep.isOnly } := by
    rw [i7, updateStart, ho, Bool.false_or]
  rw [List.nil_append, List.nil_append] at i1
  cases hu : u.set with
  | none => rw [hu] at i1; exact absurd i1.2.2 hset
  | pairs l => rw [hu] at i1; exact absurd i1.2.2 hset
  | columns cs es =>
    rw [hu] at i1
    obtain ⟨rfl, rfl, _⟩ := i1
    obtain ⟨text, args, h3, h4⟩ := h2 _ (by
      unfold SqlUpdate.stmt; rw [hu]; exact if_neg (by simpa using hset))
    refine ⟨text, args, _, h3, h4, by rw [i7]; rfl, fun D rows => ?_⟩
    have i5 : u.withs = steps.flatMap UpdStep.withs := i2
    have i6 : u.tables = steps.flatMap UpdStep.further := i3
    rw [Database.exec, i5, i6, Database.update, selects_wanted fun r => i4 D _ r]
    simp only [assign_listed, List.nil_append]
    rfl

/-- What the calls of a program say about conflicts. -/
def asked (D : Database) (steps : List InsStep) : Option (List Ref × Resolve) :=
  (steps.findSome? InsStep.resolved).map fun c => (c.1, c.2.map D.resolve)

/-- The columns assigned to on conflict have different names. -/
def Settled (D : Database) (steps : List InsStep) : Prop :=
  ∀ target l, steps.findSome? InsStep.resolved = some (target, some l) → D.Distinct (l.map (·.1))

/-- What the statement of the machine says about conflicts is what the calls say. -/
theorem conflict_asked {D : Database} {steps : List InsStep} (hd : Settled D steps) :
    D.conflict ((steps.findSome? InsStep.resolved).map conflictSaid) = some (asked D steps) := by
  unfold asked
  cases h : steps.findSome? InsStep.resolved with
  | none => rfl
  | some c =>
    obtain ⟨target, how⟩ := c
    cases how with
    | none => rfl
    | some l =>
      have hl := hd target l h
      simp only [Option.map_some, conflictSaid, Database.conflict]
      rw [if_pos (once_assignMany l hl)]
      congr 3
      congr 1
      funext r new
      exact assign_given [] l hl _ r

/-- C70, INSERT with `Values`: the rows given are inserted one after the other, each value in its
column (of those given to `Columns`, or else of the table) and the defaults elsewhere; when another row is in the way, what the call of
`OnConflict` says is done. -/
theorem C70_insert (b : Bool) (t : SqlTable) (ht : fitsTable t = true) (steps : List InsStep)
    (hs : steps.all InsStep.fits = true) (s : InsertStmt)
    (h : (insert (.table (buildTable t)) >>= runAll InsStep.apply steps) = .ok s)
    (hset : steps.findSome? InsStep.assigned = none) :
    ∃ text args m, (Stmt.insert s).write.query = .ok (text, args) ∧
      readStmt b text args = some m ∧ m.target = some t ∧
      ∀ (D : Database) (rows : List SqlRow),
        D.once (D.names (steps.flatMap InsStep.listed)) = true → Settled D steps →
        (∀ es ∈ steps.flatMap InsStep.added, D.enough (steps.flatMap InsStep.listed) es = true) →
        D.exec m rows = D.insertAll (asked D steps) ((steps.flatMap InsStep.added).map fun es c =>
          match D.listed (D.names (steps.flatMap InsStep.listed)) es c with
          | some e => D.eval [] D.default e
          | none => D.default c) rows := by
  obtain ⟨i, h1, text, args, h2, h3⟩ := outcome_ok (C62_insert b t ht steps hs) h
  refine ⟨text, args, _, h2, h3, congrArg some (ins_run_into steps h1), fun D rows ho hc hl => ?_⟩
  obtain ⟨i1, i2⟩ := ins_run_values steps hset h1
  have i4 : i.columns = steps.flatMap InsStep.listed := i1
  have i5 : i.rows = steps.flatMap InsStep.added := i2
  have i6 : i.conflict = (steps.findSome? InsStep.resolved).map conflictSaid := ins_run_conflict steps h1
  unfold SqlInsert.stmt
  rw [i4, i5, i6, Database.exec, if_pos ⟨ho, by rw [List.all_eq_true]; exact hl⟩,
    conflict_asked hc]
  simp only [assign_listed]
  rfl

/-- C70, INSERT with `Set`: one row is inserted, with the last value given for each column; when
another row is in the way, what the call of `OnConflict` says is done. -/
theorem C70_insert_set (b : Bool) (t : SqlTable) (ht : fitsTable t = true) (steps : List InsStep)
    (hs : steps.all InsStep.fits = true) (s : InsertStmt)
    (h : (insert (.table (buildTable t)) >>= runAll InsStep.apply steps) = .ok s)
    (l : List (Ref × Sql)) (hset : InsStep.set l ∈ steps) :
    ∃ text args m, (Stmt.insert s).write.query = .ok (text, args) ∧
      readStmt b text args = some m ∧ m.target = some t ∧
      ∀ (D : Database) (rows : List SqlRow), D.Distinct (l.map (·.1)) → Settled D steps →
        D.exec m rows = D.insertAll (asked D steps) [fun c =>
          match D.given l c with
          | some e => D.eval [] D.default e
          | none => D.default c] rows := by
  obtain ⟨i, h1, text, args, h2, h3⟩ := outcome_ok (C62_insert b t ht steps hs) h
  refine ⟨text, args, _, h2, h3, congrArg some (ins_run_into steps h1), fun D rows hd hc => ?_⟩
  obtain ⟨hf, hl⟩ := ins_only_set steps hset hs h1
  obtain ⟨i1, i2⟩ := ins_run_set steps hf hl h1
  have i6 : i.conflict = (steps.findSome? InsStep.resolved).map conflictSaid := ins_run_conflict steps h1
  unfold SqlInsert.stmt
  have hne : ((assignMany [] l).map (·.1)).isEmpty = false := by
    rw [List.isEmpty_eq_false_iff]; simpa using many_ne_nil l [] (.inr hl)
  have hn : D.names ((assignMany [] l).map (·.1)) = (assignMany [] l).map (·.1) := by
    unfold Database.names; rw [hne]; rfl
  rw [i1, i2, i6, Database.exec, hn, if_pos ⟨once_assignMany l hd, by
    simp [Database.enough, many_ne_nil l [] (.inr hl)]⟩, conflict_asked hc]
  simp only [List.map_cons, List.map_nil, List.zip_map', List.map_id']
  rw [assign_given _ _ hd]
  rfl

/-- C70, INSERT: rows that are there stay. A row is changed only if it is in the way of a row that was
to be inserted (so not without a call of `OnConflict` with assignments), and then as the call says. -/
theorem C70_insert_keeps (b : Bool) (t : SqlTable) (ht : fitsTable t = true) (steps : List InsStep)
    (hs : steps.all InsStep.fits = true) (s : InsertStmt)
    (h : (insert (.table (buildTable t)) >>= runAll InsStep.apply steps) = .ok s) :
    ∃ m, SentAs b (.insert s) m ∧ ∀ (D : Database) (rows after : List SqlRow), Settled D steps →
      D.exec m rows = some after → ∃ kept added, after = kept ++ added ∧
        Each (fun r r' => r' = r ∨ ∃ target l new,
          steps.findSome? InsStep.resolved = some (target, some l) ∧ D.clash target r new = true ∧
          r' = D.resolve l r new) rows kept := by
  obtain ⟨i, h1, text, args, h2, h3⟩ := outcome_ok (C62_insert b t ht steps hs) h
  refine ⟨_, ⟨text, args, h2, h3⟩, fun D rows after hc he => ?_⟩
  have i6 : i.conflict = (steps.findSome? InsStep.resolved).map conflictSaid := ins_run_conflict steps h1
  unfold SqlInsert.stmt at he
  rw [Database.exec] at he
  split at he
  · rw [i6, conflict_asked hc] at he
    obtain ⟨kept, added, h4, h5⟩ := insertAll_kept he
    refine ⟨kept, added, h4, ?_⟩
    clear h4 he
    induction h5 with
    | nil => exact .nil
    | cons hx _ ih =>
      refine .cons (hx.imp_right ?_) ih
      rintro ⟨target, f, new, h6, h7, h8⟩
      unfold asked at h6
      rw [Option.map_eq_some_iff] at h6
      obtain ⟨⟨tg, how⟩, h9, h10⟩ := h6
      cases how with
      | none => cases h10
      | some l => cases h10; exact ⟨_, l, new, h9, h7, h8⟩
  · cases he

/-- C70, SELECT. The rows of the answer are made, by grouping, sorting and selecting columns as the
calls say, from exactly the rows of the tables and joins of the calls for which the conditions of the calls are true; the
answer leaves out as many as `Offset` says and has no more than `Limit` says. -/
theorem C70_select (b : Bool) (items : List SqlItem) (hi : fitsItems items = true)
    (hne : items ≠ []) (steps : List SelStep) (hs : steps.all SelStep.fits = true)
    (hd : oneDistinct steps = true) (s : SelectStmt)
    (h : (selectOf items >>= runAll SelStep.apply steps) = .ok s) :
    ∃ text args q, (Stmt.select s).write.query = .ok (text, args) ∧
      readStmt b text args = some (.select q) ∧
      ∀ D : Database, D.answer q =
        page ((steps.findSome? SelStep.skipped).getD 0) (steps.findSome? SelStep.most)
          (D.shape (steps.flatMap SelStep.withs) (lastOf SelStep.unique .no steps)
            (lastOf SelStep.items items steps) (steps.flatMap SelStep.groups)
            (steps.findSome? SelStep.groupCondition) (steps.flatMap SelStep.orders)
            ((D.source (steps.flatMap SelStep.withs) (steps.flatMap SelStep.tables)
              (steps.flatMap SelStep.joins)).filter
              (D.wanted (steps.flatMap SelStep.withs) (steps.flatMap SelStep.condition)))) := by
  obtain ⟨q, h1, text, args, h2, h3⟩ := outcome_ok (C62_select b items hi hne steps hs hd) h
  refine ⟨text, args, q, h2, h3, fun D => ?_⟩
  obtain ⟨w, rfl, i2⟩ := sel_calls steps h1
  simp only [List.nil_append, Option.none_or]
  rw [Database.answer.eq_def]
  simp only []
  rw [selects_wanted fun r => i2 D _ r]
  unfold page
  cases steps.findSome? SelStep.most <;> rfl

end

/-- One more condition with AND (a call of `Where` or `And`) asks for no further rows. -/
theorem wanted_narrower (D : Database) (ws : List SqlWith) (l : List (Conn × Sql)) (e : Sql) (r : SqlRow)
    (h : D.wanted ws (l ++ [(.and, e)]) r = true) : D.wanted ws l r = true := by
  revert h
  unfold Database.wanted
  rw [List.map_append, List.map_singleton, conjoin_snoc]
  cases conjoin none (l.map fun c => (c.1, truthOf (D.eval ws r c.2))) with
  | none => intro _; rfl
  | some t => cases t <;> cases truthOf (D.eval ws r e) <;> simp [joined1, Truth.and]

/-- One more condition with OR (a call of `Or`, which needs a condition before it) asks for all
the rows asked for before. -/
theorem wanted_wider (D : Database) (ws : List SqlWith) (l : List (Conn × Sql)) (hl : l ≠ []) (e : Sql)
    (r : SqlRow) (h : D.wanted ws l r = true) : D.wanted ws (l ++ [(.or, e)]) r = true := by
  revert h
  unfold Database.wanted
  rw [List.map_append, List.map_singleton, conjoin_snoc]
  cases h1 : conjoin none (l.map fun c => (c.1, truthOf (D.eval ws r c.2))) with
  | none => exact absurd (conjoin_none h1) (by simpa using hl)
  | some t => cases t <;> cases truthOf (D.eval ws r e) <;> simp [joined1, Truth.or]

section
variable [GoRuntime]

/-- C70: two programs, one of which calls `And` once more: its DELETE keeps at least the rows that
the DELETE of the other keeps. -/
theorem C70_and_safer (b : Bool) (t : SqlTable) (ht : fitsFrom t = true) (steps : List DelStep)
    (e : Sql) (hs : (steps ++ [DelStep.and e]).all DelStep.fits = true) (s s' : DeleteStmt)
    (h : (delete (buildFrom t) >>= runAll DelStep.apply steps) = .ok s)
    (h' : (delete (buildFrom t) >>= runAll DelStep.apply (steps ++ [DelStep.and e])) = .ok s') :
    ∃ m m', SentAs b (.delete s) m ∧ SentAs b (.delete s') m' ∧
      ∀ (D : Database) (rows : List SqlRow), ∃ kept kept', D.exec m rows = some kept ∧
        D.exec m' rows = some kept' ∧ kept.Sublist kept' := by
  have hs1 : steps.all DelStep.fits = true := by
    rw [List.all_append, Bool.and_eq_true] at hs; exact hs.1
  obtain ⟨text, args, m, a1, a2, _, a3⟩ := C70_delete b t ht steps hs1 s h
  obtain ⟨text', args', m', b1, b2, _, b3⟩ := C70_delete b t ht _ hs s' h'
  refine ⟨m, m', ⟨text, args, a1, a2⟩, ⟨text', args', b1, b2⟩, fun D rows =>
    ⟨_, _, a3 D rows, b3 D rows, ?_⟩⟩
  refine sublist_filter (fun r hr => ?_) rows
  simp only [Bool.not_eq_true', List.any_eq_false, List.flatMap_append, List.flatMap_singleton,
    DelStep.further, DelStep.condition, List.append_nil] at hr ⊢
  exact fun x hx hw => hr x hx (wanted_narrower D [] _ e x hw)

/-- C70: two programs, one of which calls `Or` once more: its DELETE keeps no row that the DELETE of
the other removes. -/
theorem C70_or_wider (b : Bool) (t : SqlTable) (ht : fitsFrom t = true) (steps : List DelStep)
    (e : Sql) (hs : (steps ++ [DelStep.or e]).all DelStep.fits = true) (s s' : DeleteStmt)
    (h : (delete (buildFrom t) >>= runAll DelStep.apply steps) = .ok s)
    (h' : (delete (buildFrom t) >>= runAll DelStep.apply (steps ++ [DelStep.or e])) = .ok s') :
    ∃ m m', SentAs b (.delete s) m ∧ SentAs b (.delete s') m' ∧
      ∀ (D : Database) (rows : List SqlRow), ∃ kept kept', D.exec m rows = some kept ∧
        D.exec m' rows = some kept' ∧ kept'.Sublist kept := by
  have hs1 : steps.all DelStep.fits = true := by
    rw [List.all_append, Bool.and_eq_true] at hs; exact hs.1
  obtain ⟨text, args, m, a1, a2, _, a3⟩ := C70_delete b t ht steps hs1 s h
  obtain ⟨text', args', m', b1, b2, _, b3⟩ := C70_delete b t ht _ hs s' h'
  obtain ⟨d', h1, _⟩ := outcome_ok (C62_delete b t ht _ hs) h'
  have hc : steps.flatMap DelStep.condition ≠ [] := del_or_needs steps (d := deleteStart t) rfl h1
  refine ⟨m, m', ⟨text, args, a1, a2⟩, ⟨text', args', b1, b2⟩, fun D rows =>
    ⟨_, _, a3 D rows, b3 D rows, ?_⟩⟩
  refine sublist_filter (fun r hr => ?_) rows
  simp only [Bool.not_eq_true', List.any_eq_false, List.flatMap_append, List.flatMap_singleton,
    DelStep.further, DelStep.condition, List.append_nil] at hr ⊢
  exact fun x hx hw => hr x hx (wanted_wider D [] _ hc e x hw)

end

/-! ## The hypotheses can be met -/

section
attribute [local instance] Runtime.sample

private def col (name : Str) : Sql := .ref (.quoted [name])
private def int (n : Int) : Sql := .value (.int .int64 n)
private def table (name : Str) : SqlTable := ⟨false, .quoted [name], none⟩
private def eq (name : Str) (n : Int) : Sql := .binary s%"=" (col name) (int n)

/-- A row with the columns a, b and c. -/
private def row (a b c : Val) : SqlRow := fun n =>
  if n = s%"a" then a else if n = s%"b" then b else if n = s%"c" then c else .nil

private def n (k : Int) : Val := .int .int64 k

private def shown (rows : List SqlRow) : List (List Val) :=
  rows.map fun r => [r s%"a", r s%"b", r s%"c"]

private def rows4 : List SqlRow :=
  [row (n 1) (n 0) (n 0), row (n 0) (n 2) (n 3), row (n 1) .nil (n 3), row .nil (n 0) (n 3)]

/-- Integers are compared; everything else is unknown. -/
private def small : Database where
  compare op x y :=
    match x, y with
    | .int _ m, .int _ n => if op = s%"=" then (if m = n then .yes else .no) else .unknown
    | _, _ => .unknown
  call _ _ _ := .nil
  query _ _ _ := []
  column n := refText n
  columns := [.quoted [s%"a"], .quoted [s%"b"], .quoted [s%"c"]]
  join _ r := [r]
  source _ _ _ := rows4
  default _ := .nil
  clash target r new := target.all fun c => match r (refText c), new (refText c) with
    | .int _ m, .int _ n => m = n
    | _, _ => false
  excluded r new c := if c.take 9 = s%"excluded." then new (c.drop 9) else r c
  shape _ _ _ _ _ _ rows := rows.map fun r => [r s%"a", r s%"b"]

/-- `Where(a = 1)`, `Or(b = 2)`, `And(c = 3)` -/
private def delSteps : List DelStep :=
  [.where (eq s%"a" 1), .returning [.mk (col s%"a") none], .or (eq s%"b" 2), .and (eq s%"c" 3)]

example : fitsFrom (table s%"t") = true ∧ delSteps.all DelStep.fits = true := by decide +kernel

example : ((delete (buildFrom (table s%"t")) >>= runAll DelStep.apply delSteps).toOption).isSome =
    true := by decide +kernel

/-- The first row stays, for the AND comes last; so does the last, whose condition is NULL. -/
example : rows4.map (small.wanted [] (delSteps.flatMap DelStep.condition)) =
    [false, true, true, false] := by decide +kernel

private def updSteps : List UpdStep :=
  [.set [(.quoted [s%"c"], int 7), (.quoted [s%"a"], col s%"b")], .where (eq s%"a" 1),
   .set [(.quoted [s%"c"], int 8)]]

example : fitsTable (table s%"t") = true ∧ updSteps.all UpdStep.fits = true ∧
    ((update (.table (buildTable (table s%"t"))) >>=
      runAll UpdStep.apply updSteps).toOption).isSome = true := by decide +kernel

example : small.Distinct ((updSteps.flatMap UpdStep.assigned).map (·.1)) := by
  intro a ha b hb h
  simp [updSteps, UpdStep.assigned] at ha hb
  rcases ha with rfl | rfl | rfl <;> rcases hb with rfl | rfl | rfl <;>
    first | rfl | exact absurd h (by decide +kernel)

/-- The rows with a = 1 get b in a (as it was before), and 8 in c, the value given last. -/
example : (small.exec (.update [] (table s%"t") (.pairs [(.quoted [s%"a"], col s%"b"),
      (.quoted [s%"c"], int 8)]) [] (some (eq s%"a" 1)) []) rows4).map shown =
    some [[n 0, n 0, n 8], [n 0, n 2, n 3], [.nil, .nil, n 8], [.nil, n 0, n 3]] := by
  rfl

private def updColumns : List UpdStep :=
  [.setColumns [.quoted [s%"b"]], .using [int 1], .setColumns [.quoted [s%"a"]], .using [.null]]

example : updColumns.all UpdStep.fits = true ∧ updColumns.flatMap UpdStep.values ≠ [] ∧
    ((update (.table (buildTable (table s%"t"))) >>=
      runAll UpdStep.apply updColumns).toOption).isSome = true ∧
    small.once (updColumns.flatMap UpdStep.columns) = true := by
  refine ⟨by decide +kernel, by simp [updColumns, UpdStep.values], by decide +kernel, by decide +kernel⟩

/-- The values come before the columns. -/
private def insSteps : List InsStep :=
  [.values [[int 1, int 2], [int 3, .null]], .columns [.quoted [s%"b"], .quoted [s%"a"]]]

example : insSteps.all InsStep.fits = true ∧
    (insSteps.findSome? InsStep.assigned).isNone = true ∧
    ((insert (.table (buildTable (table s%"t"))) >>=
      runAll InsStep.apply insSteps).toOption).isSome = true ∧
    small.once (small.names (insSteps.flatMap InsStep.listed)) = true ∧
    (insSteps.flatMap InsStep.added).all (small.enough (insSteps.flatMap InsStep.listed)) = true := by decide +kernel

private def insSet : List InsStep :=
  [.returning [.mk (col s%"a") none],
   .set [(.quoted [s%"b"], int 1), (.quoted [s%"a"], int 2), (.quoted [s%"b"], int 3)]]

example : insSet.all InsStep.fits = true ∧ ((insert (.table (buildTable (table s%"t"))) >>=
      runAll InsStep.apply insSet).toOption).isSome = true := by decide +kernel

/-- Without `Columns` the first values are for the first columns of the table. -/
private def insPlain : List InsStep := [.values [[int 1, int 2], [int 3]]]

example : insPlain.all InsStep.fits = true ∧
    ((insert (.table (buildTable (table s%"t"))) >>=
      runAll InsStep.apply insPlain).toOption).isSome = true ∧
    small.once (small.names (insPlain.flatMap InsStep.listed)) = true ∧
    (insPlain.flatMap InsStep.added).all (small.enough (insPlain.flatMap InsStep.listed)) = true := by
  decide +kernel

private def insUpsert : List InsStep :=
  [.conflictUpdate [.quoted [s%"a"]]
     [(.quoted [s%"b"], int 9), (.quoted [s%"c"], .ref (.quoted [s%"excluded", s%"b"])),
      (.quoted [s%"b"], int 8)],
   .columns [.quoted [s%"b"], .quoted [s%"a"]],
   .values [[int 5, int 0], [int 6, int 7]]]

example : insUpsert.all InsStep.fits = true ∧
    (insUpsert.findSome? InsStep.assigned).isNone = true ∧
    ((insert (.table (buildTable (table s%"t"))) >>=
      runAll InsStep.apply insUpsert).toOption).isSome = true ∧
    small.once (small.names (insUpsert.flatMap InsStep.listed)) = true ∧
    (insUpsert.flatMap InsStep.added).all (small.enough (insUpsert.flatMap InsStep.listed)) = true := by decide +kernel

example : Settled small insUpsert := by
  intro target l h a ha b hb e
  cases h
  simp at ha hb
  rcases ha with rfl | rfl | rfl <;> rcases hb with rfl | rfl | rfl <;>
    first | rfl | exact absurd e (by decide +kernel)

/-- The first row to be inserted has a = 0, as the second row of the table, which gets 8 in b (the
value given last) and the 5 that was to be inserted in c; the other one is added. -/
example : (small.insertAll (asked small insUpsert) ((insUpsert.flatMap InsStep.added).map fun es c =>
      match small.listed (small.names (insUpsert.flatMap InsStep.listed)) es c with
      | some e => small.eval [] small.default e
      | none => small.default c) rows4).map shown =
    some [[n 1, n 0, n 0], [n 0, n 8, n 5], [n 1, .nil, n 3], [.nil, n 0, n 3], [n 7, n 6, .nil]] := by
  rfl

private def selSteps : List SelStep :=
  [.offset 1, .where (eq s%"c" 3), .from [table s%"t"], .limit 2, .columns [.mk (col s%"a") none]]

example : selSteps.all SelStep.fits = true ∧ oneDistinct selSteps = true ∧
    ((selectOf [.mk (col s%"b") none] >>= runAll SelStep.apply selSteps).toOption).isSome = true := by
  decide +kernel

/-- Three rows have c = 3; the first of them is left out. -/
example : small.answer (.mk [] .no [.mk (col s%"a") none] [table s%"t"] [] (some (eq s%"c" 3)) []
    none [] (some 2) (some 1)) = [[n 1, .nil], [.nil, n 0]] := by rfl

end

end Verif.Props
