import Verif.Lemmas.Insert
import Verif.Props.Set

/-!
# C34 to C36: columns, rows and conflict clause of INSERT
-/

set_option linter.unusedSectionVars false

namespace Verif.Props
open Spec

section
variable [GoRuntime]

/-! ## C34 -/

private theorem assigns_ne_nil {args : List Any} {g as : List (Column × Expr)}
    (hg : GivenArgs args g) (h2 : Assigns as g) : ∀ e ∈ as.map (·.2), e ≠ Expr.nil := by
  intro e he
  obtain ⟨ce, h3, rfl⟩ := List.mem_map.1 he
  have h4 := (h2.2 ce.1 ce.2).1 h3
  unfold lastGiven at h4
  cases hl : (g.filter (·.1 = ce.1)).getLast? with
  | none => rw [hl] at h4; cases h4
  | some x =>
    rw [hl] at h4
    have h5 : x ∈ g := (List.mem_filter.1 (List.mem_of_getLast? hl)).1
    have h6 : x.2 = ce.2 := Option.some.inj h4
    rw [← h6]
    obtain ⟨gs, h7, rfl⟩ := hg
    obtain ⟨g', h8, h9⟩ := List.mem_flatten.1 h5
    obtain ⟨kv, hkv⟩ := given_source h7 h8 h9
    exact newWrapped_ne_nil hkv.2

private theorem insertSet_inv {b b' : InsertStmt} {args : List Any} {g : List (Column × Expr)}
    (hg : GivenArgs args g) (h : b.Set args = .ok b') :
    ∃ as, Assigns as g ∧
      b' = { b with columns := as.map (·.1), values := .arrayList [.array (as.map (·.2))] } := by
  unfold InsertStmt.Set at h
  split at h
  · cases h
  · split at h
    · cases h
    · cases h
    · split at h
      · cases h
      · next s hs =>
        have hs' := mergeSet_given hg (p := { PairContainer.new with mode := .associative }) (by simp)
        rw [show toSet args = _ from hs'] at hs
        cases hs
        obtain ⟨as, h1, h2⟩ := assignAll_new ⟨rfl, rfl, rfl⟩
          (assignAll_mode_associative (p := { PairContainer.new with mode := .associative })
            (g := g) (.inl rfl))
        rw [h1] at h
        simp only [newArrayList_exprs (assigns_ne_nil hg h2)] at h
        cases h
        exact ⟨as, h2, rfl⟩

private theorem insert_clauses {b : InsertStmt} {t : Str} (h : (Stmt.insert b).write.string = .ok t)
    (hc : b.columns ≠ []) (hv : blank b.values = false) :
    ∃ columns values pre post, Texts (fun c : Column => c.write.string) b.columns columns ∧
      b.values.write.string = .ok values ∧
      t = pre ++ (s%" (" ++ commaText columns ++ s%") VALUES " ++ values) ++ post := by
  obtain ⟨into, values, conflict, columns, returning, -, h1, h2, -, -, -, rfl⟩ := C25_insert b t h
  have hce : b.columns.isEmpty = false := by simpa using hc
  obtain ⟨pre, post, hp⟩ := oneSpace_split (a := s%"INSERT INTO " ++ into)
    (x := s%"(" ++ commaText columns ++ s%")" ++ s%" " ++ (s%"VALUES " ++ values))
    (l := [some (s%"INSERT INTO " ++ into)])
    (r := [when (!actionBlank b.action) conflict,
         when (!b.returning.isEmpty) (s%"RETURNING " ++ commaText returning)]) (by simp)
  rw [← oneSpace_merge] at hp
  refine ⟨columns, values, pre, post ++ commentText b.comment, h1, h2 hv, ?_⟩
  simp only [hce, hv, Bool.not_false, when, if_true]
  simp only [List.cons_append, List.nil_append, when] at hp ⊢
  rw [hp]
  simp

/-- C34. `Set` with pairs `g`, followed by any calls: the text lists columns and values side by
side, each column of `g` once, and under it the expression given last for it. -/
theorem C34_insert (b b1 b2 : InsertStmt) (args : List Any) (g : List (Column × Expr))
    (calls : List InsCall) (t : Str) (h : b.Set args = .ok b1) (hg : GivenArgs args g)
    (hne : g ≠ []) (hc : runAll InsCall.apply calls b1 = .ok b2)
    (ht : (Stmt.insert b2).write.string = .ok t) :
    ∃ as xs pre post, Assigns as g ∧ Each PairText as xs ∧
      t = pre ++ (s%" (" ++ commaText (xs.map (·.1)) ++ s%") VALUES (" ++
        commaText (xs.map (·.2)) ++ s%")") ++ post := by
  obtain ⟨as, h1, rfl⟩ := insertSet_inv hg h
  have has : as ≠ [] := by
    intro h0
    subst h0
    obtain ⟨x, hx⟩ := List.exists_mem_of_ne_nil _ hne
    have := (lastGiven_isSome g x.1).2 (List.mem_map.2 ⟨x, hx, rfl⟩)
    obtain ⟨e, he⟩ := Option.isSome_iff_exists.1 this
    have := (h1.2 x.1 e).2 he
    cases this
  have hcol := C23_insert_first calls _ b2 hc .columns rfl (by
    simpa [InsClause.isSet] using has)
  have hval := C23_insert_first calls _ b2 hc .values rfl rfl
  simp only [InsClause.get] at hcol hval
  obtain ⟨columns, values, pre, post, h2, h3, rfl⟩ := insert_clauses ht
    (by rw [hcol]; simpa using has) (by rw [hval]; rfl)
  rw [hcol] at h2
  rw [hval] at h3
  obtain ⟨rows, h4, rfl⟩ := arrayList_text (ess := [as.map Prod.snd]) (t := values) h3
  cases h4 with
  | cons h5 h6 =>
    cases h6
    rename_i cells
    have key : ∀ {as : List (Column × Expr)} {cs es : List Str},
        Texts (fun c : Column => c.write.string) (as.map (·.1)) cs →
        Each (fun (e : Expr) t => e.write.string = .ok t) (as.map (·.2)) es →
        ∃ xs, Each PairText as xs ∧ cs = xs.map (·.1) ∧ es = xs.map (·.2) := by
      intro as
      induction as with
      | nil =>
        intro cs es h1 h2
        cases h2
        cases cs with
        | nil => exact ⟨[], .nil, rfl, rfl⟩
        | cons _ _ => cases h1
      | cons ce as ih =>
        intro cs es h1 h2
        cases cs with
        | nil => cases h1
        | cons c cs =>
          simp only [Texts, List.map_cons, List.cons.injEq] at h1
          cases h2 with
          | cons h3 h4 =>
            obtain ⟨xs, h5, rfl, rfl⟩ := ih h1.2 h4
            exact ⟨(c, _) :: xs, .cons ⟨h1.1, h3⟩ h5, rfl, rfl⟩
    obtain ⟨xs, h7, rfl, rfl⟩ := key h2 h5
    exact ⟨as, xs, pre, post, h1, h7, by simp [rowsText, commaText, List.intercalate]⟩

/-- C34. While neither columns nor values were given, `Set` accepts exactly the arguments that are
pairs and maps with usable keys and values. -/
theorem C34_accepted (b : InsertStmt) (hc : b.columns = []) (hv : b.values = .nil)
    (args : List Any) : (∃ b', b.Set args = .ok b') ↔ ∃ g, GivenArgs args g := by
  refine ⟨fun ⟨b', h⟩ => C33_insert b b' args h, ?_⟩
  rintro ⟨g, hg⟩
  obtain ⟨as, h1, h2⟩ := assignAll_new ⟨rfl, rfl, rfl⟩
    (assignAll_mode_associative (p := { PairContainer.new with mode := .associative })
      (g := g) (.inl rfl))
  have hs := mergeSet_given hg (p := { PairContainer.new with mode := .associative }) (by simp)
  unfold InsertStmt.Set
  rw [hc, hv, if_neg (by simp)]
  rw [show toSet args = _ from hs]
  simp only [Expr.isUnset, h1, newArrayList_exprs (assigns_ne_nil hg h2)]
  exact ⟨_, rfl⟩

/-! ## C35 -/

private theorem insert_values {b : InsertStmt} {t : Str} (h : (Stmt.insert b).write.string = .ok t)
    (hv : blank b.values = false) : ∃ values pre post, b.values.write.string = .ok values ∧
      t = pre ++ (s%" VALUES " ++ values) ++ post := by
  obtain ⟨into, values, conflict, columns, returning, -, h1, h2, -, -, -, rfl⟩ := C25_insert b t h
  obtain ⟨pre, post, hp⟩ := oneSpace_split (a := s%"INSERT INTO " ++ into)
    (x := s%"VALUES " ++ values)
    (l := [some (s%"INSERT INTO " ++ into),
      when (!b.columns.isEmpty) (s%"(" ++ commaText columns ++ s%")")])
    (r := [when (!actionBlank b.action) conflict,
         when (!b.returning.isEmpty) (s%"RETURNING " ++ commaText returning)]) (by simp)
  refine ⟨values, pre, post ++ commentText b.comment, h2 hv, ?_⟩
  simp only [hv, Bool.not_false, when, if_true]
  simp only [List.cons_append, List.nil_append, when] at hp ⊢
  rw [hp]
  simp

private theorem values_text {b b1 b2 : InsertStmt} {args : List Any} {calls : List InsCall}
    {t : Str} {rows : List (List Any)} (h : b.Values args = .ok b1)
    (hn : ∀ e, newArrayListExpression args = .ok e → ∃ ess : List (List Expr),
      Each (Each fun a e => newExpression a = .ok e) rows ess ∧ e = .arrayList (ess.map .array))
    (hne : rows ≠ []) (hc : runAll InsCall.apply calls b1 = .ok b2)
    (ht : (Stmt.insert b2).write.string = .ok t) :
    ∃ texts pre post, Each (Each CellText) rows texts ∧
      t = pre ++ (s%" VALUES " ++ rowsText texts) ++ post := by
  unfold InsertStmt.Values at h
  split at h
  · cases h
  · cases h
  · split at h
    · cases h
    · next e he =>
      cases h
      obtain ⟨ess, h1, rfl⟩ := hn e he
      have hb : blank (.arrayList (ess.map Expr.array)) = false := by
        cases h1 with
        | nil => exact absurd rfl hne
        | cons _ _ => rfl
      have hval := C23_insert_first calls _ b2 hc .values rfl (by
        simp only [InsClause.isSet]; rw [hb]; rfl)
      simp only [InsClause.get] at hval
      obtain ⟨values, pre, post, h2, rfl⟩ := insert_values ht (by rw [hval]; exact hb)
      rw [hval] at h2
      obtain ⟨texts, h3, rfl⟩ := arrayList_text h2
      refine ⟨texts, pre, post, ?_, rfl⟩
      refine each_mono ?_ (each_comp h1 h3)
      rintro row ts ⟨es, h4, h5⟩
      exact each_comp h4 h5

private theorem newArrayList_rows {arg : Any} {rows : List (List Any)} (ha : TableArgRows arg rows)
    (hne : rows ≠ []) (hp : ∀ row ∈ rows, PlainRow row) (extra : List Any) (e : Expr) :
    newArrayListExpression (arg :: extra) = .ok e ↔ ∃ ess : List (List Expr),
      Each (Each fun a e => newExpression a = .ok e) rows ess ∧ e = .arrayList (ess.map .array) := by
  unfold newArrayListExpression
  simp only [toArrayList_rows ha]
  have key := fun es => arrayRows_plain hp es
  constructor
  · intro h
    split at h
    · cases h
    · next h0 =>
      obtain ⟨ess, h1, h2⟩ := (key _).1 h0
      cases h1 with
      | nil => exact absurd rfl hne
      | cons _ _ => cases h2
    · next es _ h0 =>
      cases h
      obtain ⟨ess, h1, rfl⟩ := (key _).1 h0
      exact ⟨ess, h1, rfl⟩
  · rintro ⟨ess, h1, rfl⟩
    rw [(key _).2 ⟨ess, h1, rfl⟩]
    cases h1 with
    | nil => exact absurd rfl hne
    | cons _ _ => rfl

/-- C35. `Values` with a table, followed by any calls: one row for every row of the table, with the
cells in order.

Missing for C35: rows that consist of a single nil or of a single slice (`C35_false`). -/
theorem C35_rows_partial (b b1 b2 : InsertStmt) (arg : Any) (rows : List (List Any))
    (extra : List Any) (calls : List InsCall) (t : Str) (h : b.Values (arg :: extra) = .ok b1)
    (ha : TableArgRows arg rows) (hne : rows ≠ []) (hp : ∀ row ∈ rows, PlainRow row)
    (hc : runAll InsCall.apply calls b1 = .ok b2) (ht : (Stmt.insert b2).write.string = .ok t) :
    ∃ texts pre post, Each (Each CellText) rows texts ∧
      t = pre ++ (s%" VALUES " ++ rowsText texts) ++ post :=
  values_text h (fun e he => (newArrayList_rows ha hne hp extra e).1 he) hne hc ht

private theorem newArrayList_cells {v : Any} {l : List Any} (hv : ¬ SliceOfSlices v) (e : Expr) :
    newArrayListExpression (v :: l) = .ok e ↔
      ∃ e', newArrayExpression (v :: l) = .ok e' ∧ e = .arrayList [e'] := by
  unfold newArrayListExpression
  simp only [toArrayList_other hv]
  constructor
  · intro h
    split at h
    · cases h
    · next e' he => cases h; exact ⟨e', he, rfl⟩
  · rintro ⟨e', he, rfl⟩
    rw [he]

private theorem appendAll_single {row : List Any} {e : Expr} (he : (match appendAll row with
      | .error p => .error p
      | .ok es => .ok (.array es)) = Except.ok (ε := Panic) e) :
    ∃ es, Each (fun a e => newExpression a = .ok e) row es ∧ e = .array es := by
  split at he
  · cases he
  · next es hes => cases he; exact ⟨es, (appendAll_iff _ _).1 hes, rfl⟩

/-- C35. `Values` with cells, followed by any calls: one row with these cells, in order. -/
theorem C35_cells (b b1 b2 : InsertStmt) (v : Any) (l : List Any) (calls : List InsCall) (t : Str)
    (h : b.Values (v :: l) = .ok b1) (hv : ¬ SliceOfSlices v) (hp : PlainRow (v :: l))
    (hc : runAll InsCall.apply calls b1 = .ok b2) (ht : (Stmt.insert b2).write.string = .ok t) :
    ∃ cells pre post, Each CellText (v :: l) cells ∧
      t = pre ++ (s%" VALUES (" ++ commaText cells ++ s%")") ++ post := by
  obtain ⟨texts, pre, post, h1, rfl⟩ := values_text (rows := [v :: l]) h (by
    intro e he
    obtain ⟨e', h1, rfl⟩ := (newArrayList_cells hv e).1 he
    rw [newArrayExpression_plain hp] at h1
    obtain ⟨es, h2, rfl⟩ := appendAll_single h1
    exact ⟨[es], .cons h2 .nil, rfl⟩) (by simp) hc ht
  cases h1 with
  | cons h2 h3 =>
    cases h3
    exact ⟨_, pre, post, h2, by simp [rowsText, commaText, List.intercalate]⟩

/-- C35. `Values` with one slice, followed by any calls: one row with the elements of the slice. -/
theorem C35_slice (b b1 b2 : InsertStmt) (v : Any) (l : List Any) (calls : List InsCall) (t : Str)
    (h : b.Values [v] = .ok b1) (hv : SliceArg v l)
    (hc : runAll InsCall.apply calls b1 = .ok b2) (ht : (Stmt.insert b2).write.string = .ok t) :
    ∃ cells pre post, Each CellText l cells ∧
      t = pre ++ (s%" VALUES (" ++ commaText cells ++ s%")") ++ post := by
  have hs : ¬ SliceOfSlices v ∧ newArrayExpression [v] = match appendAll l with
      | .error p => .error p
      | .ok es => .ok (.array es) := by
    unfold SliceArg at hv
    split at hv
    · subst hv; exact ⟨id, rfl⟩
    · subst hv; exact ⟨id, rfl⟩
    · subst hv; exact ⟨id, rfl⟩
    · exact hv.elim
  obtain ⟨texts, pre, post, h1, rfl⟩ := values_text (rows := [l]) h (by
    intro e he
    obtain ⟨e', h1, rfl⟩ := (newArrayList_cells hs.1 e).1 he
    rw [hs.2] at h1
    obtain ⟨es, h2, rfl⟩ := appendAll_single h1
    exact ⟨[es], .cons h2 .nil, rfl⟩) (by simp) hc ht
  cases h1 with
  | cons h2 h3 =>
    cases h3
    exact ⟨_, pre, post, h2, by simp [rowsText, commaText, List.intercalate]⟩

/-- C35. While no values were given, a table is accepted exactly when all its cells are. -/
theorem C35_accepted (b : InsertStmt) (hb : b.values = .nil) (arg : Any) (rows : List (List Any))
    (extra : List Any) (ha : TableArgRows arg rows) (hne : rows ≠ [])
    (hp : ∀ row ∈ rows, PlainRow row) : (∃ b', b.Values (arg :: extra) = .ok b') ↔
      ∀ row ∈ rows, ∀ a ∈ row, ∃ e, newExpression a = .ok e := by
  have key := newArrayList_rows ha hne hp extra
  unfold InsertStmt.Values
  have hu : Expr.isUnset .nil = .ok true := rfl
  simp only [hb, hu]
  constructor
  · rintro ⟨b', h⟩
    split at h
    · cases h
    · next e he =>
      obtain ⟨ess, h1, -⟩ := (key e).1 he
      intro row hrow a ha
      obtain ⟨es, -, h2⟩ := each_target h1 hrow
      obtain ⟨e, -, h3⟩ := each_target h2 ha
      exact ⟨e, h3⟩
  · intro h
    obtain ⟨ess, h1⟩ := each_exists (R := Each fun a e => newExpression a = .ok e) fun row hrow =>
      each_exists (h row hrow)
    rw [(key _).2 ⟨ess, h1, rfl⟩]
    exact ⟨_, rfl⟩

/-- Arguments after a table are ignored. -/
theorem C35_extra_ignored (b : InsertStmt) (arg : Any) (rows : List (List Any)) (extra : List Any)
    (ha : TableArgRows arg rows) (hne : rows ≠ []) : b.Values (arg :: extra) = b.Values [arg] := by
  have h : newArrayListExpression (arg :: extra) = newArrayListExpression [arg] := by
    unfold newArrayListExpression
    simp only [toArrayList_rows ha]
    cases rows with
    | nil => exact absurd rfl hne
    | cons row rows =>
      unfold arrayRows
      cases newArrayExpression row with
      | error p => rfl
      | ok e =>
        cases arrayRows rows with
        | error p => rfl
        | ok es => rfl
  unfold InsertStmt.Values
  rw [h]

/-- C35, what the code does. While no values were given, `Values` is accepted exactly when the
arguments mean rows (`ValuesRows`: a row that is a single nil has no cell, a row that is a single
slice has its elements) and all their cells can be used as expressions. -/
theorem C35_exact_accepted (b : InsertStmt) (hb : b.values = .nil) (args : List Any) :
    (∃ b', b.Values args = .ok b') ↔
      ∃ rows, ValuesRows args rows ∧ ∀ row ∈ rows, ∀ a ∈ row, ∃ e, newExpression a = .ok e := by
  unfold InsertStmt.Values
  have hu : Expr.isUnset .nil = .ok true := rfl
  simp only [hb, hu]
  constructor
  · rintro ⟨b', h⟩
    split at h
    · cases h
    · next e he =>
      obtain ⟨rows, ess, h0, h1, -⟩ := (newArrayList_exact _ _).1 he
      refine ⟨rows, h0, fun row hrow a ha => ?_⟩
      obtain ⟨es, -, h2⟩ := each_target h1 hrow
      obtain ⟨e, -, h3⟩ := each_target h2 ha
      exact ⟨e, h3⟩
  · rintro ⟨rows, h0, h⟩
    obtain ⟨ess, h1⟩ := each_exists (R := Each fun a e => newExpression a = .ok e) fun row hrow =>
      each_exists (h row hrow)
    rw [(newArrayList_exact _ _).2 ⟨rows, ess, h0, h1, rfl⟩]
    exact ⟨_, rfl⟩

/-- C35, what the code does. `Values` followed by any calls writes exactly the rows meant by the
arguments, with their cells in order. -/
theorem C35_exact (b b1 b2 : InsertStmt) (args : List Any) (calls : List InsCall) (t : Str)
    (h : b.Values args = .ok b1) (hc : runAll InsCall.apply calls b1 = .ok b2)
    (ht : (Stmt.insert b2).write.string = .ok t) :
    ∃ rows texts pre post, ValuesRows args rows ∧ Each (Each CellText) rows texts ∧
      t = pre ++ (s%" VALUES " ++ rowsText texts) ++ post := by
  have h' := h
  unfold InsertStmt.Values at h'
  split at h'
  · cases h'
  · cases h'
  · split at h'
    · cases h'
    · next e he =>
      obtain ⟨rows, ess, h0, h1, rfl⟩ := (newArrayList_exact _ _).1 he
      have hne : rows ≠ [] := by
        obtain ⟨v, l, -, ⟨table, -, h2, rfl⟩ | ⟨-, rfl⟩⟩ := h0
        · simpa using h2
        · simp
      obtain ⟨texts, pre, post, h2, h3⟩ := values_text (rows := rows) h
        (fun e' he' => by rw [he] at he'; cases he'; exact ⟨ess, h1, rfl⟩) hne hc ht
      exact ⟨rows, texts, pre, post, h0, h2, h3⟩

/-- `Values()` without arguments fails with an index out of range. -/
theorem C35_none (b : InsertStmt) (h : b.values = .nil) : b.Values [] = .error .index := by
  unfold InsertStmt.Values
  have hu : Expr.isUnset .nil = .ok true := rfl
  simp only [h, hu]
  rfl

/-! ## C36 -/

private theorem insert_frame {calls : List InsCall} {b b' : InsertStmt} {c : InsClause}
    (hc : ∀ call ∈ calls, c ∉ call.clauses) (h : runAll InsCall.apply calls b = .ok b') :
    c.get b' = c.get b := by
  induction calls generalizing b with
  | nil => cases h; rfl
  | cons call l ih =>
    rw [runAll] at h
    split at h
    · cases h
    · next b1 h1 =>
      rw [ih (fun c hc' => hc c (List.mem_cons_of_mem _ hc')) h]
      exact C23_insert_frame call b b1 h1 c (hc call List.mem_cons_self)

private theorem fresh_conflict {table : Any} {b0 b : InsertStmt} {calls : List InsCall}
    (h0 : insert table = .ok b0) (hc : runAll InsCall.apply calls b0 = .ok b)
    (hn : ∀ call ∈ calls, .onConflict ∉ call.clauses) : b.target = [] ∧ b.action = .nil := by
  have h1 : (b.target, b.action) = (b0.target, b0.action) :=
    insert_frame (c := .onConflict) hn hc
  have h2 : b0.target = [] ∧ b0.action = .nil := by
    unfold insert InsertStmt.Into at h0
    split at h0
    · cases h0
    · split at h0
      · cases h0
      · cases h0; exact ⟨rfl, rfl⟩
  rw [h2.1, h2.2] at h1
  exact Prod.ext_iff.1 h1

/-- C36. On an INSERT without conflict clause, `OnConflict` accepts exactly: columns, then an
action, then anything; and for DO UPDATE at least one column. -/
theorem C36_accepted (table : Any) (b0 b : InsertStmt) (calls : List InsCall) (args : List Any)
    (h0 : insert table = .ok b0) (hc : runAll InsCall.apply calls b0 = .ok b)
    (hn : ∀ call ∈ calls, .onConflict ∉ call.clauses) :
    (∃ b', b.OnConflict args = .ok b') ↔ ∃ targets cs action rest, Each KeyArg targets cs ∧
      args = targets ++ action :: rest ∧
      (action = .conflictNothing ∨ ∃ set, action = .conflictUpdate set ∧ targets ≠ []) := by
  obtain ⟨ht, ha⟩ := fresh_conflict h0 hc hn
  have hu : (∃ b', b.OnConflict args = .ok b') ↔ ∃ b', b.onConflictLoop args = .ok b' := by
    unfold InsertStmt.OnConflict
    rw [ha, if_neg (by simp [ConflictAction.isEmpty])]
    cases args with
    | nil => exact ⟨fun ⟨_, h⟩ => (by cases h), fun ⟨_, h⟩ => (by cases h)⟩
    | cons _ _ => exact Iff.rfl
  rw [hu]
  constructor
  · rintro ⟨b', h⟩
    obtain ⟨targets, rest, cs, h1, ⟨h2, -⟩ | ⟨set, h2, h3, -⟩⟩ := (onConflictLoop_iff _ _ _).1 h
    · exact ⟨targets, cs, _, rest, h1, h2, .inl rfl⟩
    · refine ⟨targets, cs, _, rest, h1, h2, .inr ⟨set, rfl, ?_⟩⟩
      rintro rfl
      cases h1
      exact h3 (by simp [ht])
  · rintro ⟨targets, cs, action, rest, h1, h2, rfl | ⟨set, rfl, h3⟩⟩
    · exact ⟨_, (onConflictLoop_iff _ _ _).2 ⟨targets, rest, cs, h1, .inl ⟨h2, rfl⟩⟩⟩
    · refine ⟨_, (onConflictLoop_iff _ _ _).2 ⟨targets, rest, cs, h1, .inr ⟨set, h2, ?_, rfl⟩⟩⟩
      cases h1 with
      | nil => exact absurd rfl h3
      | cons _ _ => simp

private theorem conflict_text {b : InsertStmt} {t : Str} (hb : actionBlank b.action = false)
    (h : (Stmt.insert b).write.string = .ok t) :
    ∃ ts a pre post, Texts (fun c : Column => c.write.string) b.target ts ∧
      b.action.write.string = .ok a ∧
      t = pre ++ (s%" ON CONFLICT " ++ targetText ts ++ a) ++ post := by
  obtain ⟨into, values, conflict, columns, returning, -, h1, -, h2, -, -, rfl⟩ := C25_insert b t h
  obtain ⟨ts, a, h3, h4, rfl⟩ := onConflict_text hb (h2 hb)
  obtain ⟨pre, post, hp⟩ := oneSpace_split (a := s%"INSERT INTO " ++ into)
    (x := s%"ON CONFLICT " ++ targetText ts ++ a)
    (l := [some (s%"INSERT INTO " ++ into),
      when (!b.columns.isEmpty) (s%"(" ++ commaText columns ++ s%")"),
      when (!blank b.values) (s%"VALUES " ++ values)])
    (r := [when (!b.returning.isEmpty) (s%"RETURNING " ++ commaText returning)]) (by simp)
  refine ⟨ts, a, pre, post ++ commentText b.comment, h3, h4, ?_⟩
  simp only [hb, Bool.not_false, when, if_true]
  simp only [List.cons_append, List.nil_append, when] at hp ⊢
  rw [hp]
  simp

/-- What an action of `OnConflict` stands for: `DO NOTHING`, or `DO UPDATE SET` with the pairs
given to `DoUpdate`. -/
private theorem conflict_run {table : Any} {b0 b b1 b2 : InsertStmt} {calls calls' : List InsCall}
    {targets rest : List Any} {cs : List Column} {action : Any} (h0 : insert table = .ok b0)
    (hc : runAll InsCall.apply calls b0 = .ok b)
    (hn : ∀ call ∈ calls, .onConflict ∉ call.clauses) (hk : Each KeyArg targets cs)
    (h : b.OnConflict (targets ++ action :: rest) = .ok b1)
    (hc' : runAll InsCall.apply calls' b1 = .ok b2) (act : ConflictAction)
    (hact : (action = .conflictNothing ∧ act = .nothing) ∨
      ∃ set, action = .conflictUpdate set ∧ act = .update set) (hb : actionBlank act = false) :
    b2.target = cs ∧ b2.action = act := by
  obtain ⟨ht, ha⟩ := fresh_conflict h0 hc hn
  have h1 : b1.target = cs ∧ b1.action = act := by
    unfold InsertStmt.OnConflict at h
    rw [ha, if_neg (by simp [ConflictAction.isEmpty]), if_neg (by simp),
      onConflictLoop_targets hk] at h
    rcases hact with ⟨rfl, rfl⟩ | ⟨set, rfl, rfl⟩
    · cases h
      exact ⟨by simp [ht], rfl⟩
    · rw [InsertStmt.onConflictLoop] at h
      split at h
      · cases h
      · cases h
        exact ⟨by simp [ht], rfl⟩
  have h2 := C23_insert_first calls' b1 b2 hc' .onConflict rfl (by
    simp only [InsClause.isSet, h1.2]
    cases act with
    | nil => cases hb
    | nothing => rfl
    | update set => simpa [actionBlank] using hb)
  have h3 : (b2.target, b2.action) = (b1.target, b1.action) := h2
  rw [h1.1, h1.2] at h3
  exact Prod.ext_iff.1 h3

/-- C36. `OnConflict(targets..., DoNothing())` followed by any calls: the clause names exactly the
targets, in order. -/
theorem C36_nothing (table : Any) (b0 b b1 b2 : InsertStmt) (calls calls' : List InsCall)
    (targets rest : List Any) (cs : List Column) (t : Str) (h0 : insert table = .ok b0)
    (hc : runAll InsCall.apply calls b0 = .ok b)
    (hn : ∀ call ∈ calls, .onConflict ∉ call.clauses) (hk : Each KeyArg targets cs)
    (h : b.OnConflict (targets ++ .conflictNothing :: rest) = .ok b1)
    (hc' : runAll InsCall.apply calls' b1 = .ok b2) (ht : (Stmt.insert b2).write.string = .ok t) :
    ∃ ts pre post, Texts (fun c : Column => c.write.string) cs ts ∧
      t = pre ++ (s%" ON CONFLICT " ++ targetText ts ++ s%"DO NOTHING") ++ post := by
  obtain ⟨h1, h2⟩ := conflict_run h0 hc hn hk h hc' .nothing (.inl ⟨rfl, rfl⟩) rfl
  obtain ⟨ts, a, pre, post, h3, h4, rfl⟩ := conflict_text (by rw [h2]; rfl) ht
  rw [h1] at h3
  rw [h2] at h4
  cases h4
  exact ⟨ts, pre, post, h3, rfl⟩

/-- C36. `OnConflict(targets..., DoUpdate(pairs...))` followed by any calls: the clause names exactly
the targets, in order, and assigns the columns of the pairs.

Missing for C36: `DoUpdate` without pairs (`C36_empty_update_false`). -/
theorem C36_update_partial (table : Any) (b0 b b1 b2 : InsertStmt) (calls calls' : List InsCall)
    (targets rest args : List Any) (action : Any) (g : List (Column × Expr)) (cs : List Column)
    (t : Str) (h0 : insert table = .ok b0) (hc : runAll InsCall.apply calls b0 = .ok b)
    (hn : ∀ call ∈ calls, .onConflict ∉ call.clauses) (hk : Each KeyArg targets cs)
    (hd : doUpdate args = .ok action) (hg : GivenArgs args g) (hne : g ≠ [])
    (h : b.OnConflict (targets ++ action :: rest) = .ok b1)
    (hc' : runAll InsCall.apply calls' b1 = .ok b2) (ht : (Stmt.insert b2).write.string = .ok t) :
    ∃ ts as xs pre post, Texts (fun c : Column => c.write.string) cs ts ∧ ts ≠ [] ∧
      Assigns as g ∧ Each PairText as xs ∧
      t = pre ++ (s%" ON CONFLICT (" ++ commaText ts ++ s%") DO UPDATE SET " ++ assignText xs) ++
        post := by
  unfold doUpdate at hd
  split at hd
  · cases hd
  · next set hs =>
    cases hd
    have hs' := mergeSet_given hg (p := { PairContainer.new with mode := .associative }) (by simp)
    rw [show toSet args = _ from hs'] at hs
    cases hs
    have hm := assignAll_mode_associative (p := { PairContainer.new with mode := .associative })
      (g := g) (.inl rfl)
    obtain ⟨as, h5, h6⟩ := assignAll_new ⟨rfl, rfl, rfl⟩ hm
    have hb : actionBlank (.update (assignAll { PairContainer.new with mode := .associative } g)) =
        false := by
      obtain ⟨x, hx⟩ := List.exists_mem_of_ne_nil _ hne
      have hl := (lastGiven_isSome g x.1).2 (List.mem_map.2 ⟨x, hx, rfl⟩)
      obtain ⟨e, he⟩ := Option.isSome_iff_exists.1 hl
      have hk := lookup_all { PairContainer.new with mode := .associative } g x.1
      rw [he] at hk
      simp only [actionBlank, setBlank, hm]
      cases hmap : (assignAll { PairContainer.new with mode := .associative } g).map with
      | nil => rw [hmap] at hk; cases hk
      | cons _ _ => rfl
    obtain ⟨h1, h2⟩ := conflict_run h0 hc hn hk h hc' _ (.inr ⟨_, rfl, rfl⟩) hb
    obtain ⟨ts, a, pre, post, h3, h4, rfl⟩ := conflict_text (by rw [h2]; exact hb) ht
    rw [h1] at h3
    rw [h2] at h4
    obtain ⟨u, h7, rfl⟩ := doUpdate_text h4
    obtain ⟨xs, h8, rfl⟩ := set_text hm h5 h7
    have hcs : cs ≠ [] := by
      rintro rfl
      obtain ⟨ht0, ha0⟩ := fresh_conflict h0 hc hn
      unfold InsertStmt.OnConflict at h
      rw [ha0, if_neg (by simp [ConflictAction.isEmpty]), if_neg (by simp),
        onConflictLoop_targets hk, InsertStmt.onConflictLoop, if_pos (by simp [ht0])] at h
      cases h
    have hts : ts ≠ [] := by
      rintro rfl
      cases cs with
      | nil => exact hcs rfl
      | cons _ _ => cases h3
    refine ⟨ts, as, xs, pre, post, h3, hts, h6, h8, ?_⟩
    simp [targetText, hts]

/-- C36, what the code does for `DoUpdate` without pairs: while there is no conflict clause, the call
has no effect on any rendering of the statement. -/
theorem C36_empty_update (b b1 : InsertStmt) (targets rest args : List Any) (action : Any)
    (cs : List Column) (hb : actionBlank b.action = true) (hk : Each KeyArg targets cs)
    (hd : doUpdate args = .ok action) (hg : GivenArgs args [])
    (h : b.OnConflict (targets ++ action :: rest) = .ok b1) :
    (Stmt.insert b1).write = (Stmt.insert b).write := by
  unfold doUpdate at hd
  split at hd
  · cases hd
  · next set hs =>
    cases hd
    have hs' := mergeSet_given hg (p := { PairContainer.new with mode := .associative }) (by simp)
    rw [show toSet args = _ from hs'] at hs
    cases hs
    have hb' : b.action.isEmpty = true := by rw [actionIsEmpty_eq, hb]
    have he : (ConflictAction.update (assignAll { PairContainer.new with mode := .associative }
      [])).isEmpty = true := rfl
    unfold InsertStmt.OnConflict at h
    rw [hb', if_neg (by simp), if_neg (by simp), onConflictLoop_targets hk,
      InsertStmt.onConflictLoop] at h
    split at h
    · cases h
    · cases h
      unfold Stmt.write InsertStmt.write
      simp only [hb', he, if_true]

/-- C36. Arguments after the action are ignored. -/
theorem C36_rest_ignored (b : InsertStmt) (targets : List Any) (cs : List Column) (action : Any)
    (rest : List Any) (hk : Each KeyArg targets cs)
    (ha : action = .conflictNothing ∨ ∃ set, action = .conflictUpdate set) :
    b.OnConflict (targets ++ action :: rest) = b.OnConflict (targets ++ [action]) := by
  unfold InsertStmt.OnConflict
  simp only [onConflictLoop_targets hk]
  have h : ∀ b : InsertStmt, b.onConflictLoop (action :: rest) = b.onConflictLoop [action] := by
    intro b
    rcases ha with rfl | ⟨set, rfl⟩ <;> rfl
  rw [h]
  simp

/-- C36. What `OnConflict` accepts on every INSERT, exactly, and what it leaves: there is no conflict
clause that would be rendered; the arguments are columns, an action, and anything; and for DO UPDATE there
is a column, which can be one that an earlier call with `DoUpdate()` has left. -/
theorem C36_accepted_exact (b b' : InsertStmt) (args : List Any) :
    b.OnConflict args = .ok b' ↔ actionBlank b.action = true ∧
      ∃ targets cs action rest, Each KeyArg targets cs ∧ args = targets ++ action :: rest ∧
        (action = .conflictNothing ∧ b' = { b with target := b.target ++ cs, action := .nothing } ∨
          ∃ set, action = .conflictUpdate set ∧ (b.target ≠ [] ∨ targets ≠ []) ∧
            b' = { b with target := b.target ++ cs, action := .update set }) := by
  have hne : ∀ {targets : List Any} {cs : List Column}, Each KeyArg targets cs →
      (b.target ++ cs ≠ [] ↔ b.target ≠ [] ∨ targets ≠ []) := by
    intro targets cs h
    cases h with
    | nil => simp
    | cons _ _ => simp
  unfold InsertStmt.OnConflict
  rw [actionIsEmpty_eq]
  cases hb : actionBlank b.action with
  | false => exact ⟨fun h => (by cases h), fun h => (by cases h.1)⟩
  | true =>
    have hu : (if args.isEmpty = true then Go.panic "loukoum: on conflict clause requires arguments"
        else b.onConflictLoop args) = .ok b' ↔ b.onConflictLoop args = .ok b' := by
      cases args with
      | nil => exact ⟨fun h => (by cases h), fun h => (by cases h)⟩
      | cons _ _ => exact Iff.rfl
    rw [if_neg (by simp), hu, onConflictLoop_iff]
    constructor
    · rintro ⟨targets, rest, cs, h1, ⟨h2, h3⟩ | ⟨set, h2, h3, h4⟩⟩
      · exact ⟨rfl, targets, cs, _, rest, h1, h2, .inl ⟨rfl, h3⟩⟩
      · exact ⟨rfl, targets, cs, _, rest, h1, h2, .inr ⟨set, rfl, (hne h1).1 h3, h4⟩⟩
    · rintro ⟨-, targets, cs, action, rest, h1, h2, ⟨rfl, h3⟩ | ⟨set, rfl, h3, h4⟩⟩
      · exact ⟨targets, rest, cs, h1, .inl ⟨h2, h3⟩⟩
      · exact ⟨targets, rest, cs, h1, .inr ⟨set, h2, (hne h1).2 h3, h4⟩⟩

private theorem each_append {α β : Type} {R : α → β → Prop} {l l' : List α} {m : List β}
    (h : Each R (l ++ l') m) : ∃ m1 m2, m = m1 ++ m2 ∧ Each R l m1 ∧ Each R l' m2 := by
  induction l generalizing m with
  | nil => exact ⟨[], m, rfl, .nil, h⟩
  | cons a l ih =>
    cases h with
    | cons h1 h2 =>
      obtain ⟨m1, m2, rfl, h3, h4⟩ := ih h2
      exact ⟨_ :: m1, m2, rfl, .cons h1 h3, h4⟩

/-- C36, what the code does with several `OnConflict`: those whose `DoUpdate` has no pairs are accepted
any number of times, and their targets are not forgotten; the clause that is rendered in the end, here
that of `OnConflict(targets..., DoNothing())`, names the targets of all of them, in order. -/
theorem C36_left_over (table : Any) (b0 b b' b1 b2 : InsertStmt) (calls calls' : List InsCall)
    (empty : List (List Any)) (left : List Column) (update : Any)
    (targets rest : List Any) (cs : List Column) (t : Str) (h0 : insert table = .ok b0)
    (hc : runAll InsCall.apply calls b0 = .ok b)
    (hn : ∀ call ∈ calls, .onConflict ∉ call.clauses) (hd : doUpdate [] = .ok update)
    (he : runAll (fun ts b => InsertStmt.OnConflict b (ts ++ [update])) empty b = .ok b')
    (hl : Each KeyArg empty.flatten left) (hk : Each KeyArg targets cs)
    (h : b'.OnConflict (targets ++ .conflictNothing :: rest) = .ok b1)
    (hc' : runAll InsCall.apply calls' b1 = .ok b2) (ht : (Stmt.insert b2).write.string = .ok t) :
    ∃ ts pre post, Texts (fun c : Column => c.write.string) (left ++ cs) ts ∧
      t = pre ++ (s%" ON CONFLICT " ++ targetText ts ++ s%"DO NOTHING") ++ post := by
  obtain ⟨ht0, ha0⟩ := fresh_conflict h0 hc hn
  cases hd
  have key : ∀ (empty : List (List Any)) (b b' : InsertStmt) (left : List Column),
      b.action.isEmpty = true → Each KeyArg empty.flatten left →
      runAll (fun ts b => InsertStmt.OnConflict b (ts ++ [.conflictUpdate
        { PairContainer.new with mode := .associative }])) empty b = .ok b' →
      b'.target = b.target ++ left ∧ b'.action.isEmpty = true := by
    intro empty
    induction empty with
    | nil =>
      intro b b' left hb hl he
      cases hl
      cases he
      exact ⟨by simp, hb⟩
    | cons as l ih =>
      intro b b' left hb hl he
      rw [List.flatten_cons] at hl
      obtain ⟨m1, m2, rfl, h3, h4⟩ := each_append hl
      rw [runAll] at he
      split at he
      · cases he
      · next b3 h5 =>
        unfold InsertStmt.OnConflict at h5
        rw [hb, if_neg (by simp), if_neg (by simp), onConflictLoop_targets h3,
          InsertStmt.onConflictLoop] at h5
        split at h5
        · cases h5
        · cases h5
          obtain ⟨h6, h7⟩ := ih _ _ m2 rfl h4 he
          exact ⟨by rw [h6]; simp, h7⟩
  obtain ⟨k1, k2⟩ := key empty b b' left (by rw [ha0]; rfl) hl he
  have h1 : b1.target = left ++ cs ∧ b1.action = .nothing := by
    unfold InsertStmt.OnConflict at h
    rw [k2, if_neg (by simp), if_neg (by simp), onConflictLoop_targets hk] at h
    cases h
    exact ⟨by simp [k1, ht0], rfl⟩
  have h2 := C23_insert_first calls' b1 b2 hc' .onConflict rfl (by
    simp only [InsClause.isSet, h1.2])
  have h3 : (b2.target, b2.action) = (b1.target, b1.action) := h2
  rw [h1.1, h1.2] at h3
  obtain ⟨e1, e2⟩ := Prod.ext_iff.1 h3
  obtain ⟨ts, a, pre, post, h4, h5, rfl⟩ := conflict_text (by rw [show b2.action = _ from e2]; rfl) ht
  rw [show b2.target = _ from e1] at h4
  rw [show b2.action = _ from e2] at h5
  cases h5
  exact ⟨ts, pre, post, h4, rfl⟩

end

/-! ## Concrete cases and failures -/

section
attribute [local instance] Runtime.sample

/-- The hypotheses of C34 are met by `Insert("t").Set(Pair("b", 1), Map{"a": "x"}, Pair("b", 2))`. -/
example : (do
    let b ← insert (.val (.str s%"t"))
    let b ← b.Set [.pair (.val (.str s%"b")) (.val (.int .int 1)),
      .strMap 0 [(s%" a ", .val (.str s%"x"))], .pair (.val (.str s%"b")) (.val (.int .int 2))]
    let b ← b.Returning [.val (.str s%"id")]
    (Stmt.insert b).write.string) =
    .ok s%"INSERT INTO \"t\" (\"a\", \"b\") VALUES ('x', 2) RETURNING \"id\"" := by rfl

/-- Without pairs `Set` writes an empty row. -/
example : (do
    let b ← insert (.val (.str s%"t"))
    let b ← b.Set []
    (Stmt.insert b).write.string) = .ok s%"INSERT INTO \"t\" VALUES ()" := by rfl

/-- The hypotheses of `C35_rows_partial` are met by a table of two rows. -/
example : (do
    let b ← insert (.val (.str s%"t"))
    let b ← b.Values [.anyss [[.val (.int .int 1), .val .nil], [.val (.str s%"x"), .val (.bool true)]]]
    let b ← b.Columns [.val (.str s%"a"), .val (.str s%"b")]
    (Stmt.insert b).write.string) =
    .ok s%"INSERT INTO \"t\" (\"a\", \"b\") VALUES (1, NULL), ('x', true)" := by rfl

example : ∀ row ∈ [[Any.val (.int .int 1), .val .nil], [.val (.str s%"x"), .val (.bool true)]],
    PlainRow row := by
  intro row h v hv
  simp only [List.mem_cons, List.not_mem_nil, or_false] at h
  rcases h with rfl | rfl <;> cases hv

/-- The hypotheses of `C35_cells` are met by `Values(1, nil, "x")`. -/
example : (do
    let b ← insert (.val (.str s%"t"))
    let b ← b.Values [.val (.int .int 1), .val .nil, .val (.str s%"x")]
    (Stmt.insert b).write.string) = .ok s%"INSERT INTO \"t\" VALUES (1, NULL, 'x')" := by rfl

/-- The hypotheses of `C35_slice` are met by `Values([]string{"x", "y"})`. -/
example : (do
    let b ← insert (.val (.str s%"t"))
    let b ← b.Values [.val (.slice .string [.str s%"x", .str s%"y"])]
    (Stmt.insert b).write.string) = .ok s%"INSERT INTO \"t\" VALUES ('x', 'y')" := by rfl

/-- C35 fails for a row with a single nil, which loses its cell: the two rows of
`[][]interface{}{{1}, {nil}}` are written `(1), ()`. -/
theorem C35_false : ¬ ∀ (b b1 : InsertStmt) (arg : Any) (rows : List (List Any)) (t : Str),
    b.Values [arg] = .ok b1 → TableArgRows arg rows → rows ≠ [] →
    (Stmt.insert b1).write.string = .ok t → ∃ texts pre post, Each (Each CellText) rows texts ∧
      t = pre ++ (s%" VALUES " ++ rowsText texts) ++ post := by
  intro h
  obtain ⟨texts, pre, post, h1, h2⟩ := h { InsertStmt.zero with into := { name := s%"t" } } _
    (.anyss [[.val (.int .int 1)], [.val .nil]]) [[.val (.int .int 1)], [.val .nil]]
    s%"INSERT INTO \"t\" VALUES (1), ()" rfl rfl (by simp) (by rfl)
  have one : ∀ t, CellText (.val (.int .int 1)) t → t = s%"1" := by
    rintro t ⟨e, he, ht⟩; cases he; cases ht; rfl
  have null : ∀ t, CellText (.val .nil) t → t = s%"NULL" := by
    rintro t ⟨e, he, ht⟩; cases he; cases ht; rfl
  cases h1 with
  | cons h3 h4 =>
    cases h3 with
    | cons h5 h6 =>
      cases h6
      cases h4 with
      | cons h7 h8 =>
        cases h8
        cases h7 with
        | cons h9 h10 =>
          cases h10
          rw [one _ h5, null _ h9] at h2
          have : s%" VALUES (1), (NULL)" <:+: s%"INSERT INTO \"t\" VALUES (1), ()" :=
            ⟨pre, post, h2.symm⟩
          revert this
          decide

/-- A row with a single slice is spread over several cells. -/
example : (do
    let b ← insert (.val (.str s%"t"))
    let b ← b.Values [.anyss [[.val (.slice (.int .int64) [.int .int64 1, .int .int64 2])]]]
    (Stmt.insert b).write.string) = .ok s%"INSERT INTO \"t\" VALUES (1, 2)" := by rfl

/-- `Values(nil)` writes a row without cells. -/
example : (do
    let b ← insert (.val (.str s%"t"))
    let b ← b.Values [.val .nil]
    (Stmt.insert b).write.string) = .ok s%"INSERT INTO \"t\" VALUES ()" := by rfl

/-- The hypotheses of C36 are met by
`OnConflict("a", Column("b"), DoUpdate(Pair("c", 1), Pair("c", 2)))`. -/
example : (do
    let b ← insert (.val (.str s%"t"))
    let b ← b.Values [.val (.int .int 1)]
    let action ← doUpdate [.pair (.val (.str s%"c")) (.val (.int .int 1)),
      .pair (.val (.str s%"c")) (.val (.int .int 2))]
    let b ← b.OnConflict [.val (.str s%" a "), .selExpr (.column { name := s%"b" }), action]
    let b ← b.Returning [.val (.str s%"id")]
    (Stmt.insert b).write.string) = .ok (s%"INSERT INTO \"t\" VALUES (1) " ++
      s%"ON CONFLICT (\"a\", \"b\") DO UPDATE SET \"c\" = 2 RETURNING \"id\"") := by rfl

/-- DO NOTHING needs no target. -/
example : (do
    let b ← insert (.val (.str s%"t"))
    let b ← b.OnConflict [.conflictNothing]
    (Stmt.insert b).write.string) = .ok s%"INSERT INTO \"t\" ON CONFLICT DO NOTHING" := by rfl

/-- C36 fails for `DoUpdate` without pairs: the call is accepted, and the text has no conflict
clause at all, so a conflicting INSERT fails instead. -/
theorem C36_empty_update_false : ¬ ∀ (table : Any) (b0 b1 : InsertStmt) (targets : List Any)
    (cs : List Column) (action : Any) (t : Str), insert table = .ok b0 → Each KeyArg targets cs →
    doUpdate [] = .ok action → b0.OnConflict (targets ++ [action]) = .ok b1 →
    (Stmt.insert b1).write.string = .ok t → ∃ pre post, t = pre ++ s%" ON CONFLICT " ++ post := by
  intro h
  obtain ⟨pre, post, h1⟩ := h (.val (.str s%"t")) _ _ [.selExpr (.column { name := s%"a" })]
    [{ name := s%"a" }] _ s%"INSERT INTO \"t\"" rfl (.cons ⟨rfl, by simp⟩ .nil) rfl rfl (by rfl)
  have : s%" ON CONFLICT " <:+: s%"INSERT INTO \"t\"" := ⟨pre, post, h1.symm⟩
  revert this
  decide

/-- After such a call DO UPDATE is accepted without a target of its own. -/
example : (do
    let b ← insert (.val (.str s%"t"))
    let action ← doUpdate []
    let b ← b.OnConflict [.val (.str s%"a"), action]
    let action ← doUpdate [.pair (.val (.str s%"c")) (.val (.int .int 2))]
    let b ← b.OnConflict [action]
    (Stmt.insert b).write.string) =
    .ok s%"INSERT INTO \"t\" ON CONFLICT (\"a\") DO UPDATE SET \"c\" = 2" := by rfl

/-- After such a call a second `OnConflict` is accepted too, and adds its targets to the first. -/
example : (do
    let b ← insert (.val (.str s%"t"))
    let action ← doUpdate []
    let b ← b.OnConflict [.val (.str s%"a"), action]
    let b ← b.OnConflict [.val (.str s%"b"), .conflictNothing]
    (Stmt.insert b).write.string) =
    .ok s%"INSERT INTO \"t\" ON CONFLICT (\"a\", \"b\") DO NOTHING" := by rfl

end

end Verif.Props
