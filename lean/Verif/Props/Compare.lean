import Verif.Lemmas.Compare
import Verif.Model.Builder
import Verif.Props.Sample

/-!
# C19-C22: comparisons, sub-selects as operands, IN, BETWEEN
-/

set_option linter.unusedSectionVars false

namespace Verif.Props
open Spec

/-- The comparison methods of identifiers (`loukoum.Condition`). -/
def onIdent (i : Ident) : Cmp → Any → Go Expr
  | .Contains => i.Contains
  | .IsContainedBy => i.IsContainedBy
  | .Overlap => i.Overlap
  | .Equal => i.Equal
  | .NotEqual => i.NotEqual
  | .Is => i.Is
  | .IsNot => i.IsNot
  | .GreaterThan => i.GreaterThan
  | .GreaterThanOrEqual => i.GreaterThanOrEqual
  | .LessThan => i.LessThan
  | .LessThanOrEqual => i.LessThanOrEqual
  | .Like => i.Like
  | .NotLike => i.NotLike
  | .ILike => i.ILike
  | .NotILike => i.NotILike
  | .IsDistinctFrom => i.IsDistinctFrom
  | .IsNotDistinctFrom => i.IsNotDistinctFrom

/-- The comparison methods of values (`loukoum.Value`). -/
def onValue (v : Val) : Cmp → Option (Any → Go Expr)
  | .Contains => some (valueContains v)
  | .IsContainedBy => some (valueIsContainedBy v)
  | .Overlap => some (valueOverlap v)
  | .Equal => some (valueEqual v)
  | .NotEqual => some (valueNotEqual v)
  | _ => none

/-- The comparison methods of function calls (`loukoum.Call`). -/
def onCall (f : Str) (args : List Expr) : Cmp → Option (Any → Go Expr)
  | .Equal => some (callEqual f args)
  | .GreaterThan => some (callGreaterThan f args)
  | .LessThan => some (callLessThan f args)
  | .Like => some (callLike f args)
  | .ILike => some (callILike f args)
  | .Overlap => some (callOverlap f args)
  | _ => none

section
variable [GoRuntime]

private theorem onIdent_eq (i : Ident) (m : Cmp) (a : Any) :
    onIdent i m a =
      (if m.wraps then compareWrapped (.ident i) m.sql a else comparePlain (.ident i) m.sql a) := by
  cases m <;> rfl

private theorem onValue_eq {v : Val} {m : Cmp} {f : Any → Go Expr} (h : onValue v m = some f)
    (a : Any) :
    f a = (if m.wraps then compareWrapped (.value v) m.sql a
      else comparePlain (.value v) m.sql a) := by
  cases m <;> simp only [onValue, Option.some.injEq, reduceCtorEq] at h <;> subst h <;> rfl

private theorem onCall_eq {g : Str} {args : List Expr} {m : Cmp} {f : Any → Go Expr}
    (h : onCall g args m = some f) (a : Any) :
    f a = (if m.wraps then compareWrapped (.call g args) m.sql a
      else comparePlain (.call g args) m.sql a) := by
  cases m <;> simp only [onCall, Option.some.injEq, reduceCtorEq] at h <;> subst h <;> rfl

/-! ## C19 -/

/-- C19, plain values. Every comparison method of an identifier accepts every plain value and
gives `(name operator $1)` with this one argument, and `(name operator NULL)` without argument
for nil; similarly with `:arg_1`. -/
theorem C19_identifier (n : Str) (hn : n ≠ []) (m : Cmp) (v : Val) (hv : v.accepted = true) :
    ∃ e, onIdent (.str n) m (.val v) = .ok e ∧
      (v ≠ .nil →
        e.write.query = .ok (s%"(" ++ quote n ++ s%" " ++ m.sql ++ s%" $1)", [v]) ∧
        e.write.namedQuery =
          .ok (s%"(" ++ quote n ++ s%" " ++ m.sql ++ s%" :arg_1)", some [(s%"arg_1", v)])) ∧
      (v = .nil →
        e.write.query = .ok (s%"(" ++ quote n ++ s%" " ++ m.sql ++ s%" NULL)", []) ∧
        e.write.namedQuery =
          .ok (s%"(" ++ quote n ++ s%" " ++ m.sql ++ s%" NULL)", none)) := by
  obtain ⟨e, he, hok, hr, ha⟩ :=
    compare_value (op := m.sql) (wraps := m.wraps) hn (by cases m <;> decide) hv
  refine ⟨e, by rw [onIdent_eq]; exact he, ?_, ?_⟩
  · intro hne
    have h1 : arguments [.val v] = [v] := by cases v <;> first | exact absurd rfl hne | rfl
    have h2 : render dollar 1 [.val v] = s%"$1" := by
      cases v <;> first | exact absurd rfl hne | rfl
    have h3 : render colon 1 [.val v] = s%":arg_1" := by
      cases v <;> first | exact absurd rfl hne | rfl
    refine ⟨?_, ?_⟩
    · rw [expr_query _ hok, hr, ha, h1, h2]; simp [comparisonText, paren]
    · rw [expr_namedQuery _ hok, hr, ha, h1, h3]
      simp only [comparisonText, paren, List.append_assoc]
      rfl
  · rintro rfl
    refine ⟨?_, ?_⟩
    · rw [expr_query _ hok, hr, ha]; simp [comparisonText, paren, render, arguments]
    · rw [expr_namedQuery _ hok, hr, ha]
      simp [comparisonText, paren, render, arguments, Spec.namedArgs]

/-- C19, any operand. The comparison methods of identifiers, values and calls put the SQL
operator of their name between the texts of their operands, the left one first. -/
theorem C19_operands (left : Expr) (m : Cmp) (a : Any) (e : Expr) (t : Str)
    (hc : (∃ i, left = .ident i ∧ onIdent i m a = .ok e) ∨
      (∃ v f, left = .value v ∧ onValue v m = some f ∧ f a = .ok e) ∨
      (∃ g args f, left = .call g args ∧ onCall g args m = some f ∧ f a = .ok e))
    (ht : e.write.string = .ok t) :
    ∃ x l r, newExpression a = .ok x ∧ left.write.string = .ok l ∧ x.write.string = .ok r ∧
      t = s%"(" ++ l ++ s%" " ++ m.sql ++ s%" " ++ operandOf m.wraps x r ++ s%")" := by
  have key : (if m.wraps then compareWrapped left m.sql a else comparePlain left m.sql a) = .ok e := by
    rcases hc with ⟨i, rfl, h⟩ | ⟨v, f, rfl, hf, h⟩ | ⟨g, args, f, rfl, hf, h⟩
    · rw [onIdent_eq] at h; exact h
    · rw [onValue_eq hf] at h; exact h
    · rw [onCall_eq hf] at h; exact h
  obtain ⟨x, l, r, h1, h2, h3, rfl⟩ := compare_string key ht
  exact ⟨x, l, r, h1, h2, h3, by simp [comparisonText, paren]⟩

/-- C19, arguments. A comparison of an identifier binds exactly what its operand binds. -/
theorem C19_arguments (i : Ident) (m : Cmp) (a : Any) (e : Expr) (t : Str) (vs : List Val)
    (hc : onIdent i m a = .ok e) (ht : e.write.query = .ok (t, vs)) :
    ∃ x l r, newExpression a = .ok x ∧ (Expr.ident i).write.query = .ok (l, []) ∧
      x.write.query = .ok (r, vs) ∧
      t = s%"(" ++ l ++ s%" " ++ m.sql ++ s%" " ++ operandOf m.wraps x r ++ s%")" := by
  rw [onIdent_eq] at hc
  obtain ⟨x, l, r, h1, h2, h3, rfl⟩ := compare_query hc ht
  exact ⟨x, l, r, h1, h2, h3, by simp [comparisonText, paren]⟩

/-- C19. `IsNull(true)` is `IS NULL` and `IsNull(false)` is `IS NOT NULL`, without argument. -/
theorem C19_isNull (n : Str) (hn : n ≠ []) (b : Bool) :
    ∃ e, Ident.IsNull (.str n) b = .ok e ∧
      e.write.query = .ok (s%"(" ++ quote n ++ (if b then s%" IS NULL)" else s%" IS NOT NULL)"), []) := by
  cases b with
  | true =>
    obtain ⟨e, he, -, h⟩ := C19_identifier n hn .Is .nil rfl
    exact ⟨e, he, by rw [(h rfl).1]; simp [Cmp.sql]⟩
  | false =>
    obtain ⟨e, he, -, h⟩ := C19_identifier n hn .IsNot .nil rfl
    exact ⟨e, he, by rw [(h rfl).1]; simp [Cmp.sql]⟩

omit [GoRuntime] in
theorem cmp_sql_inj (m m' : Cmp) (h : m.sql = m'.sql) : m = m' := by
  revert m m'
  have key : ∀ m m' : Cmp, decide (m.sql = m'.sql) = decide (m = m') := by
    intro m m'; cases m <;> cases m' <;> rfl
  intro m m' h
  have := key m m'
  rw [decide_eq_true h] at this
  exact of_decide_eq_true this.symm

/-- C19. Different comparison methods, called on the same column with the same value, send different
texts. -/
theorem C19_operators_differ (n : Str) (hn : n ≠ []) (m m' : Cmp) (v : Val)
    (hv : v.accepted = true) (e e' : Expr) (h : onIdent (.str n) m (.val v) = .ok e)
    (h' : onIdent (.str n) m' (.val v) = .ok e') (text : Str) (vs vs' : List Val)
    (ht : e.write.query = .ok (text, vs)) (ht' : e'.write.query = .ok (text, vs')) : m = m' := by
  obtain ⟨x, hx, h1, h2⟩ := C19_identifier n hn m v hv
  obtain ⟨x', hx', h1', h2'⟩ := C19_identifier n hn m' v hv
  rw [h] at hx; cases hx
  rw [h'] at hx'; cases hx'
  refine cmp_sql_inj m m' ?_
  by_cases hnil : v = .nil
  · have a := (h2 hnil).1
    have b := (h2' hnil).1
    rw [ht] at a
    rw [ht'] at b
    have e1 := congrArg Prod.fst (Except.ok.inj a)
    rw [congrArg Prod.fst (Except.ok.inj b)] at e1
    simp only [List.append_assoc] at e1
    simpa using e1.symm
  · have a := (h1 hnil).1
    have b := (h1' hnil).1
    rw [ht] at a
    rw [ht'] at b
    have e1 := congrArg Prod.fst (Except.ok.inj a)
    rw [congrArg Prod.fst (Except.ok.inj b)] at e1
    simp only [List.append_assoc] at e1
    simpa using e1.symm

/-! ## C20 -/

/-- The text of a sub-select. -/
private theorem selectB_eq (s : SelectStmt) : newExpression (.selectB s) = .ok (.select s) := rfl

private theorem select_write (s : SelectStmt) : (Expr.select s).write = s.write := by
  rw [Expr.write]

/-- C20, comparisons. The right operand of `Equal`, `NotEqual`, `GreaterThan`, ... on
identifiers, values and calls is put between parentheses when it is a `Select`. -/
theorem C20_partial (left : Expr) (m : Cmp) (hm : m.wraps = true) (s : SelectStmt) (e : Expr) (t : Str)
    (hc : (∃ i, left = .ident i ∧ onIdent i m (.selectB s) = .ok e) ∨
      (∃ v f, left = .value v ∧ onValue v m = some f ∧ f (.selectB s) = .ok e) ∨
      (∃ g args f, left = .call g args ∧ onCall g args m = some f ∧ f (.selectB s) = .ok e))
    (ht : e.write.string = .ok t) :
    ∃ l r, left.write.string = .ok l ∧ s.write.string = .ok r ∧
      t = s%"(" ++ l ++ s%" " ++ m.sql ++ s%" (" ++ r ++ s%"))" := by
  obtain ⟨x, l, r, hx, hl, hr, rfl⟩ := C19_operands left m (.selectB s) e t hc ht
  cases hx
  rw [select_write] at hr
  exact ⟨l, r, hl, hr, by simp [operandOf, hm, isSub, paren]⟩

/-- C20, conditions. A `Select` given to `And` or `Or` of a comparison, or to `Where`, is put
between parentheses. -/
theorem C20_condition (s : SelectStmt) :
    (∀ t, (newWhere (.select s)).write.string = .ok t →
      ∃ r, s.write.string = .ok r ∧ t = s%"(" ++ r ++ s%")") ∧
    (∀ c t, (infixAnd c (.select s)).write.string = .ok t →
      ∃ l r, c.write.string = .ok l ∧ s.write.string = .ok r ∧
        t = s%"(" ++ l ++ s%" AND (" ++ r ++ s%"))") ∧
    (∀ c t, (infixOr c (.select s)).write.string = .ok t →
      ∃ l r, c.write.string = .ok l ∧ s.write.string = .ok r ∧
        t = s%"(" ++ l ++ s%" OR (" ++ r ++ s%"))") := by
  refine ⟨?_, ?_, ?_⟩
  · intro t ht
    obtain ⟨r, hr, rfl⟩ := (wrapper_string _ _).1 ht
    rw [select_write] at hr
    exact ⟨r, hr, rfl⟩
  · intro c t ht
    obtain ⟨-, -, -, l, u, hl, hu, rfl⟩ := (infx_string _ _ _ _).1 ht
    obtain ⟨r, hr, rfl⟩ := (wrapper_string _ _).1 hu
    rw [select_write] at hr
    exact ⟨l, r, hl, hr, by simp [comparisonText, paren, operandOf, isSub, opL, Types.And]⟩
  · intro c t ht
    obtain ⟨-, -, -, l, u, hl, hu, rfl⟩ := (infx_string _ _ _ _).1 ht
    obtain ⟨r, hr, rfl⟩ := (wrapper_string _ _).1 hu
    rw [select_write] at hr
    exact ⟨l, r, hl, hr, by simp [comparisonText, paren, operandOf, isSub, opL, Types.Or]⟩

/-- C20, EXISTS and NOT EXISTS. -/
theorem C20_exists (s : SelectStmt) (t : Str) :
    (∀ e, newExists (.selectB s) = .ok e → e.write.string = .ok t →
      ∃ r, s.write.string = .ok r ∧ t = s%"EXISTS (" ++ r ++ s%")") ∧
    (∀ e, newNotExists (.selectB s) = .ok e → e.write.string = .ok t →
      ∃ r, s.write.string = .ok r ∧ t = s%"NOT EXISTS (" ++ r ++ s%")") := by
  constructor
  all_goals
    intro e he ht
    cases he
    obtain ⟨hok, ht⟩ := (expr_string _ _).1 ht
    rw [exprL] at ht
    simp only [List.cons_append] at ht
    obtain ⟨u1, h1, rfl⟩ := rawText_sql_inv ht
    obtain ⟨r, u2, hr, h2, rfl⟩ := rawText_append_inv h1
    obtain ⟨u3, h3, rfl⟩ := rawText_sql_inv h2
    cases h3
    rw [okE] at hok
    have := (expr_string _ _).2 ⟨hok, hr⟩
    rw [select_write] at this
    exact ⟨r, this, by simp⟩

/-- C20, IN. -/
theorem C20_in (i : Ident) (s : SelectStmt) (t : Str) :
    (∀ e, i.In [.selectB s] = .ok e → e.write.string = .ok t →
      ∃ l r, (Expr.ident i).write.string = .ok l ∧ s.write.string = .ok r ∧
        t = s%"(" ++ l ++ s%" IN (" ++ r ++ s%"))") ∧
    (∀ e, i.NotIn [.selectB s] = .ok e → e.write.string = .ok t →
      ∃ l r, (Expr.ident i).write.string = .ok l ∧ s.write.string = .ok r ∧
        t = s%"(" ++ l ++ s%" NOT IN (" ++ r ++ s%"))") := by
  constructor
  all_goals
    intro e he ht
    cases he
    obtain ⟨l, y, hl, hy, rfl⟩ := inx_string _ _ _ _ ht
    rcases hy with ⟨hb, -⟩ | hy
    · simp [blank] at hb
    · obtain ⟨ts, hts, rfl⟩ := (array_string _ _).1 hy
      match ts, hts with
      | [], hts => simp at hts
      | _ :: _ :: _, hts => simp at hts
      | [r], hts =>
        simp only [List.map_cons, List.map_nil, List.cons.injEq, and_true] at hts
        rw [select_write] at hts
        exact ⟨l, r, hl, hts, by simp [comparisonText, paren, commaText, List.intercalate, Types.In, Types.NotIn]⟩

/-- C20, SET. A `Select` given as the value of a column is put between parentheses. -/
theorem C20_set (table column : Str) (s : SelectStmt) (b b' : UpdateStmt) (text : Str)
    (hb : update (.val (.str table)) = .ok b)
    (hb' : b.Set [.pair (.val (.str column)) (.selectB s)] = .ok b')
    (ht : b'.write.string = .ok text) :
    ∃ r, s.write.string = .ok r ∧
      text = s%"UPDATE " ++ quote table ++ s%" SET " ++ quote (trimSpace column) ++ s%" = (" ++ r
        ++ s%")" := by
  have hb1 : b = ⟨[], { name := table }, false, [], PairContainer.new, .nil, [], []⟩ := by
    unfold update UpdateStmt.new toTable at hb
    simp only at hb
    split at hb
    · cases hb
    · rename_i heq
      split at heq
      · cases heq
      · cases heq; cases hb; rfl
  subst hb1
  have hb2 : b' = ⟨[], { name := table }, false, [],
      ⟨.associative, [({ name := trimSpace column }, .wrapper (.select s))],
        [{ name := trimSpace column }], []⟩, .nil, [], []⟩ := by
    simp only [UpdateStmt.Set, mergeSet, mergeSetArg, addPair, toColumn] at hb'
    cases hc : (Column.mk (trimSpace column) []).isEmpty with
    | true => simp [hc] at hb'; cases hb'
    | false =>
      rw [hc] at hb'
      cases hb'
      rfl
  subst hb2
  obtain ⟨hok, hl⟩ := (stmt_string (.update _) text).1 ht
  have hsort : GoRuntime.sortSlice columnLess [(⟨trimSpace column, []⟩ : Column)]
      = [⟨trimSpace column, []⟩] :=
    List.perm_singleton.1 (GoRuntime.sortSlice_perm columnLess _)
  have hlay : layout (.update ⟨[], { name := table }, false, [],
      ⟨.associative, [({ name := trimSpace column }, .wrapper (.select s))],
        [{ name := trimSpace column }], []⟩, .nil, [], []⟩)
      = .sql s%"UPDATE" :: .sql s%" " :: ([.name table] ++ .sql s%" " :: .sql s%"SET " ::
        ([.name (trimSpace column)] ++ .sql s%" = " :: .sql s%"(" :: (selectL s ++ [.sql s%")"]))) := by
    simp [layout, updateL, setL, assignments, PairContainer.values, hsort, lookupAll, mapLookup,
      assignL, commaSep, spaced, clause, columnL, aliased, tableL, commentL, blank, exprL]
  rw [hlay] at hl
  obtain ⟨u1, h1, rfl⟩ := rawText_sql_inv hl
  obtain ⟨u2, h2, rfl⟩ := rawText_sql_inv h1
  obtain ⟨q1, u3, hq1, h3, rfl⟩ := rawText_append_inv (a := [.name table]) h2
  obtain ⟨u4, h4, rfl⟩ := rawText_sql_inv h3
  obtain ⟨u5, h5, rfl⟩ := rawText_sql_inv h4
  obtain ⟨q2, u6, hq2, h6, rfl⟩ := rawText_append_inv (a := [.name (trimSpace column)]) h5
  obtain ⟨u7, h7, rfl⟩ := rawText_sql_inv h6
  obtain ⟨u8, h8, rfl⟩ := rawText_sql_inv h7
  obtain ⟨r, u9, hr, h9, rfl⟩ := rawText_append_inv h8
  obtain ⟨u10, h10, rfl⟩ := rawText_sql_inv h9
  cases h10
  simp only [rawText, Piece.rawText, List.append_nil, Except.ok.injEq] at hq1 hq2
  subst hq1 hq2
  refine ⟨r, (select_string _ _).2 ⟨?_, hr⟩, by simp⟩
  simp [okStmt, okSet, PairContainer.values, hsort, lookupAll, mapLookup, okE] at hok
  simp_all

/-- C20 does not hold for the remaining methods: a `Select` given to `Like`, `NotLike`, `ILike`,
`NotILike`, `Is`, `IsNot`, `IsDistinctFrom`, `IsNotDistinctFrom` is written without parentheses. -/
theorem C20_unprotected (i : Ident) (m : Cmp) (hm : m.wraps = false) (s : SelectStmt) (e : Expr)
    (t : Str) (hc : onIdent i m (.selectB s) = .ok e) (ht : e.write.string = .ok t) :
    ∃ l r, (Expr.ident i).write.string = .ok l ∧ s.write.string = .ok r ∧
      t = s%"(" ++ l ++ s%" " ++ m.sql ++ s%" " ++ r ++ s%")" := by
  obtain ⟨x, l, r, hx, hl, hr, rfl⟩ := C19_operands (.ident i) m (.selectB s) e t (.inl ⟨i, rfl, hc⟩) ht
  cases hx
  rw [select_write] at hr
  exact ⟨l, r, hl, hr, by simp [operandOf, hm]⟩

/-- C20, exactly, for comparisons: whatever the left operand and the method, the text of the
sub-select is complete, and it is between parentheses if the method is one of the nine of
`C20_partial` and bare otherwise. -/
theorem C20_exact (left : Expr) (m : Cmp) (s : SelectStmt) (e : Expr) (t : Str)
    (hc : (∃ i, left = .ident i ∧ onIdent i m (.selectB s) = .ok e) ∨
      (∃ v f, left = .value v ∧ onValue v m = some f ∧ f (.selectB s) = .ok e) ∨
      (∃ g args f, left = .call g args ∧ onCall g args m = some f ∧ f (.selectB s) = .ok e))
    (ht : e.write.string = .ok t) :
    ∃ l r, left.write.string = .ok l ∧ s.write.string = .ok r ∧
      t = s%"(" ++ l ++ s%" " ++ m.sql ++ s%" " ++
        (if m ∈ [.Like, .NotLike, .ILike, .NotILike, .Is, .IsNot, .IsDistinctFrom, .IsNotDistinctFrom]
          then r else s%"(" ++ r ++ s%")") ++ s%")" := by
  obtain ⟨x, l, r, hx, hl, hr, rfl⟩ := C19_operands left m (.selectB s) e t hc ht
  cases hx
  rw [select_write] at hr
  refine ⟨l, r, hl, hr, ?_⟩
  cases m <;> simp [operandOf, isSub, paren, Cmp.wraps]

/-! ## C21 -/

/-- `In` or `NotIn` of an identifier. -/
def inMethod (negated : Bool) (i : Ident) (args : List Any) : Go Expr :=
  if negated then i.NotIn args else i.In args

/-- The elements meant by a single argument of `In`: a slice stands for its elements, nil for no
element. -/
def inItem : Any → List Any
  | .val (.slice _ l) => l.map .val
  | .exprs l => l.map .expr
  | .anys l => l
  | .val .nil => []
  | .expr .nil => []
  | .selExpr .nil => []
  | a => [a]

/-- The elements meant by the arguments of `In`. -/
def inItems : List Any → List Any
  | [a] => inItem a
  | l => l

omit [GoRuntime] in
private theorem appendAll_map {l : List Any} {es : List Expr} (h : appendAll l = .ok es) :
    l.map newExpression = es.map .ok := by
  induction l generalizing es with
  | nil => cases h; rfl
  | cons a l ih =>
    rw [appendAll] at h
    cases ha : newExpression a with
    | error p => rw [ha] at h; cases h
    | ok x =>
      rw [ha] at h
      cases hl : appendAll l with
      | error p => rw [hl] at h; cases h
      | ok xs => rw [hl] at h; cases h; simp [ha, ih hl]

omit [GoRuntime] in
private theorem newArray_items {args : List Any} {x : Expr} (h : newArrayExpression args = .ok x) :
    ∃ es, x = .array es ∧ (inItems args).map newExpression = es.map .ok := by
  have wrap : ∀ {l : List Any} {x : Expr}, (match appendAll l with
      | .error p => .error p
      | .ok es => .ok (.array es) : Go Expr) = .ok x →
      ∃ es, x = .array es ∧ l.map newExpression = es.map .ok := by
    intro l x h
    cases hl : appendAll l with
    | error p => rw [hl] at h; cases h
    | ok es => rw [hl] at h; cases h; exact ⟨es, rfl, appendAll_map hl⟩
  match args with
  | [] => exact wrap (l := []) h
  | a :: b :: l => exact wrap (l := a :: b :: l) h
  | [a] =>
    rw [newArrayExpression] at h
    unfold toArray at h
    cases hn : a.isNil with
    | true =>
      rw [hn, if_pos rfl] at h
      cases h
      refine ⟨[], rfl, ?_⟩
      cases a <;> simp [Any.isNil] at hn <;> rename_i y <;> cases y <;> simp_all [inItems, inItem]
    | false =>
      rw [hn, if_neg (by simp)] at h
      cases a with
      | val v => cases v <;> first | exact wrap h | (simp [Any.isNil] at hn)
      | expr v => cases v <;> first | exact wrap h | (simp [Any.isNil] at hn)
      | selExpr v => cases v <;> first | exact wrap h | (simp [Any.isNil] at hn)
      | _ => exact wrap h

/-- C21, any elements. `In` and `NotIn` of identifiers, and `In` of calls, give
`(left IN (x1, ..., xn))`, with one text per element, in order. -/
theorem C21_elements (left : Expr) (negated : Bool) (args : List Any) (e : Expr) (t : Str)
    (hc : (∃ i, left = .ident i ∧ inMethod negated i args = .ok e) ∨
      (∃ f fargs, left = .call f fargs ∧ negated = false ∧ callIn f fargs args = .ok e))
    (ht : e.write.string = .ok t) :
    ∃ (es : List Expr) (l : Str) (ts : List Str),
      (inItems args).map newExpression = es.map .ok ∧
      left.write.string = .ok l ∧ es.map (fun e => e.write.string) = ts.map .ok ∧
      t = s%"(" ++ l ++ s%" " ++ inWord negated ++ s%" (" ++ commaText ts ++ s%"))" := by
  have key : ∃ x, newArrayExpression args = .ok x ∧ e = .inx left (inWord negated) x := by
    rcases hc with ⟨i, rfl, h⟩ | ⟨f, fargs, rfl, rfl, h⟩
    · unfold inMethod Ident.In Ident.NotIn at h
      cases hx : newArrayExpression args with
      | error p => rw [hx] at h; cases negated <;> cases h
      | ok x => rw [hx] at h; cases negated <;> cases h <;> exact ⟨x, rfl, rfl⟩
    · unfold callIn at h
      cases hx : newArrayExpression args with
      | error p => rw [hx] at h; cases h
      | ok x => rw [hx] at h; cases h; exact ⟨x, rfl, rfl⟩
  obtain ⟨x, hx, rfl⟩ := key
  obtain ⟨es, rfl, hes⟩ := newArray_items hx
  obtain ⟨l, y, hl, hy, rfl⟩ := inx_string _ _ _ _ ht
  rcases hy with ⟨hb, rfl⟩ | hy
  · have : es = [] := by simpa [blank] using hb
    subst this
    exact ⟨[], l, [], hes, hl, rfl, by simp [comparisonText, paren, commaText]⟩
  · obtain ⟨ts, hts, rfl⟩ := (array_string _ _).1 hy
    exact ⟨es, l, ts, hes, hl, hts, by simp [comparisonText, paren]⟩

private theorem in_vals {n : Str} (hn : n ≠ []) (negated : Bool) {args : List Any} {vs : List Val}
    (h : newArrayExpression args = .ok (.array (vs.map .value))) :
    ∃ e, inMethod negated (.str n) args = .ok e ∧
      e.write.query = .ok (s%"(" ++ quote n ++ s%" " ++ inWord negated ++ s%" (" ++
        commaText (marks 1 vs) ++ s%"))", nonNil vs) := by
  refine ⟨.inx (.ident (.str n)) (inWord negated) (.array (vs.map .value)), ?_, ?_⟩
  · unfold inMethod Ident.In Ident.NotIn
    rw [h]; cases negated <;> rfl
  · have hok : okE (.inx (.ident (.str n)) (inWord negated) (.array (vs.map .value))) = true := by
      have h1 : okEs (vs.map Expr.value) = true := by
        rw [okEs_all]; intro e he
        obtain ⟨v, -, rfl⟩ := List.mem_map.1 he
        rfl
      cases negated <;> cases vs <;> simp_all [okE, blank, identBlank, absent, inWord, okIf, Expr.isEmpty]
    rw [expr_query _ hok]
    have hif : (if blank (.array (vs.map .value)) then [] else exprL (.array (vs.map .value)))
        = commaSep ((vs.map Expr.value).map exprL) := by
      cases vs with
      | nil => rfl
      | cons v vs => simp only [blank, List.map_cons, List.isEmpty_cons, Bool.false_eq_true, if_false, exprL, exprsL_map]
    congr 1
    rw [Prod.mk.injEq]
    constructor
    · rw [exprL, hif]
      simp only [List.cons_append, List.append_assoc, render_sql, render_raw, render_append,
        render_vals]
      simp [exprL, identL, render_name, render_nil, arguments_name, arguments]
    · rw [exprL, hif]
      simp only [List.cons_append, List.append_assoc, arguments_append, arguments_sql, arguments_raw,
        arguments_vals]
      simp [exprL, identL, arguments]

/-- C21, plain values. A list of two or more values (or none) given as separate arguments, a
slice of values of any element type, or a `[]interface{}` of values: every value is shown once
and in order, `NULL` for nil and otherwise the next placeholder, and the arguments are the
values that are not nil, in order. -/
theorem C21_values (n : Str) (hn : n ≠ []) (negated : Bool) (vs : List Val)
    (hv : ∀ v ∈ vs, v.accepted = true) (args : List Any)
    (ha : (args = vs.map .val ∧ vs.length ≠ 1) ∨ (∃ k, args = [.val (.slice k vs)]) ∨
      args = [.anys (vs.map .val)]) :
    ∃ e, inMethod negated (.str n) args = .ok e ∧
      e.write.query = .ok (s%"(" ++ quote n ++ s%" " ++ inWord negated ++ s%" (" ++
        commaText (marks 1 vs) ++ s%"))", nonNil vs) := by
  refine in_vals hn negated ?_
  rcases ha with ⟨rfl, hlen⟩ | ⟨k, rfl⟩ | rfl
  · match vs, hlen, hv with
    | [], _, _ => rfl
    | [v], h, _ => exact absurd rfl h
    | v :: w :: vs, _, hv =>
      have := appendAll_vals hv
      simp only [List.map_cons] at this ⊢
      rw [newArrayExpression, this]
      simp
  · rw [newArrayExpression, toArray.eq_def, if_neg (by simp [Any.isNil])]
    simp only [appendAll_vals hv]
  · rw [newArrayExpression, toArray.eq_def, if_neg (by simp [Any.isNil])]
    simp only [appendAll_vals hv]

/-- C21, one plain value. -/
theorem C21_single (n : Str) (hn : n ≠ []) (negated : Bool) (v : Val) (hv : v.accepted = true)
    (h1 : v ≠ .nil) (h2 : ∀ k l, v ≠ .slice k l) :
    ∃ e, inMethod negated (.str n) [.val v] = .ok e ∧
      e.write.query = .ok (s%"(" ++ quote n ++ s%" " ++ inWord negated ++ s%" ($1))", [v]) := by
  have h : newArrayExpression [.val v] = .ok (.array ([v].map .value)) := by
    rw [newArrayExpression, toArray.eq_def, if_neg (by cases v <;> simp_all [Any.isNil])]
    have : appendAll [.val v] = .ok [.value v] := appendAll_vals (vs := [v]) (by simpa using hv)
    cases v <;> first | exact absurd rfl h1 | exact absurd rfl (h2 _ _) | simp [this]
  obtain ⟨e, he, hq⟩ := in_vals hn negated h
  refine ⟨e, he, ?_⟩
  rw [hq]
  have hm : marks 1 [v] = [s%"$1"] := by cases v <;> first | exact absurd rfl h1 | rfl
  have hn' : nonNil [v] = [v] := by cases v <;> first | exact absurd rfl h1 | rfl
  rw [hm, hn']
  simp [commaText, List.intercalate]

omit [GoRuntime] in
/-- C21, slices. Passing a slice is the same as passing its elements, for two elements or more:
slices of plain values, of expressions, and `[]interface{}`. -/
theorem C21_slices (negated : Bool) (i : Ident) (items : List Any) (h : 2 ≤ items.length) :
    inMethod negated i [.anys items] = inMethod negated i items ∧
    (∀ k vs, items = vs.map .val →
      inMethod negated i [.val (.slice k vs)] = inMethod negated i items) ∧
    (∀ es, items = es.map .expr → inMethod negated i [.exprs es] = inMethod negated i items) := by
  match items, h with
  | a :: b :: l, _ =>
    refine ⟨?_, ?_, ?_⟩
    · cases negated <;> rfl
    · intro k vs hvs
      have : newArrayExpression [.val (.slice k vs)] = newArrayExpression (a :: b :: l) := by
        rw [hvs, newArrayExpression, toArray.eq_def, if_neg (by simp [Any.isNil])]
        match vs, hvs with
        | v :: w :: vs, _ => rfl
      unfold inMethod Ident.In Ident.NotIn
      rw [this]
    · intro es hes
      have : newArrayExpression [.exprs es] = newArrayExpression (a :: b :: l) := by
        rw [hes, newArrayExpression, toArray.eq_def, if_neg (by simp [Any.isNil])]
        match es, hes with
        | v :: w :: es, _ => rfl
      unfold inMethod Ident.In Ident.NotIn
      rw [this]

/-- C20, exactly, for IN: a sub-select among other elements is written without parentheses of its
own. -/
theorem C20_in_others (i : Ident) (negated : Bool) (xs ys : List Any) (hne : xs ++ ys ≠ [])
    (s : SelectStmt) (e : Expr) (t : Str)
    (hc : inMethod negated i (xs ++ .selectB s :: ys) = .ok e) (ht : e.write.string = .ok t) :
    ∃ l as r bs, (Expr.ident i).write.string = .ok l ∧ s.write.string = .ok r ∧
      as.length = xs.length ∧ bs.length = ys.length ∧
      t = s%"(" ++ l ++ s%" " ++ inWord negated ++ s%" (" ++ commaText (as ++ r :: bs) ++ s%"))" := by
  obtain ⟨es, l, ts, h1, h2, h3, rfl⟩ := C21_elements (.ident i) negated _ e t (.inl ⟨i, rfl, hc⟩) ht
  have hi : inItems (xs ++ .selectB s :: ys) = xs ++ .selectB s :: ys := by
    match xs, ys, hne with
    | [], _ :: _, _ => rfl
    | [_], _, _ => rfl
    | _ :: _ :: _, _, _ => rfl
  rw [hi, List.map_append, List.map_cons, selectB_eq] at h1
  have l1 := congrArg List.length h1
  have l3 := congrArg List.length h3
  simp only [List.length_map, List.length_append, List.length_cons] at l1 l3
  have g1 := congrArg (·[xs.length]?) h1
  simp only [List.getElem?_append_right (l₁ := xs.map newExpression) (i := xs.length) (by simp),
    List.length_map, Nat.sub_self, List.getElem?_cons_zero, List.getElem?_map] at g1
  have hlt : xs.length < es.length := by omega
  rw [List.getElem?_eq_getElem hlt, Option.map_some, Option.some.injEq, Except.ok.injEq] at g1
  have g3 := congrArg (·[xs.length]?) h3
  have hlt' : xs.length < ts.length := by omega
  simp only [List.getElem?_map, List.getElem?_eq_getElem hlt, List.getElem?_eq_getElem hlt',
    Option.map_some, Option.some.injEq] at g3
  rw [← g1, select_write] at g3
  refine ⟨l, ts.take xs.length, ts[xs.length], ts.drop (xs.length + 1), h2, g3, ?_, ?_, ?_⟩
  · rw [List.length_take]; omega
  · rw [List.length_drop]; omega
  · rw [List.getElem_cons_drop hlt', List.take_append_drop]

/-! ## C22 -/

/-- `Between` or `NotBetween`. -/
def betweenMethod (negated : Bool) (i : Ident) (lo hi : Any) : Go Expr :=
  if negated then i.NotBetween lo hi else i.Between lo hi

omit [GoRuntime] in
private theorem between_eq {negated : Bool} {i : Ident} {lo hi : Any} {e : Expr}
    (h : betweenMethod negated i lo hi = .ok e) :
    ∃ x y, newExpression lo = .ok x ∧ newExpression hi = .ok y ∧
      e = .between i (betweenWord negated) x s%"AND" y := by
  unfold betweenMethod Ident.Between Ident.NotBetween at h
  cases hx : newExpression lo with
  | error p => rw [hx] at h; cases negated <;> cases h
  | ok x =>
    cases hy : newExpression hi with
    | error p => rw [hx, hy] at h; cases negated <;> cases h
    | ok y => rw [hx, hy] at h; cases negated <;> cases h <;> exact ⟨x, y, rfl, rfl, rfl⟩

/-- C22, any bounds. -/
theorem C22_bounds (negated : Bool) (i : Ident) (lo hi : Any) (e : Expr) (t : Str)
    (hc : betweenMethod negated i lo hi = .ok e) (ht : e.write.string = .ok t) :
    ∃ x y l a b, newExpression lo = .ok x ∧ newExpression hi = .ok y ∧
      (Expr.ident i).write.string = .ok l ∧ x.write.string = .ok a ∧ y.write.string = .ok b ∧
      t = s%"(" ++ l ++ s%" " ++ betweenWord negated ++ s%" " ++ a ++ s%" AND " ++ b ++ s%")" := by
  obtain ⟨x, y, hx, hy, rfl⟩ := between_eq hc
  obtain ⟨l, a, b, hl, ha, hb, rfl⟩ := between_string _ _ _ _ _ _ ht
  exact ⟨x, y, l, a, b, hx, hy, hl, ha, hb, by simp [paren]⟩

/-- C20, the bounds of BETWEEN: a sub-select is written without parentheses. -/
theorem C20_between (negated : Bool) (i : Ident) (a b : SelectStmt) (e : Expr) (t : Str)
    (hc : betweenMethod negated i (.selectB a) (.selectB b) = .ok e) (ht : e.write.string = .ok t) :
    ∃ l r r', (Expr.ident i).write.string = .ok l ∧ a.write.string = .ok r ∧
      b.write.string = .ok r' ∧
      t = s%"(" ++ l ++ s%" " ++ betweenWord negated ++ s%" " ++ r ++ s%" AND " ++ r' ++ s%")" := by
  obtain ⟨x, y, l, r, r', hx, hy, hl, ha, hb, rfl⟩ := C22_bounds negated i _ _ e t hc ht
  cases hx
  cases hy
  rw [select_write] at ha hb
  exact ⟨l, r, r', hl, ha, hb, rfl⟩

/-- C22, plain values: `(name BETWEEN $1 AND $2)` with the lower bound first, nil shown as
`NULL`. -/
theorem C22_values (n : Str) (hn : n ≠ []) (negated : Bool) (lo hi : Val)
    (hlo : lo.accepted = true) (hhi : hi.accepted = true) :
    ∃ e a b, betweenMethod negated (.str n) (.val lo) (.val hi) = .ok e ∧
      marks 1 [lo, hi] = [a, b] ∧
      e.write.query = .ok (s%"(" ++ quote n ++ s%" " ++ betweenWord negated ++ s%" " ++ a ++
        s%" AND " ++ b ++ s%")", nonNil [lo, hi]) := by
  refine ⟨.between (.str n) (betweenWord negated) (.value lo) s%"AND" (.value hi),
    render dollar 1 [.val lo], render dollar (1 + (arguments [.val lo]).length) [.val hi],
    ?_, ?_, ?_⟩
  · unfold betweenMethod Ident.Between Ident.NotBetween
    rw [newExpression_val hlo, newExpression_val hhi]
    cases negated <;> rfl
  · cases lo <;> cases hi <;> simp [marks, render, arguments, dollar, numeral, formatNat]
  · have hok : okE (.between (.str n) (betweenWord negated) (.value lo) s%"AND" (.value hi)) = true := by
      cases negated <;> simp [okE, blank, identBlank, betweenWord, hn]
    rw [expr_query _ hok]
    congr 1
    rw [Prod.mk.injEq]
    constructor
    · simp only [exprL, identL, List.cons_append, List.nil_append, render_sql, render_name]
      cases lo <;> cases hi <;> simp [render, arguments]
    · simp only [exprL, identL, List.cons_append, arguments_sql, arguments_name, List.nil_append]
      cases lo <;> cases hi <;> rfl

end

section
attribute [local instance] Runtime.sample

set_option maxRecDepth 4000 in
/-- C20 is false in general: `Condition("name").Like(subselect)`. -/
theorem C20_false : ¬ ∀ (i : Ident) (m : Cmp) (s : SelectStmt) (e : Expr) (t r : Str),
    onIdent i m (.selectB s) = .ok e → e.write.string = .ok t → s.write.string = .ok r →
    ∃ l, t = s%"(" ++ l ++ s%" " ++ m.sql ++ s%" (" ++ r ++ s%"))" := by
  intro h
  obtain ⟨l, hl⟩ := h (.str s%"name") .Like Sample.groups _
    s%"(\"name\" LIKE SELECT \"id\" FROM \"groups\" WHERE (\"active\" = true))"
    s%"SELECT \"id\" FROM \"groups\" WHERE (\"active\" = true)" rfl (by rfl) (by rfl)
  have h2 := congrArg List.length hl
  simp only [List.length_append, List.length_cons, List.length_nil, Cmp.sql] at h2
  have h3 : l.length = 4 := by omega
  clear h2
  rcases l with _ | ⟨a, _ | ⟨b, _ | ⟨c, _ | ⟨d, _ | ⟨x, l⟩⟩⟩⟩⟩
  case cons.cons.cons.cons.nil => simp [Cmp.sql] at hl
  all_goals simp at h3

/-! ### The hypotheses can be met -/

set_option maxRecDepth 4000 in
/-- A sub-select beside a value in IN, and one as the bounds of BETWEEN. -/
example : (∃ e, inMethod false (.str s%"id") ([.val (.int .int 1)] ++ .selectB Sample.groups :: []) = .ok e ∧
      e.write.string =
        .ok s%"(\"id\" IN (1, SELECT \"id\" FROM \"groups\" WHERE (\"active\" = true)))") ∧
    ∃ e, betweenMethod true (.str s%"id") (.selectB Sample.groups) (.selectB Sample.groups) = .ok e ∧
      ∃ t, e.write.string = .ok t :=
  ⟨⟨_, rfl, by rfl⟩, _, rfl, _, rfl⟩

set_option maxRecDepth 4000 in
/-- `Condition("users.age").GreaterThanOrEqual(18)` -/
example : ∃ e, onIdent (.str s%"users.age") .GreaterThanOrEqual (.val (.int .int 18)) = .ok e ∧
    e.write.query = .ok (s%"(\"users\".\"age\" >= $1)", [.int .int 18]) :=
  ⟨_, rfl, by rfl⟩

set_option maxRecDepth 4000 in
/-- `Call("lower", Raw("x")).Like("a%")` -/
example : ∃ f e, onCall s%"lower" [.raw s%"x"] .Like = some f ∧ f (.val (.str s%"a%")) = .ok e ∧
    e.write.string = .ok s%"(lower(x) LIKE 'a%')" :=
  ⟨_, _, rfl, rfl, by rfl⟩

set_option maxRecDepth 4000 in
/-- `Condition("id").Equal(subselect)` -/
example : ∃ e, onIdent (.str s%"id") .Equal (.selectB Sample.groups) = .ok e ∧
    e.write.string
      = .ok s%"(\"id\" = (SELECT \"id\" FROM \"groups\" WHERE (\"active\" = true)))" :=
  ⟨_, rfl, by rfl⟩

set_option maxRecDepth 4000 in
/-- `Update("users").Set(Pair("a", subselect))` -/
example : ∃ b b', update (.val (.str s%"users")) = .ok b ∧
    b.Set [.pair (.val (.str s%" a ")) (.selectB Sample.groups)] = .ok b' ∧
    b'.write.string
      = .ok s%"UPDATE \"users\" SET \"a\" = (SELECT \"id\" FROM \"groups\" WHERE (\"active\" = true))" :=
  ⟨_, _, rfl, rfl, by rfl⟩

set_option maxRecDepth 4000 in
/-- `Condition("a").NotIn(1, nil, "x")` -/
example : ∃ e, inMethod true (.str s%"a") [.val (.int .int 1), .val .nil, .val (.str s%"x")] = .ok e ∧
    e.write.query = .ok (s%"(\"a\" NOT IN ($1, NULL, $2))", [.int .int 1, .str s%"x"]) :=
  ⟨_, rfl, by rfl⟩

set_option maxRecDepth 4000 in
/-- `Condition("a").In([]string{"x", "y"})` -/
example : ∃ e, inMethod false (.str s%"a") [.val (.slice .string [.str s%"x", .str s%"y"])] = .ok e ∧
    e.write.query = .ok (s%"(\"a\" IN ($1, $2))", [.str s%"x", .str s%"y"]) :=
  ⟨_, rfl, by rfl⟩

set_option maxRecDepth 4000 in
/-- `Condition("a").In(subselect, Raw("now()"))`: a case of `C21_elements`. -/
example : ∃ e, inMethod false (.str s%"a") [.selectB Sample.groups, .expr (.raw s%"now()")] = .ok e ∧
    e.write.string
      = .ok s%"(\"a\" IN (SELECT \"id\" FROM \"groups\" WHERE (\"active\" = true), now()))" :=
  ⟨_, rfl, by rfl⟩

set_option maxRecDepth 4000 in
/-- `Condition("a").NotBetween(1, 9)` -/
example : ∃ e, betweenMethod true (.str s%"a") (.val (.int .int 1)) (.val (.int .int 9)) = .ok e ∧
    e.write.query = .ok (s%"(\"a\" NOT BETWEEN $1 AND $2)", [.int .int 1, .int .int 9]) :=
  ⟨_, rfl, by rfl⟩

end

end Verif.Props
