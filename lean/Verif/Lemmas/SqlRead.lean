import Verif.Lemmas.SqlSelect

/-!
# Reading back the pieces of statements
-/

set_option linter.unusedSectionVars false
set_option linter.unusedSimpArgs false

namespace Verif
open Spec

section
variable [GoRuntime]
variable {b : Bool}

/-! ## The lexemes of fixed texts -/

theorem lex_open (l : List Piece) : lexemes b (.sql s%"(" :: l) = .tok (.sym '(') :: lexemes b l := rfl
theorem lex_close (l : List Piece) : lexemes b (.sql s%")" :: l) = .tok (.sym ')') :: lexemes b l := rfl
theorem lex_space (l : List Piece) : lexemes b (.sql s%" " :: l) = lexemes b l := rfl
theorem lex_spaceOpen (l : List Piece) :
    lexemes b (.sql s%" (" :: l) = .tok (.sym '(') :: lexemes b l := rfl
theorem lex_closes (l : List Piece) :
    lexemes b (.sql s%"))" :: l) = .tok (.sym ')') :: .tok (.sym ')') :: lexemes b l := rfl
theorem lex_exists (l : List Piece) : lexemes b (.sql s%"EXISTS (" :: l)
    = .tok (.word s%"EXISTS") :: .tok (.sym '(') :: lexemes b l := rfl
theorem lex_notExists (l : List Piece) : lexemes b (.sql s%"NOT EXISTS (" :: l)
    = .tok (.word s%"NOT") :: .tok (.word s%"EXISTS") :: .tok (.sym '(') :: lexemes b l := rfl
theorem lex_equals (l : List Piece) : lexemes b (.sql s%" = " :: l) = .tok (.sym '=') :: lexemes b l := rfl
theorem lex_as (l : List Piece) : lexemes b (.sql s%" AS " :: l) = .tok (.word s%"AS") :: lexemes b l := rfl
theorem lex_on (l : List Piece) : lexemes b (.sql s%" ON " :: l) = .tok (.word s%"ON") :: lexemes b l := rfl
theorem lex_asOpen (l : List Piece) : lexemes b (.sql s%" AS (" :: l)
    = .tok (.word s%"AS") :: .tok (.sym '(') :: lexemes b l := rfl

theorem lex_connective {op : Str} (h : op ∈ connectives) (l : List Piece) :
    lexemes b (.raw op :: l) = .tok (.word op) :: lexemes b l := by
  simp only [connectives, List.mem_cons, List.not_mem_nil, or_false] at h
  rcases h with rfl | rfl <;> rfl

theorem lex_operator {op : Str} {ts : List SqlTok} (h : (op, ts) ∈ operatorTable) (l : List Piece) :
    lexemes b (.raw op :: l) = ts.map .tok ++ lexemes b l := by
  simp only [operatorTable, List.mem_cons, List.not_mem_nil, or_false, Prod.mk.injEq] at h
  rcases h with ⟨rfl, rfl⟩ | ⟨rfl, rfl⟩ | ⟨rfl, rfl⟩ | ⟨rfl, rfl⟩ | ⟨rfl, rfl⟩ | ⟨rfl, rfl⟩ |
    ⟨rfl, rfl⟩ | ⟨rfl, rfl⟩ | ⟨rfl, rfl⟩ | ⟨rfl, rfl⟩ | ⟨rfl, rfl⟩ | ⟨rfl, rfl⟩ | ⟨rfl, rfl⟩ |
    ⟨rfl, rfl⟩ | ⟨rfl, rfl⟩ | ⟨rfl, rfl⟩ | ⟨rfl, rfl⟩ <;> rfl

theorem lex_join {op : Str} {ts : List SqlTok} (h : (op, ts) ∈ joinTable) (l : List Piece) :
    lexemes b (.raw op :: l) = ts.map .tok ++ lexemes b l := by
  simp only [joinTable, List.mem_cons, List.not_mem_nil, or_false, Prod.mk.injEq] at h
  rcases h with ⟨rfl, rfl⟩ | ⟨rfl, rfl⟩ | ⟨rfl, rfl⟩ | ⟨rfl, rfl⟩ | ⟨rfl, rfl⟩ <;> rfl

theorem lex_in {op : Str} (h : op = s%"IN" ∨ op = s%"NOT IN") (l : List Piece) :
    lexemes b (.raw op :: l) = (if op = s%"IN" then [.tok (.word s%"IN")]
      else [.tok (.word s%"NOT"), .tok (.word s%"IN")]) ++ lexemes b l := by
  rcases h with rfl | rfl <;> rfl

theorem lex_between {op : Str} (h : op = s%"BETWEEN" ∨ op = s%"NOT BETWEEN") (l : List Piece) :
    lexemes b (.raw op :: l) = (if op = s%"BETWEEN" then [.tok (.word s%"BETWEEN")]
      else [.tok (.word s%"NOT"), .tok (.word s%"BETWEEN")]) ++ lexemes b l := by
  rcases h with rfl | rfl <;> rfl

theorem lex_and (l : List Piece) :
    lexemes b (.raw s%"AND" :: l) = .tok (.word s%"AND") :: lexemes b l := rfl

/-! ## Names -/

theorem plainAlias_cases {a : Str} (h : plainAlias a = true) : a = [] ∨ plainName a = true := by
  simpa [plainAlias] using h

theorem lexemes_aliased {n a : Str} (hn : plainName n = true) (ha : plainAlias a = true) :
    lexemes b (aliased n a) = quotedLexemes n ++ aliasLexemes a := by
  rw [aliased, lexemes_name hn]
  rcases plainAlias_cases ha with rfl | h
  · rfl
  · have h0 : a.isEmpty = false := by
      simp only [plainName, Bool.and_eq_true, Bool.not_eq_true'] at h
      exact h.1
    simp only [h0, Bool.false_eq_true, if_false, lex_as, lexemes_name h, lexemes_nil,
      List.append_nil, aliasLexemes, optional, Bool.not_false, if_true, List.map_cons, List.map_nil,
      List.cons_append, List.nil_append]

theorem lexemes_column {c : Column} (h : plainColumn c = true) :
    lexemes b (columnL c) = quotedLexemes c.name := by
  simp only [plainColumn, Bool.and_eq_true] at h
  have : c.alias = [] := by simpa using h.2
  rw [columnL, lexemes_aliased h.1 (by simp [plainAlias, this]), this]
  simp [aliasLexemes, optional]

theorem lexemes_table {t : Table} (h : plainTable t = true) :
    lexemes b (tableL t) = tableLexemes t := by
  simp only [plainTable, Bool.and_eq_true] at h
  rw [tableL, lexemes_append, lexemes_aliased h.1 h.2, tableLexemes]
  cases t.only <;> rfl

theorem lexemes_from {f : FromItem} (h : plainFrom f = true) :
    lexemes b (fromItemL f) = fromLexemes f := by
  cases f with
  | nil => cases h
  | table t => exact lexemes_table h
  | raw s =>
    rw [fromItemL, lexemes_bare h]
    simp [fromLexemes]

theorem bareName_ne_nil {n : Str} (h : bareName n = true) : n.isEmpty = false := by
  cases n with
  | nil => cases h
  | cons c n => rfl

theorem lexemes_order {o : Order} (h : plainOrder o = true) :
    lexemes b (orderL o) = orderLexemes o := by
  simp only [plainOrder, Bool.and_eq_true, Bool.or_eq_true, decide_eq_true_eq] at h
  rw [orderL, if_neg (by simp [bareName_ne_nil h.1]), lexemes_bare h.1, lex_space, orderLexemes]
  rcases h.2 with h2 | h2 <;> rw [h2] <;> rfl

theorem operand_ident {i : Ident} (h : plainIdent i = true) :
    Opens (lexemes b (identL i)) ∧
      Reads readOperandOf 1 stopOperand (lexemes b (identL i)) (.ref (meanIdent i)) := by
  cases i with
  | str s =>
    rw [identL, lexemes_name h]
    simpa [meanIdent] using operand_quoted s
  | raw s =>
    rw [identL, lexemes_bare h]
    simpa [meanIdent] using operand_bare h
  | other => cases h

theorem lexemes_aggAlias {a : Str} (h : a.isEmpty = true ∨ bareName a = true) :
    lexemes b (aggAliasL a) = optional (!a.isEmpty) [.word s%"AS"] (bareLexemes a) := by
  rw [aggAliasL]
  by_cases h0 : a.isEmpty = true
  · simp [h0, optional]
  · rw [if_neg h0, lex_as, lexemes_bare (h.resolve_left h0)]
    simp [optional, h0]

theorem reads_aggAlias {a : Str} (h : a.isEmpty = true ∨ bareName a = true) :
    Reads readAlias 0 stopItem (optional (!a.isEmpty) [.word s%"AS"] (bareLexemes a))
      (if a.isEmpty then none else some (bareRef a)) := by
  intro n rest hn hr
  rw [readAlias, ifNext_optional (x := bareRef a) ?_ (eats_heads hr _ (by decide))]
  · cases a <;> simp
  · intro hp
    refine reads_bare (h.resolve_left (by simpa using hp)) n rest ?_ (hr.mono (by decide))
    simp only [optional, hp, if_true, List.map_cons, List.map_nil, List.cons_append,
      List.nil_append, List.length_cons] at hn
    omega

theorem heads_aggAlias (a : Str) :
    Heads [.word s%"AS"] (optional (!a.isEmpty) [.word s%"AS"] (bareLexemes a)) := by
  have := heads_optional (S := [.word s%"AS"]) (!a.isEmpty) (.word s%"AS") [] (bareLexemes a)
    List.mem_cons_self (r := []) (.inl rfl)
  simpa using this

theorem lexemes_agg {v : Str} (h : v = s%"*" ∨ bareName v = true) (l : List Piece) :
    lexemes b (.raw v :: l) = aggLexemes v ++ lexemes b l := by
  by_cases hs : v = s%"*"
  · subst hs; rfl
  · rw [lexemes_bare (h.resolve_left hs), aggLexemes, if_neg hs]

/-- An aggregate in a column list. -/
theorem item_aggregate {f v a : Str} (hf : bareWord f = true) (distinct : Bool)
    (h : plainAggregate v a = true) {o : Piece}
    (ho : ∀ l, lexemes b (o :: l) = .tok (.word f) :: .tok (.sym '(') :: lexemes b l) :
    OpensCond (lexemes b (o :: (if distinct then [.sql s%"DISTINCT "] else [])
        ++ .raw v :: .sql s%")" :: aggAliasL a)) ∧
    Reads readItem 6 stopItem (lexemes b (o :: (if distinct then [.sql s%"DISTINCT "] else [])
        ++ .raw v :: .sql s%")" :: aggAliasL a)) (meanAggregate f distinct v a) := by
  simp only [plainAggregate, Bool.and_eq_true, Bool.or_eq_true, decide_eq_true_eq] at h
  have hd : lexemes b (if distinct then [.sql s%"DISTINCT "] else [])
      = optional distinct [.word s%"DISTINCT"] [] := by cases distinct <;> rfl
  have e : lexemes b (o :: (if distinct then [.sql s%"DISTINCT "] else [])
        ++ .raw v :: .sql s%")" :: aggAliasL a)
      = (.tok (.word f) :: .tok (.sym '(') ::
          ((optional distinct [.word s%"DISTINCT"] [] ++ aggLexemes v) ++ [.tok (.sym ')')]))
        ++ optional (!a.isEmpty) [.word s%"AS"] (bareLexemes a) := by
    rw [List.cons_append, ho, lexemes_append, hd, lexemes_agg h.1, lex_close,
      lexemes_aggAlias h.2]
    simp
  obtain ⟨h1, h2⟩ := operand_call hf (reads_aggArgs (f := f) distinct h.1)
  rw [e]
  exact ⟨h1.cond.append _, reads_item (reads_cond h1 h2) (reads_aggAlias h.2) (heads_aggAlias a)⟩

/-! ## Expressions and queries -/

/-- The expression is read back where an operand is expected. -/
def OperandOk (b : Bool) (e : Expr) : Prop :=
  Opens (lexemes b (exprL e)) ∧
    Reads readOperandOf 1 stopOperand (lexemes b (exprL e)) (meanExpr e)

/-- The expression is read back where a condition is expected. -/
def CondOk (b : Bool) (e : Expr) : Prop :=
  OpensCond (lexemes b (exprL e)) ∧
    Reads readNot 3 stopCond (lexemes b (exprL e)) (meanExpr e)

theorem OperandOk.cond {e : Expr} (h : OperandOk b e) : CondOk b e :=
  ⟨h.1.cond, reads_cond h.1 h.2⟩

/-- The query is read back. -/
def SelectOk (b : Bool) (s : SelectStmt) : Prop :=
  (∀ r, queryNext (lexemes b (selectL s) ++ r) = true) ∧
    Reads readSelect 8 stopSelect (lexemes b (selectL s)) (meanSelect s)

/-- The set is read back. -/
def SetOk (b : Bool) (l : List Expr) : Prop :=
  Reads readSet 9 stopParen (lexemes b (exprL (.array l))) (meanExpr (.array l))

/-- All that is to be shown of an expression. -/
structure ExprOk (b : Bool) (e : Expr) : Prop where
  operand : plainExpr false e = true → OperandOk b e
  cond : plainExpr true e = true → CondOk b e
  select : ∀ s, e = .select s → plainSelect s = true → SelectOk b s
  set : ∀ l, e = .array l → plainSet l = true → SetOk b l

theorem both {e : Expr} (h : ∀ loose, plainExpr loose e = true → OperandOk b e)
    (hs : ∀ s, e ≠ .select s) (hl : ∀ l, e ≠ .array l) : ExprOk b e :=
  ⟨h false, fun ht => (h true ht).cond, fun s he => absurd he (hs s),
    fun l he => absurd he (hl l)⟩

theorem plainExpr_wrapper {loose : Bool} {e : Expr} (h : plainExpr loose (.wrapper e) = true) :
    (∃ s, e = .select s ∧ plainSelect s = true) ∨ plainExpr true e = true := by
  unfold plainExpr at h
  split at h
  · exact .inl ⟨_, rfl, h⟩
  · exact .inr h

theorem plainExpr_exist {loose : Bool} {e : Expr} (h : plainExpr loose (.exist e) = true) :
    ∃ s, e = .select s ∧ plainSelect s = true := by
  cases e <;> simp only [plainExpr] at h <;> first | exact ⟨_, rfl, h⟩ | cases h

theorem plainExpr_notExist {loose : Bool} {e : Expr} (h : plainExpr loose (.notExist e) = true) :
    loose = true ∧ ∃ s, e = .select s ∧ plainSelect s = true := by
  cases e <;> simp only [plainExpr, Bool.and_eq_true] at h <;>
    first | exact ⟨h.1, _, rfl, h.2⟩ | cases h

theorem plainExpr_inx {loose : Bool} {e v : Expr} {op : Str}
    (h : plainExpr loose (.inx e op v) = true) :
    (op = s%"IN" ∨ op = s%"NOT IN") ∧ plainExpr false e = true ∧
      ∃ l, v = .array l ∧ l ≠ [] ∧ plainSet l = true := by
  unfold plainExpr at h
  simp only [Bool.and_eq_true, Bool.or_eq_true, decide_eq_true_eq] at h
  refine ⟨h.1.1, h.1.2, ?_⟩
  have h := h.2
  split at h
  · exact ⟨_, rfl, by simp, by simpa [plainSet] using h⟩
  · next l hl _ =>
    refine ⟨_, rfl, ?_, ?_⟩
    · rintro rfl; simp at h
    · unfold plainSet
      split
      · exact absurd rfl (hl _)
      · exact h
  · cases h

theorem plainSet_cases {l : List Expr} (h : plainSet l = true) :
    (∃ s, l = [.select s] ∧ plainSelect s = true) ∨
      (l ≠ [] ∧ plainExprs l = true ∧ meanSet l (meanExprs l) = .list (meanExprs l)) := by
  unfold plainSet at h
  split at h
  · exact .inl ⟨_, rfl, h⟩
  · next hl =>
    simp only [Bool.and_eq_true, Bool.not_eq_true', List.isEmpty_eq_false_iff] at h
    refine .inr ⟨h.1, h.2, ?_⟩
    unfold meanSet
    split
    · exact absurd rfl (hl _)
    · rfl

theorem operand_infix {l r : Expr} {op : Str} (hop : op ∈ connectives) (hl : CondOk b l)
    (hr : CondOk b r) :
    Opens (lexemes b (.sql s%"(" :: exprL l ++ .sql s%" " :: .raw op :: .sql s%" " :: exprL r
        ++ [.sql s%")"])) ∧
    Reads readOperandOf 1 stopOperand
      (lexemes b (.sql s%"(" :: exprL l ++ .sql s%" " :: .raw op :: .sql s%" " :: exprL r
        ++ [.sql s%")"])) (.binary op (meanExpr l) (meanExpr r)) := by
  have h := operand_parens (hl.1.append _) (reads_connective hop hl.2 hr.2)
  simp only [List.cons_append, List.append_assoc, List.nil_append, lexemes_append, lex_open,
    lex_close, lex_space, lex_connective hop, lexemes_nil] at h ⊢
  exact h

theorem operand_comparison {l r : Expr} {op : Str} (hop : op ∈ comparators) (hl : OperandOk b l)
    (hr : OperandOk b r) :
    Opens (lexemes b (.sql s%"(" :: exprL l ++ .sql s%" " :: .raw op :: .sql s%" " :: exprL r
        ++ [.sql s%")"])) ∧
    Reads readOperandOf 1 stopOperand
      (lexemes b (.sql s%"(" :: exprL l ++ .sql s%" " :: .raw op :: .sql s%" " :: exprL r
        ++ [.sql s%")"])) (.binary op (meanExpr l) (meanExpr r)) := by
  simp only [comparators, List.mem_map] at hop
  obtain ⟨⟨o, ts⟩, hts, rfl⟩ := hop
  have h := operand_parens (hl.1.append _).cond
    (reads_expr (reads_comparison hts hl.1 hr.1 hl.2 hr.2))
  simp only [List.cons_append, List.append_assoc, List.nil_append, lexemes_append, lex_open,
    lex_close, lex_space, lex_operator hts, lexemes_nil] at h ⊢
  exact h

theorem operand_isIn {e : Expr} {op : Str} (hop : op = s%"IN" ∨ op = s%"NOT IN")
    (he : OperandOk b e) {v : List Piece} {y : Sql} (hv : Reads readSet 9 stopParen (lexemes b v) y) :
    Opens (lexemes b (.sql s%"(" :: exprL e ++ .sql s%" " :: .raw op :: .sql s%" (" ::
      v ++ [.sql s%"))"])) ∧
    Reads readOperandOf 1 stopOperand
      (lexemes b (.sql s%"(" :: exprL e ++ .sql s%" " :: .raw op :: .sql s%" (" ::
      v ++ [.sql s%"))"])) (.isIn (op = s%"NOT IN") (meanExpr e) y) := by
  have h := operand_parens (he.1.append _).cond (reads_expr (reads_in hop he.1 he.2 hv rfl))
  simp only [List.cons_append, List.append_assoc, List.nil_append, lexemes_append, lex_open,
    lex_closes, lex_space, lex_spaceOpen, lex_in hop, lexemes_nil] at h ⊢
  exact h

/-- All that is to be shown of expressions. -/
structure ExprsOk (b : Bool) (l : List Expr) : Prop where
  all : plainExprs l = true →
    ReadsAll readExpr 5 stopExpr ((exprsL l).map (lexemes b)) (meanExprs l) ∧
      ∀ ls ∈ (exprsL l).map (lexemes b), OpensCond ls
  select : ∀ s, l = [.select s] → plainSelect s = true → SelectOk b s

theorem exprsOk_cons {e : Expr} {l : List Expr} (h1 : ExprOk b e) (h2 : ExprsOk b l) :
    ExprsOk b (e :: l) := by
  constructor
  · intro h
    simp only [plainExprs, Bool.and_eq_true] at h
    obtain ⟨h3, h4⟩ := h1.cond h.1
    obtain ⟨h5, h6⟩ := h2.all h.2
    rw [exprsL, meanExprs, List.map_cons]
    refine ⟨.cons (reads_expr h4) h5, ?_⟩
    intro ls hls
    rcases List.mem_cons.1 hls with rfl | hls
    · exact h3
    · exact h6 ls hls
  · intro s he h
    simp only [List.cons.injEq] at he
    exact h1.select s he.1 h

theorem setOk {l : List Expr} (h : ExprsOk b l) (hl : plainSet l = true) : SetOk b l := by
  rcases plainSet_cases hl with ⟨s, rfl, hs⟩ | ⟨hne, hl, hm⟩
  · obtain ⟨h1, h2⟩ := h.select s rfl hs
    simp only [SetOk, exprL, exprsL, commaSep, meanExpr, meanExprs, meanSet]
    exact reads_setQuery h1 h2
  · obtain ⟨h1, h2⟩ := h.all hl
    rw [SetOk, exprL, meanExpr, lexemes_commaSep, hm]
    exact reads_setList h1 (by cases l <;> simp_all [exprsL]) h2

/-- All that is to be shown of an entry of a column list. -/
def ItemOk (b : Bool) (e : SelExpr) : Prop :=
  OpensCond (lexemes b (selExprL e)) ∧
    Reads readItem 6 stopItem (lexemes b (selExprL e)) (meanItem e)

theorem plainItem_exist {e : Expr} (h : plainItem (.exist e) = true) :
    ∃ s, e = .select s ∧ plainSelect s = true := by
  cases e <;> simp only [plainItem] at h <;> first | exact ⟨_, rfl, h⟩ | cases h

theorem plainItem_notExist {e : Expr} (h : plainItem (.notExist e) = true) :
    ∃ s, e = .select s ∧ plainSelect s = true := by
  cases e <;> simp only [plainItem] at h <;> first | exact ⟨_, rfl, h⟩ | cases h

theorem plainWith_cases {name : Str} {e : Expr} (h : plainWith ⟨name, e⟩ = true) :
    bareWord name = true ∧ ∃ s, e = .select s ∧ plainSelect s = true := by
  cases e <;> simp only [plainWith, Bool.and_eq_true] at h <;>
    first | exact ⟨h.1, _, rfl, h.2⟩ | exact absurd h.2 (by simp)

/-- All that is to be shown of a common table expression. -/
def WithOk (b : Bool) (w : WithQuery) : Prop :=
  Reads readWith 0 stopWith (lexemes b (withL w)) (meanWith w)

/-- All that is to be shown of joins. -/
def JoinsOk (b : Bool) (l : List Join) : Prop :=
  Heads joinHeads ((joinsL l).flatMap (optLexemes b)) ∧
    Reads readJoins 6 stopJoins ((joinsL l).flatMap (optLexemes b)) (meanJoins l)

theorem bareWord_ne_nil {w : Str} (h : bareWord w = true) : w.isEmpty = false := by
  cases w with
  | nil => cases h
  | cons c w => rfl

theorem readsAll_columns {l : List Column} (h : l.all plainColumn = true) :
    ReadsAll readRef 0 stopRef ((l.map columnL).map (lexemes b)) (l.map columnRef) := by
  rw [List.map_map]
  refine readsAll_map fun c hc => ?_
  rw [Function.comp, lexemes_column (List.all_eq_true.1 h c hc)]
  exact reads_quoted c.name

theorem readsAll_from {l : List FromItem} (h : l.all plainFrom = true) :
    ReadsAll readTable 0 stopTable ((l.map fromItemL).map (lexemes b)) (l.map meanFrom) := by
  rw [List.map_map]
  refine readsAll_map fun c hc => ?_
  have := List.all_eq_true.1 h c hc
  rw [Function.comp, lexemes_from this]
  exact reads_from this

theorem readsAll_orders {l : List Order} (h : l.all plainOrder = true) :
    ReadsAll readOrder 0 stopRef ((l.map orderL).map (lexemes b)) (l.map meanOrder) := by
  rw [List.map_map]
  refine readsAll_map fun c hc => ?_
  have := List.all_eq_true.1 h c hc
  rw [Function.comp, lexemes_order this]
  exact reads_order this

/-- The lexemes of a condition that may be absent, with its meaning. -/
def condOf (b : Bool) (e : Expr) : Option (List Lexeme × Sql) :=
  if blank e then none else some (lexemes b (exprL e), meanExpr e)

theorem condOf_mean (e : Expr) :
    (condOf b e).map (·.2) = if blank e then none else some (meanExpr e) := by
  unfold condOf
  split <;> rfl

theorem condOf_reads {e : Expr} (h : ExprOk b e) (hp : (blank e || plainExpr true e) = true) :
    ∀ ls x, condOf b e = some (ls, x) → Reads readExpr 5 stopExpr ls x := by
  intro ls x he
  unfold condOf at he
  split at he
  · cases he
  · next hb =>
    cases he
    have : plainExpr true e = true := by simpa [hb] using hp
    exact reads_expr (h.cond this).2

theorem opt_list {p : Bool} {xs : List (List Piece)} {kw : Str} {words : List SqlTok}
    (hp : p = !xs.isEmpty) (hk : lexemes b [.sql kw] = words.map .tok) :
    optLexemes b (clause p (.sql kw :: commaSep xs)) = listClause words (xs.map (lexemes b)) := by
  rw [optLexemes_clause, lexemes_cons, listClause, optional, hp, List.isEmpty_map]
  have : pieceLexemes b (.sql kw) = words.map .tok := by simpa [lexemes] using hk
  rw [this, lexemes_commaSep]

theorem opt_expr {e : Expr} {kw : Str} {words : List SqlTok}
    (hk : lexemes b [.sql kw] = words.map .tok) :
    optLexemes b (clause (!blank e) (.sql kw :: exprL e)) = exprClause words (condOf b e) := by
  rw [optLexemes_clause, lexemes_cons, condOf]
  have : pieceLexemes b (.sql kw) = words.map .tok := by simpa [lexemes] using hk
  rw [this]
  cases blank e <;> rfl

theorem lexemes_number {kw : Str} {t : SqlTok} (hk : tokRun b .free kw = (.free, [t])) {n : Int}
    (hn : 0 ≤ n) :
    lexemes b [.sql (kw ++ formatInt n)] = [.tok t, .tok (.word (formatNat n.toNat))] := by
  have h : formatInt n = formatNat n.toNat := by
    cases n with
    | ofNat k => rfl
    | negSucc k => omega
  rw [h]
  have := lexes_after hk (lexes_formatNat (b := b) n.toNat)
  simp [lexemes, pieceLexemes, this.tokens]

theorem opt_count {kw : Str} {t : SqlTok} (hk : tokRun b .free kw = (.free, [t])) {n : Int}
    (hn : 0 ≤ n) :
    optLexemes b (clause (n ≠ 0) [.sql (kw ++ formatInt n)]) = countClause t (meanCount n) := by
  rw [optLexemes_clause, lexemes_number hk hn, meanCount]
  by_cases h : n = 0 <;> simp [h, countClause]

/-- The lexemes of a query, clause by clause. -/
theorem lexemes_select {s : SelectStmt} (h : plainSelect s = true) :
    lexemes b (selectL s) =
      (withsLexemes ((withsL s.withs).map (lexemes b)) ++ (.tok (.word s%"SELECT") ::
        (distinctLexemes s.distinct ((s.distinctOn.map columnL).map (lexemes b)) ++
        (separated (.tok (.sym ',')) ((selExprsL s.exprs).map (lexemes b)) ++
        (listClause [.word s%"FROM"] ((s.tables.map fromItemL).map (lexemes b)) ++
        ((joinsL s.joins).flatMap (optLexemes b) ++
        (exprClause [.word s%"WHERE"] (condOf b s.whr) ++
        (listClause [.word s%"GROUP", .word s%"BY"] ((s.groupBy.map columnL).map (lexemes b)) ++
        (exprClause [.word s%"HAVING"] (condOf b s.having) ++
        (listClause [.word s%"ORDER", .word s%"BY"] ((s.orderBy.map orderL).map (lexemes b)) ++
        (countClause (.word s%"LIMIT") (meanCount s.limit) ++
          countClause (.word s%"OFFSET") (meanCount s.offset)))))))))))) := by
  match s with
  | ⟨pfx, withs, distinct, distinctOn, exprs, tables, joins, whr, groupBy, having, orderBy,
      limit, offset, sfx, comment⟩ =>
    simp only [plainSelect, Bool.and_eq_true, List.isEmpty_iff, decide_eq_true_eq] at h
    obtain ⟨⟨⟨⟨⟨⟨⟨⟨⟨⟨⟨⟨⟨⟨⟨rfl, h2⟩, h3⟩, h4⟩, h5⟩, h6⟩, h7⟩, h8⟩, h9⟩, h10⟩, h11⟩, h12⟩, h13⟩,
      h14⟩, rfl⟩, rfl⟩ := h
    have hd : optLexemes b (clause (!distinctOn.isEmpty)
        (.sql s%"DISTINCT ON (" :: commaSep (distinctOn.map columnL) ++ [.sql s%")"])) ++
        optLexemes b (clause distinct [.sql s%"DISTINCT"]) =
        distinctLexemes distinct ((distinctOn.map columnL).map (lexemes b)) := by
      rw [optLexemes_clause, optLexemes_clause, List.cons_append, lexemes_cons, lexemes_append,
        lexemes_commaSep, distinctLexemes, optional, optional, List.isEmpty_map, List.isEmpty_map]
      rfl
    have hl := opt_count (b := b) (kw := s%"LIMIT ") (t := .word s%"LIMIT") rfl h13
    have ho := opt_count (b := b) (kw := s%"OFFSET ") (t := .word s%"OFFSET") rfl h14
    rw [selectL, lexemes_append, lexemes_spaced]
    simp only [List.flatMap_append, List.flatMap_cons, List.flatMap_nil, List.append_assoc,
      List.append_nil, List.cons_append, List.nil_append] at hl ho hd ⊢
    rw [opt_list (b := b) (xs := withsL withs) (words := [.word s%"WITH"])
        (by cases withs <;> rfl) rfl,
      fromL, opt_list (b := b) (xs := tables.map fromItemL) (words := [.word s%"FROM"])
        (by cases tables <;> rfl) rfl,
      opt_list (b := b) (xs := groupBy.map columnL) (words := [.word s%"GROUP", .word s%"BY"])
        (by cases groupBy <;> rfl) rfl,
      opt_list (b := b) (xs := orderBy.map orderL) (words := [.word s%"ORDER", .word s%"BY"])
        (by cases orderBy <;> rfl) rfl,
      opt_expr (b := b) (words := [.word s%"WHERE"]) rfl,
      opt_expr (b := b) (words := [.word s%"HAVING"]) rfl,
      hl, ho, ← hd, ← lexemes_commaSep]
    have e1 : lexemes b (commentL []) = [] := rfl
    have e2 : optLexemes b (clause (!([] : Str).isEmpty) [.raw []]) = [] := rfl
    rw [e1, e2]
    simp only [List.append_assoc, List.nil_append, List.append_nil]
    rfl

theorem selectOk {s : SelectStmt} (h : plainSelect s = true)
    (hw : plainWiths s.withs = true →
      ReadsAll readWith 0 stopWith ((withsL s.withs).map (lexemes b)) (meanWiths s.withs))
    (hi : plainItems s.exprs = true →
      ReadsAll readItem 6 stopItem ((selExprsL s.exprs).map (lexemes b)) (meanItems s.exprs) ∧
      ∀ ls ∈ (selExprsL s.exprs).map (lexemes b), OpensCond ls)
    (hj : plainJoins s.joins = true → JoinsOk b s.joins)
    (hwhr : ExprOk b s.whr) (hhav : ExprOk b s.having) : SelectOk b s := by
  have e := lexemes_select (b := b) h
  match s with
  | ⟨pfx, withs, distinct, distinctOn, exprs, tables, joins, whr, groupBy, having, orderBy,
      limit, offset, sfx, comment⟩ =>
    simp only [plainSelect, Bool.and_eq_true] at h
    obtain ⟨⟨⟨⟨⟨⟨⟨⟨⟨⟨⟨⟨⟨⟨⟨-, h2⟩, h3⟩, h4⟩, h5⟩, h6⟩, h7⟩, h8⟩, h9⟩, h10⟩, h11⟩, h12⟩, h13⟩, h14⟩,
      -⟩, -⟩ := h
    have hne : exprs ≠ [] := by rintro rfl; simp at h5
    obtain ⟨hi1, hi2⟩ := hi h6
    obtain ⟨hj1, hj2⟩ := hj h8
    have key := reads_select (limit := meanCount limit) (offset := meanCount offset) (hw h2)
      (distinct := distinct) (by
        intro hd
        have : distinctOn = [] := by simpa [hd] using h3
        simp [this])
      (readsAll_columns (b := b) h4) hi1 (by cases exprs <;> simp_all [selExprsL]) hi2
      (readsAll_from (b := b) h7) hj2 hj1 (condOf_reads hwhr h9) (readsAll_columns (b := b) h10)
      (condOf_reads hhav h11) (readsAll_orders (b := b) h12)
    rw [SelectOk, e]
    refine ⟨?_, ?_⟩
    · intro r
      simp only [withsLexemes, optional]
      split
      · simp [queryNext, eat]
      · simp [queryNext, eat]
    · simp only [condOf_mean] at key
      simp only [meanSelect]
      have : meanDistinct distinct (distinctOn.map columnRef) =
          (if distinct = true then .yes else if distinctOn.isEmpty = true then .no
            else .on (distinctOn.map columnRef)) := by
        simp [meanDistinct]
      rw [← this]
      exact key

mutual

theorem read_expr (b : Bool) (e : Expr) : ExprOk b e := by
  match e with
  | .nil => exact both (fun _ h => nomatch h) nofun nofun
  | .ident i =>
    refine both (fun loose h => ?_) nofun nofun
    simpa only [OperandOk, exprL, meanExpr] using operand_ident (by simpa [plainExpr] using h)
  | .value v =>
    refine both (fun loose h => ?_) nofun nofun
    rw [OperandOk, exprL]
    cases v
    case nil =>
      refine ⟨⟨_, _, rfl, rfl⟩, fun n rest hn hr => ?_⟩
      obtain ⟨n, rfl⟩ : ∃ k, n = k + 1 := ⟨n - 1, by omega⟩
      simp [lexemes, pieceLexemes, readOperandOf, meanExpr]
    all_goals
      refine ⟨⟨_, _, rfl, rfl⟩, fun n rest hn hr => ?_⟩
      obtain ⟨n, rfl⟩ : ∃ k, n = k + 1 := ⟨n - 1, by omega⟩
      simp [lexemes, pieceLexemes, readOperandOf, meanExpr]
  | .arrayList l => exact both (fun _ h => by simp [plainExpr] at h) nofun nofun
  | .array l =>
    refine ⟨by simp [plainExpr], by simp [plainExpr], nofun, ?_⟩
    intro l' he hl
    cases he
    exact setOk (read_exprs b l) hl
  | .raw s =>
    refine both (fun loose h => ?_) nofun nofun
    rw [plainExpr] at h
    rw [OperandOk, exprL, lexemes_bare h, lexemes_nil, List.append_nil, meanExpr]
    exact operand_bare h
  | .wrapper e =>
    have ih := read_expr b e
    refine both (fun loose h => ?_) nofun nofun
    rcases plainExpr_wrapper h with ⟨s, rfl, hs⟩ | h
    · obtain ⟨h1, h2⟩ := ih.select s rfl hs
      have h := operand_query h1 h2
      rw [OperandOk, exprL, exprL, List.cons_append, lex_open, lexemes_append, lex_close, meanExpr,
        meanExpr]
      exact h
    · obtain ⟨h1, h2⟩ := ih.cond h
      have h := operand_parens h1 (reads_expr h2)
      rw [OperandOk, exprL, List.cons_append, lex_open, lexemes_append, lex_close, meanExpr]
      exact h
  | .call f args =>
    have ih := read_exprs b args
    refine both (fun loose h => ?_) nofun nofun
    simp only [plainExpr, Bool.and_eq_true] at h
    obtain ⟨h1, h2⟩ := ih.all h.2
    have hc := operand_call h.1 (reads_args (f := f) h1 h2)
    obtain ⟨h3, h4⟩ := bareName_word h.1
    rw [OperandOk, exprL, List.cons_append, List.cons_append, lexemes_bare h3, h4, lex_open,
      lexemes_append, lexemes_commaSep, lex_close, meanExpr]
    exact hc
  | .infx l op r =>
    have ihl := read_expr b l
    have ihr := read_expr b r
    refine both (fun loose h => ?_) nofun nofun
    rw [OperandOk, exprL, meanExpr]
    rw [plainExpr] at h
    split at h
    · next hop =>
      simp only [Bool.and_eq_true] at h
      exact operand_infix hop (ihl.cond h.1) (ihr.cond h.2)
    · simp only [Bool.and_eq_true, decide_eq_true_eq] at h
      exact operand_comparison h.1.1 (ihl.operand h.1.2) (ihr.operand h.2)
  | .inx e op v =>
    have ihe := read_expr b e
    have ihv := read_expr b v
    refine both (fun loose h => ?_) nofun nofun
    obtain ⟨hop, he, l, rfl, hne, hl⟩ := plainExpr_inx h
    rw [OperandOk, exprL, meanExpr, if_neg (by simp [blank, hne])]
    exact operand_isIn hop (ihe.operand he) (ihv.set l rfl hl)
  | .between i op lo and hi =>
    have ihl := read_expr b lo
    have ihh := read_expr b hi
    refine both (fun loose h => ?_) nofun nofun
    simp only [plainExpr, Bool.and_eq_true, Bool.or_eq_true, decide_eq_true_eq] at h
    obtain ⟨⟨⟨⟨hi1, hop⟩, hlo⟩, hand⟩, hhi⟩ := h
    subst hand
    obtain ⟨o1, o2⟩ := operand_ident (b := b) hi1
    obtain ⟨l1, l2⟩ := ihl.operand hlo
    obtain ⟨k1, k2⟩ := ihh.operand hhi
    have h := operand_parens (o1.append _).cond (reads_expr (reads_between hop o1 o2 l2 k2 rfl))
    rw [OperandOk, exprL, meanExpr]
    simp only [List.cons_append, List.append_assoc, List.nil_append, lexemes_append, lex_open,
      lex_close, lex_space, lex_between hop, lex_and, lexemes_nil] at h ⊢
    exact h
  | .exist e =>
    have ih := read_expr b e
    refine both (fun loose h => ?_) nofun nofun
    obtain ⟨s, rfl, hs⟩ := plainExpr_exist h
    have h := operand_exist (ih.select s rfl hs).2
    rw [OperandOk, exprL, exprL, List.cons_append, lex_exists, lexemes_append, lex_close, meanExpr]
    exact h
  | .notExist e =>
    have ih := read_expr b e
    refine ⟨fun h => ?_, fun h => ?_, nofun, nofun⟩
    · cases (plainExpr_notExist h).1
    · obtain ⟨-, s, rfl, hs⟩ := plainExpr_notExist h
      have h := cond_notExist (ih.select s rfl hs).2
      rw [CondOk, exprL, exprL, List.cons_append, lex_notExists, lexemes_append, lex_close, meanExpr]
      exact h
  | .select s =>
    refine ⟨by simp [plainExpr], by simp [plainExpr], ?_, nofun⟩
    intro s' he hs
    cases he
    exact read_select b s hs
  | .onClause l r =>
    refine ⟨by simp [plainExpr], fun h => ?_, nofun, nofun⟩
    simp only [plainExpr, Bool.true_and, Bool.and_eq_true] at h
    obtain ⟨l1, l2⟩ := operand_quoted l.name
    obtain ⟨r1, r2⟩ := operand_quoted r.name
    have := reads_comparison (op := s%"=") (ts := [.sym '=']) (by simp [operatorTable]) l1 r1 l2 r2
    rw [CondOk, exprL, lexemes_append, lexemes_column h.1, lex_equals, lexemes_column h.2, meanExpr]
    exact ⟨(l1.append _).cond, this⟩
  | .infixOn l op r =>
    have ihl := read_expr b l
    have ihr := read_expr b r
    refine both (fun loose h => ?_) nofun nofun
    rw [OperandOk, exprL, meanExpr]
    simp only [plainExpr, Bool.and_eq_true, decide_eq_true_eq] at h
    exact operand_infix h.1.1 (ihl.cond h.1.2) (ihr.cond h.2)

theorem read_exprs (b : Bool) (l : List Expr) : ExprsOk b l := by
  match l with
  | [] => exact ⟨fun _ => ⟨.nil, by simp [exprsL]⟩, nofun⟩
  | e :: l => exact exprsOk_cons (read_expr b e) (read_exprs b l)

theorem read_item (b : Bool) (e : SelExpr) (h : plainItem e = true) : ItemOk b e := by
  match e with
  | .nil => cases h
  | .column c =>
    simp only [plainItem, Bool.and_eq_true] at h
    obtain ⟨h1, h2⟩ := operand_quoted c.name
    rw [ItemOk, selExprL, columnL, lexemes_aliased h.1 h.2, meanItem]
    refine ⟨h1.cond.append _, reads_item (reads_cond h1 h2)
      (reads_alias c.alias (by decide) (by decide)) ?_⟩
    have := heads_alias c.alias (S := [.word s%"AS"]) List.mem_cons_self (r := []) (.inl rfl)
    simpa using this
  | .raw s =>
    rw [plainItem] at h
    obtain ⟨h1, h2⟩ := operand_bare h
    rw [ItemOk, selExprL, lexemes_bare h, lexemes_nil, List.append_nil, meanItem]
    exact ⟨h1.cond, reads_itemPlain (reads_cond h1 h2)⟩
  | .count v distinct a =>
    rw [plainItem] at h
    exact item_aggregate (f := s%"COUNT") (by decide) distinct h (fun _ => rfl)
  | .max v a =>
    rw [plainItem] at h
    exact item_aggregate (f := s%"MAX") (by decide) false h (fun _ => rfl)
  | .min v a =>
    rw [plainItem] at h
    exact item_aggregate (f := s%"MIN") (by decide) false h (fun _ => rfl)
  | .sum v a =>
    rw [plainItem] at h
    exact item_aggregate (f := s%"SUM") (by decide) false h (fun _ => rfl)
  | .exist e =>
    have ih := read_expr b e
    obtain ⟨s, rfl, hs⟩ := plainItem_exist h
    obtain ⟨h1, h2⟩ := operand_exist (ih.select s rfl hs).2
    rw [ItemOk, selExprL, exprL, List.cons_append, lex_exists, lexemes_append, lex_close, meanItem]
    exact ⟨h1.cond, reads_itemPlain (reads_cond h1 h2)⟩
  | .notExist e =>
    have ih := read_expr b e
    obtain ⟨s, rfl, hs⟩ := plainItem_notExist h
    obtain ⟨h1, h2⟩ := cond_notExist (ih.select s rfl hs).2
    rw [ItemOk, selExprL, exprL, List.cons_append, lex_notExists, lexemes_append, lex_close, meanItem]
    exact ⟨h1, reads_itemPlain h2⟩

theorem read_items (b : Bool) (l : List SelExpr) (h : plainItems l = true) :
    ReadsAll readItem 6 stopItem ((selExprsL l).map (lexemes b)) (meanItems l) ∧
      ∀ ls ∈ (selExprsL l).map (lexemes b), OpensCond ls := by
  match l with
  | [] => exact ⟨.nil, by simp [selExprsL]⟩
  | e :: l =>
    simp only [plainItems, Bool.and_eq_true] at h
    obtain ⟨h1, h2⟩ := read_item b e h.1
    obtain ⟨h3, h4⟩ := read_items b l h.2
    rw [selExprsL, meanItems, List.map_cons]
    refine ⟨.cons h2 h3, ?_⟩
    intro ls hls
    rcases List.mem_cons.1 hls with rfl | hls
    · exact h1
    · exact h4 ls hls

theorem read_join (b : Bool) (j : Join) (h : plainJoin j = true) :
    ∃ ts, (j.type, ts) ∈ joinTable ∧
      lexemes b (joinL j) = joinLexemes ts j.table (lexemes b (exprL j.cond)) ∧
      Reads readExpr 5 stopExpr (lexemes b (exprL j.cond)) (meanExpr j.cond) := by
  match j with
  | ⟨type, table, cond⟩ =>
    have ih := read_expr b cond
    simp only [plainJoin, Bool.and_eq_true, decide_eq_true_eq, List.mem_map] at h
    obtain ⟨⟨⟨⟨o, ts⟩, hts, rfl⟩, ht⟩, hc⟩ := h
    refine ⟨ts, hts, ?_, reads_expr (ih.cond hc).2⟩
    rw [joinL, List.cons_append, List.cons_append, lex_join hts, lex_space, lexemes_append,
      lexemes_table ht, lex_on, joinLexemes]

theorem read_joins (b : Bool) (l : List Join) (h : plainJoins l = true) : JoinsOk b l := by
  match l with
  | [] => exact ⟨.inl rfl, reads_joinsNil⟩
  | j :: l =>
    simp only [plainJoins, Bool.and_eq_true] at h
    obtain ⟨ts, h1, h2, h3⟩ := read_join b j h.1
    obtain ⟨h4, h5⟩ := read_joins b l h.2
    match j with
    | ⟨type, table, cond⟩ =>
      rw [JoinsOk, joinsL, List.flatMap_cons, optLexemes, h2, meanJoins, meanJoin]
      exact ⟨by
        rw [joinLexemes, List.append_assoc]
        exact heads_join h1 _, reads_joinsCons h1 h3 h4 h5⟩

theorem read_with (b : Bool) (w : WithQuery) (h : plainWith w = true) : WithOk b w := by
  match w with
  | ⟨name, sub⟩ =>
    have ih := read_expr b sub
    obtain ⟨h1, s, rfl, hs⟩ := plainWith_cases h
    have h2 := reads_with h1 (ih.select s rfl hs).2
    obtain ⟨h3, h4⟩ := bareName_word h1
    have hb : blank (.select s) = false := by
      match s with
      | ⟨_, _, _, _, exprs, _, _, _, _, _, _, _, _, _, _⟩ =>
        simp only [plainSelect, Bool.and_eq_true] at hs
        simpa [blank] using hs.1.1.1.1.1.1.1.1.1.1.1.2
    rw [WithOk, withL, if_neg (by simp [bareWord_ne_nil h1, hb]), List.cons_append,
      List.cons_append, lexemes_bare h3, h4, lex_asOpen, lexemes_append, lex_close, exprL, meanWith]
    exact h2

theorem read_withs (b : Bool) (l : List WithQuery) (h : plainWiths l = true) :
    ReadsAll readWith 0 stopWith ((withsL l).map (lexemes b)) (meanWiths l) := by
  match l with
  | [] => exact .nil
  | w :: l =>
    simp only [plainWiths, Bool.and_eq_true] at h
    rw [withsL, meanWiths, List.map_cons]
    exact .cons (read_with b w h.1) (read_withs b l h.2)

theorem read_select (b : Bool) (s : SelectStmt) (h : plainSelect s = true) : SelectOk b s := by
  match s with
  | ⟨pfx, withs, distinct, distinctOn, exprs, tables, joins, whr, groupBy, having, orderBy,
      limit, offset, sfx, comment⟩ =>
    exact selectOk h (read_withs b withs) (read_items b exprs) (read_joins b joins)
      (read_expr b whr) (read_expr b having)

end

end

end Verif
