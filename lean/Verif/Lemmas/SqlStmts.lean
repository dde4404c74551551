import Verif.Lemmas.SqlRead

/-!
# Reading back statements
-/

set_option linter.unusedSectionVars false
set_option linter.unusedSimpArgs false

namespace Verif
open Spec

section
variable [GoRuntime] {b : Bool}

/-! ## Parts of statements -/

/-- What can follow columns between parentheses, or nothing instead of them. -/
def stopColumns : List SqlTok :=
  [.sym ';', .word s%"VALUES", .word s%"ON", .word s%"RETURNING", .word s%"DO"]

/-- The lexemes of `(columns)`, or nothing. -/
def columnsLexemes (lss : List (List Lexeme)) : List Lexeme :=
  optional (!lss.isEmpty) [.sym '('] (separated (.tok (.sym ',')) lss ++ [.tok (.sym ')')])

theorem reads_columns {lss : List (List Lexeme)} {xs : List Ref}
    (h : ReadsAll readRef 0 stopRef lss xs) :
    Reads readColumns 1 stopColumns (columnsLexemes lss) xs := by
  intro n rest hn hr
  by_cases hne : lss = []
  · subst hne
    cases h
    simp [columnsLexemes, optional, readColumns, eat_heads hr (t := .sym '(') (by decide)]
  · have h1 : lss.isEmpty = false := by simpa using hne
    simp only [columnsLexemes, optional, h1, Bool.not_false, if_true, List.map_cons, List.map_nil,
      List.cons_append, List.nil_append, List.length_cons, List.length_append,
      List.append_assoc] at hn ⊢
    have r := reads_commaList h hne (T := stopParen) (by decide) (by decide) (by decide) n
      (.tok (.sym ')') :: rest) (by omega) (heads_cons (by decide) _)
    simp [readColumns, parens_ok r]

/-- What can follow SET. -/
def stopSet : List SqlTok := [.sym ';', .word s%"FROM", .word s%"WHERE", .word s%"RETURNING"]

theorem reads_pair {ls : List Lexeme} {x : Sql} (c : Str) (h : Reads readExpr 5 stopExpr ls x) :
    Reads readPair 5 stopExpr (quotedLexemes c ++ .tok (.sym '=') :: ls) (quotedRef c, x) := by
  intro n rest hn hr
  simp only [List.length_append, List.length_cons] at hn
  have h1 := reads_quoted c n (.tok (.sym '=') :: (ls ++ rest)) (by omega)
    (heads_cons (by decide) _)
  rw [readPair, List.append_assoc, List.cons_append, h1]
  simp [h n rest (by omega) hr]

theorem reads_pairs {l : List (Column × Expr)}
    (h : (l.all fun ce => plainColumn ce.1 && plainExpr true ce.2) = true) :
    ReadsAll readPair 5 stopExpr ((l.map assignL).map (lexemes b))
      (l.map fun ce => (columnRef ce.1, meanExpr ce.2)) := by
  rw [List.map_map]
  refine readsAll_map fun ce hce => ?_
  have := List.all_eq_true.1 h ce hce
  simp only [Bool.and_eq_true] at this
  rw [Function.comp, assignL, lexemes_append, lexemes_column this.1, lex_equals]
  exact reads_pair _ (reads_expr ((read_expr b ce.2).cond this.2).2)

theorem reads_set {p : PairContainer} (h : plainPairs p = true) :
    ∃ body, lexemes b (setL p) = .tok (.word s%"SET") :: body ∧
      Reads readAssignments 9 stopSet body (meanPairs p) := by
  unfold plainPairs at h
  unfold setL meanPairs
  cases hm : p.mode with
  | unknown => simp [hm] at h
  | associative =>
    simp only [hm, Bool.and_eq_true, Bool.not_eq_true', List.isEmpty_eq_false_iff] at h
    refine ⟨_, rfl, ?_⟩
    simp only
    show Reads readAssignments 9 stopSet (lexemes b (commaSep ((assignments p).map assignL))) _
    rw [lexemes_commaSep]
    intro n rest hn hr
    have r := reads_commaList (reads_pairs (b := b) h.2) (by simpa using h.1) (T := stopSet)
      (by decide) (by decide) (by decide) n rest (by omega) hr
    have ho : eat (.sym '(') (separated (.tok (.sym ','))
        (((assignments p).map assignL).map (lexemes b)) ++ rest) = none := by
      obtain ⟨ce, l, hl⟩ := List.exists_cons_of_ne_nil h.1
      rw [hl, List.all_cons] at h
      simp only [Bool.and_eq_true] at h
      obtain ⟨t, r, h0⟩ := opens_quoted ce.1.name
      have : ∃ r, lexemes b (assignL ce) = .tok (.name t) :: r := by
        rw [assignL, lexemes_append, lexemes_column h.2.1.1, h0]
        exact ⟨_, rfl⟩
      obtain ⟨r', h1⟩ := this
      rw [hl]
      cases l <;> simp [separated, h1, eat]
    simp only at r
    simp only [readAssignments, ho, Option.isSome_none, Bool.false_eq_true, if_false, r,
      Option.bind_eq_bind, Option.bind_some]
  | array =>
    simp only [hm, Bool.and_eq_true, Bool.not_eq_true', List.isEmpty_eq_false_iff] at h
    refine ⟨_, rfl, ?_⟩
    simp only
    show Reads readAssignments 9 stopSet (lexemes b (.sql s%"(" ::
      commaSep (p.columns.map columnL) ++ .sql s%") = (" ::
        commaSep (exprsL p.expressions) ++ [.sql s%")"])) _
    have e : lexemes b (.sql s%"(" :: commaSep (p.columns.map columnL) ++ .sql s%") = (" ::
        commaSep (exprsL p.expressions) ++ [.sql s%")"]) =
        .tok (.sym '(') :: (separated (.tok (.sym ',')) ((p.columns.map columnL).map (lexemes b)) ++
          .tok (.sym ')') :: .tok (.sym '=') :: .tok (.sym '(') ::
          (lexemes b (commaSep (exprsL p.expressions)) ++ [.tok (.sym ')')])) := by
      simp only [List.cons_append, List.append_assoc, lex_open, lexemes_append, lexemes_commaSep,
        lexemes_cons (.sql s%") = (")]
      rfl
    rw [e]
    have h1 := readsAll_columns (b := b) h.1.2
    have h2 := setOk (read_exprs b p.expressions) h.2
    rw [SetOk, exprL, meanExpr] at h2
    intro n rest hn hr
    simp only [List.length_append, List.length_cons, List.length_nil] at hn
    simp only [List.cons_append, List.append_assoc, List.nil_append]
    have r1 := fun r => reads_commaList h1 (by simpa using h.1.1) (T := stopParen) (by decide)
      (by decide) (by decide) n (.tok (.sym ')') :: r) (by omega) (heads_cons (by decide) _)
    have r2 := h2 n (.tok (.sym ')') :: rest) (by omega) (heads_cons (by decide) _)
    simp only at r1
    simp only [readAssignments, eat_self, Option.isSome_some, if_true, Option.bind_eq_bind,
      Option.bind_some, parens_ok (r1 _), parens_ok r2]

/-- What ends a statement. -/
def stopEnd : List SqlTok := [.sym ';']

theorem readsAll_tables {l : List Table} (h : l.all plainTable = true) :
    ReadsAll readTable 0 stopTable ((l.map tableL).map (lexemes b)) (l.map meanTable) := by
  rw [List.map_map]
  refine readsAll_map fun c hc => ?_
  rw [Function.comp, lexemes_table (List.all_eq_true.1 h c hc)]
  exact reads_table c

theorem opt_returning (l : List SelExpr) :
    optLexemes b (clause (!l.isEmpty) (returningL l))
      = listClause [.word s%"RETURNING"] ((selExprsL l).map (lexemes b)) :=
  opt_list (by cases l <;> rfl) rfl

/-! ## DELETE -/

theorem read_delete {d : DeleteStmt} (h : plainStmt (.delete d) = true) :
    Reads readDelete 8 stopEnd (lexemes b (deleteL { d with comment := [] }))
      (meanStmt (.delete d)) := by
  simp only [plainStmt, Bool.and_eq_true, Bool.not_eq_true', List.isEmpty_eq_false_iff] at h
  obtain ⟨⟨⟨⟨h1, h2⟩, h3⟩, h4⟩, h5⟩ := h
  have e : lexemes b (deleteL { d with comment := [] }) =
      .tok (.word s%"DELETE") :: .tok (.word s%"FROM") ::
      (separated (.tok (.sym ',')) ((d.tables.map fromItemL).map (lexemes b)) ++
      (listClause [.word s%"USING"] ((d.usings.map tableL).map (lexemes b)) ++
      (exprClause [.word s%"WHERE"] (condOf b d.whr) ++
        listClause [.word s%"RETURNING"] ((selExprsL d.returning).map (lexemes b))))) := by
    rw [deleteL, lexemes_append, lexemes_spaced]
    simp only [List.flatMap_cons, List.flatMap_nil, List.append_nil, List.append_assoc]
    rw [opt_list (b := b) (xs := d.usings.map tableL) (words := [.word s%"USING"])
        (by cases d.usings <;> rfl) rfl,
      opt_expr (b := b) (words := [.word s%"WHERE"]) rfl, opt_returning, ← lexemes_commaSep]
    have e1 : lexemes b (commentL []) = [] := rfl
    rw [e1, List.append_nil]
    rfl
  rw [e]
  intro n rest hn hr
  simp only [List.length_append, List.length_cons] at hn
  simp only [List.append_assoc, List.cons_append]
  obtain ⟨i1, i2⟩ := read_items b d.returning h5
  have f1 := heads_listClause (S := [.word s%"RETURNING", .sym ';']) (.word s%"RETURNING") []
    ((selExprsL d.returning).map (lexemes b)) (by decide) (hr.mono (by decide))
  have f2 := heads_exprClause (S := [.word s%"WHERE", .word s%"RETURNING", .sym ';'])
    (.word s%"WHERE") [] (condOf b d.whr) (by decide) (f1.mono (by decide))
  have f3 := heads_listClause
    (S := [.word s%"USING", .word s%"WHERE", .word s%"RETURNING", .sym ';']) (.word s%"USING") []
    ((d.usings.map tableL).map (lexemes b)) (by decide) (f2.mono (by decide))
  have r1 := reads_listClause i1 (T := stopEnd) (.word s%"RETURNING") [] (n := n) (by decide)
    (by decide) (by decide) (by decide) (by omega) hr
  have r2 := reads_exprClause (condOf_reads (read_expr b d.whr) h4) (.word s%"WHERE") [] (n := n)
    (by decide) (by decide) (by omega) f1
  have r3 := reads_listClause (readsAll_tables (b := b) h3) (.word s%"USING") [] (n := n)
    (by decide) (by decide) (by decide) (by decide) (by omega) f2
  have r4 := reads_commaList (readsAll_from (b := b) h2) (by simpa using h1)
    (T := [.word s%"USING", .word s%"WHERE", .word s%"RETURNING", .sym ';']) (by decide)
    (by decide) (by decide) n _ (by omega) f3
  simp only [readDelete, eats, eat_self, Option.bind_eq_bind, Option.bind_some, r4, r3, r2,
    readReturning, r1, meanStmt, condOf_mean]

/-! ## UPDATE -/

theorem read_update {u : UpdateStmt} (h : plainStmt (.update u) = true) :
    Reads readUpdate 10 stopEnd (lexemes b (updateL { u with comment := [] }))
      (meanStmt (.update u)) := by
  simp only [plainStmt, Bool.and_eq_true, Bool.not_eq_true'] at h
  obtain ⟨⟨⟨⟨⟨⟨h1, h2⟩, h3⟩, h4⟩, h5⟩, h6⟩, h7⟩ := h
  obtain ⟨body, hb, hset⟩ := reads_set (b := b) h4
  let t : Table := { u.table with only := u.only || u.table.only }
  have ht : optLexemes b (clause u.only [.sql s%"ONLY"]) ++ lexemes b (tableL u.table)
      = tableLexemes t := by
    rw [lexemes_table h2, optLexemes_clause]
    cases ho : u.only <;> simp only [ho, Bool.true_and, Bool.false_and] at h3
    · simp [t, tableLexemes, ho]
    · simp [t, tableLexemes, ho, h3, optional]
      rfl
  have hm : meanTable t = { meanTable u.table with only := u.only || u.table.only } := rfl
  have e : lexemes b (updateL { u with comment := [] }) =
      withsLexemes ((withsL u.withs).map (lexemes b)) ++ (.tok (.word s%"UPDATE") ::
      (tableLexemes t ++ (.tok (.word s%"SET") :: (body ++
      (listClause [.word s%"FROM"] ((u.tables.map fromItemL).map (lexemes b)) ++
      (exprClause [.word s%"WHERE"] (condOf b u.whr) ++
        listClause [.word s%"RETURNING"] ((selExprsL u.returning).map (lexemes b)))))))) := by
    rw [updateL, lexemes_append, lexemes_spaced]
    simp only [List.flatMap_cons, List.flatMap_nil, List.append_nil, List.append_assoc]
    rw [opt_list (b := b) (xs := withsL u.withs) (words := [.word s%"WITH"])
        (by cases u.withs <;> rfl) rfl,
      fromL, opt_list (b := b) (xs := u.tables.map fromItemL) (words := [.word s%"FROM"])
        (by cases u.tables <;> rfl) rfl,
      opt_expr (b := b) (words := [.word s%"WHERE"]) rfl, opt_returning, ← ht]
    have e1 : lexemes b (commentL []) = [] := rfl
    have e2 : optLexemes b (some (setL u.set)) = .tok (.word s%"SET") :: body := hb
    rw [e1, e2, List.append_nil]
    simp only [List.append_assoc, List.cons_append]
    rfl
  rw [e]
  intro n rest hn hr
  simp only [List.length_append, List.length_cons] at hn
  simp only [List.append_assoc, List.cons_append]
  obtain ⟨i1, i2⟩ := read_items b u.returning h7
  have f1 := heads_listClause (S := [.word s%"RETURNING", .sym ';']) (.word s%"RETURNING") []
    ((selExprsL u.returning).map (lexemes b)) (by decide) (hr.mono (by decide))
  have f2 := heads_exprClause (S := [.word s%"WHERE", .word s%"RETURNING", .sym ';'])
    (.word s%"WHERE") [] (condOf b u.whr) (by decide) (f1.mono (by decide))
  have f3 := heads_listClause (S := stopSet) (.word s%"FROM") []
    ((u.tables.map fromItemL).map (lexemes b)) (by decide) (f2.mono (by decide))
  have r1 := reads_listClause i1 (T := stopEnd) (.word s%"RETURNING") [] (n := n) (by decide)
    (by decide) (by decide) (by decide) (by omega) hr
  have r2 := reads_exprClause (condOf_reads (read_expr b u.whr) h6) (.word s%"WHERE") [] (n := n)
    (by decide) (by decide) (by omega) f1
  have r3 := reads_listClause (readsAll_from (b := b) h5) (.word s%"FROM") [] (n := n)
    (by decide) (by decide) (by decide) (by decide) (by omega) f2
  have r4 := hset n _ (by omega) f3
  have r5 := fun r => reads_table t n (.tok (.word s%"SET") :: r) (by omega)
    (heads_cons (by decide) _)
  have r6 := fun r => reads_withs (read_withs b u.withs h1) (S := [.word s%"UPDATE"]) (by simp) n
    (.tok (.word s%"UPDATE") :: r) (by omega) (heads_cons (by decide) _)
  simp only [readUpdate, r6, r5, eat_self, Option.bind_eq_bind, Option.bind_some, r4, r3, r2,
    readReturning, r1, meanStmt, condOf_mean, hm]

/-! ## INSERT -/

/-- What can follow a row of VALUES. -/
def stopRow : List SqlTok := [.sym ',', .sym ';', .word s%"ON", .word s%"RETURNING"]

theorem reads_row {ls : List Lexeme} {xs : List Sql}
    (h : Reads (fun n => commaList (readExpr n) n) 6 stopParen ls xs) :
    Reads (fun n => parens (commaList (readExpr n) n)) 6 stopRow
      (.tok (.sym '(') :: (ls ++ [.tok (.sym ')')])) xs := by
  intro n rest hn hr
  simp only [List.length_append, List.length_cons, List.length_nil] at hn
  simp only [List.append_assoc, List.cons_append, List.nil_append]
  exact parens_ok (h n (.tok (.sym ')') :: rest) (by omega) (heads_cons (by decide) _))

/-- ON CONFLICT as it is written, with what it means. -/
theorem reads_conflict {target : List Column} {action : ConflictAction}
    (h : target.all plainColumn = true) (ha : plainAction action = true)
    (hb : actionBlank action = false) :
    ∃ body x, lexemes b (conflictL target action) =
        .tok (.word s%"ON") :: .tok (.word s%"CONFLICT") :: body ∧
      meanConflict target action = some x ∧
      Reads readConflict 11 [.word s%"RETURNING", .sym ';'] body x := by
  have hc : lexemes b (conflictL target action) =
      .tok (.word s%"ON") :: .tok (.word s%"CONFLICT") ::
        (columnsLexemes ((target.map columnL).map (lexemes b)) ++ lexemes b (actionL action)) := by
    rw [conflictL, List.cons_append, lexemes_cons, lexemes_append]
    have : lexemes b (if target.isEmpty then []
        else .sql s%"(" :: commaSep (target.map columnL) ++ [.sql s%") "])
        = columnsLexemes ((target.map columnL).map (lexemes b)) := by
      rw [columnsLexemes, optional, List.isEmpty_map, List.isEmpty_map, ← lexemes_commaSep]
      cases target
      · rfl
      · simp only [List.isEmpty_cons, Bool.false_eq_true, if_false, Bool.not_false, if_true,
          List.cons_append, lex_open, lexemes_append]
        rfl
    rw [this]
    rfl
  have r1 := reads_columns (readsAll_columns (b := b) h)
  match action with
  | .nil => cases hb
  | .nothing =>
    refine ⟨_, _, hc, rfl, ?_⟩
    intro n rest hn hr
    simp only [List.length_append] at hn
    have e : lexemes b (actionL .nothing) = [.tok (.word s%"DO"), .tok (.word s%"NOTHING")] := rfl
    rw [e, List.append_assoc, List.cons_append, readConflict,
      r1 n _ (by omega) (heads_cons (t := .word s%"DO") (by decide) _)]
    simp
  | .update set =>
    simp only [actionBlank] at hb
    simp only [plainAction, hb, Bool.false_or] at ha
    obtain ⟨body, hbody, hset⟩ := reads_set (b := b) ha
    refine ⟨_, (target.map columnRef, .update (meanPairs set)), hc, by simp [meanConflict, hb], ?_⟩
    have e : lexemes b (actionL (.update set)) =
        .tok (.word s%"DO") :: .tok (.word s%"UPDATE") :: .tok (.word s%"SET") :: body := by
      rw [actionL, lexemes_cons, hbody]
      rfl
    intro n rest hn hr
    rw [e] at hn ⊢
    simp only [List.length_append, List.length_cons] at hn
    rw [List.append_assoc, List.cons_append, readConflict,
      r1 n _ (by omega) (heads_cons (t := .word s%"DO") (by decide) _)]
    have r2 := hset n rest (by omega) (hr.mono (by decide))
    simp [eat_ne, eats, r2]

theorem reads_rows {l : List Expr} (h : l.all plainRow = true) :
    ReadsAll (fun n => parens (commaList (readExpr n) n)) 6 stopRow ((rowsL l).map (lexemes b))
      (l.map meanRow) := by
  induction l with
  | nil => exact .nil
  | cons e l ih =>
    simp only [List.all_cons, Bool.and_eq_true] at h
    rw [rowsL, List.map_cons, List.map_cons]
    refine .cons ?_ (ih h.2)
    obtain ⟨l', rfl⟩ : ∃ l', e = .array l' := by
      cases e
      case array l' => exact ⟨l', rfl⟩
      all_goals simp [plainRow] at h
    simp only [plainRow, Bool.and_eq_true, Bool.not_eq_true', List.isEmpty_eq_false_iff] at h
    have := reads_exprList ((read_exprs b l').all h.1.2).1 (by
      cases l' <;> simp_all [exprsL])
    rw [List.cons_append, lex_open, lexemes_append, exprL, lexemes_commaSep, lex_close]
    exact reads_row this

theorem reads_values {e : Expr} (h : plainValues e = true) :
    ∃ vl, optLexemes b (clause (!blank e) (.sql s%"VALUES " :: exprL e))
        = listClause [.word s%"VALUES"] vl ∧
      ReadsAll (fun n => parens (commaList (readExpr n) n)) 6 stopRow vl (meanValues e) := by
  by_cases hl : ∃ l, e = .arrayList l
  · obtain ⟨l, rfl⟩ := hl
    refine ⟨_, ?_, reads_rows (b := b) h⟩
    rw [exprL, blank]
    exact opt_list (by cases l <;> rfl) rfl
  · refine ⟨[], ?_, ?_⟩
    · have hb : blank e = true := by
        unfold plainValues at h
        split at h
        · exact absurd ⟨_, rfl⟩ hl
        · exact h
      rw [hb]
      rfl
    · have : meanValues e = [] := by
        unfold meanValues
        split
        · exact absurd ⟨_, rfl⟩ hl
        · rfl
      rw [this]
      exact .nil

theorem reads_conflictClause {target : List Column} {action : ConflictAction}
    (h : target.all plainColumn = true) (ha : plainAction action = true) :
    ∃ cl, optLexemes b (clause (!actionBlank action) (conflictL target action)) = cl ∧
      Heads [.word s%"ON"] cl ∧
      ∀ n rest, 8 * cl.length + 10 ≤ n → Heads [.word s%"RETURNING", .sym ';'] rest →
        ifNext [.word s%"ON", .word s%"CONFLICT"] (readConflict n) (cl ++ rest)
          = some (meanConflict target action, rest) := by
  cases hb : actionBlank action with
  | true =>
    refine ⟨[], rfl, .inl rfl, fun n rest hn hr => ?_⟩
    have : meanConflict target action = none := by
      cases action with
      | nil => rfl
      | nothing => cases hb
      | update set => simpa [meanConflict, actionBlank] using hb
    rw [List.nil_append, ifNext, eats_heads hr _ (by decide), this]
  | false =>
    obtain ⟨body, x, h1, h2, h3⟩ := reads_conflict (b := b) h ha hb
    refine ⟨_, h1, heads_cons (by decide) _, fun n rest hn hr => ?_⟩
    simp only [List.length_cons] at hn
    simp [ifNext, eats, h3 n rest (by omega) hr, h2]

theorem read_insert {i : InsertStmt} (h : plainStmt (.insert i) = true) :
    Reads readInsert 10 stopEnd (lexemes b (insertL { i with comment := [] }))
      (meanStmt (.insert i)) := by
  simp only [plainStmt, Bool.and_eq_true] at h
  obtain ⟨⟨⟨⟨⟨h1, h2⟩, h3⟩, h4⟩, h5⟩, h6⟩ := h
  obtain ⟨vl, hv, hvr⟩ := reads_values (b := b) h3
  obtain ⟨cl, hc, hch, hcr⟩ := reads_conflictClause (b := b) h4 h5
  have e : lexemes b (insertL { i with comment := [] }) =
      .tok (.word s%"INSERT") :: .tok (.word s%"INTO") :: (tableLexemes i.into ++
      (columnsLexemes ((i.columns.map columnL).map (lexemes b)) ++
      (listClause [.word s%"VALUES"] vl ++ (cl ++
        listClause [.word s%"RETURNING"] ((selExprsL i.returning).map (lexemes b)))))) := by
    rw [insertL, lexemes_append, lexemes_spaced]
    simp only [List.flatMap_cons, List.flatMap_nil, List.append_nil, List.append_assoc]
    rw [hv, hc, opt_returning]
    have e1 : lexemes b (commentL []) = [] := rfl
    have e2 : optLexemes b (clause (!i.columns.isEmpty)
        (.sql s%"(" :: commaSep (i.columns.map columnL) ++ [.sql s%")"]))
        = columnsLexemes ((i.columns.map columnL).map (lexemes b)) := by
      rw [optLexemes_clause, columnsLexemes, optional, List.isEmpty_map, List.isEmpty_map,
        ← lexemes_commaSep, List.cons_append, lex_open, lexemes_append]
      rfl
    rw [e1, e2, List.append_nil, ← lexemes_table h1]
    rfl
  rw [e]
  intro n rest hn hr
  simp only [List.length_append, List.length_cons] at hn
  simp only [List.append_assoc, List.cons_append]
  obtain ⟨i1, i2⟩ := read_items b i.returning h6
  have f1 := heads_listClause (S := [.word s%"RETURNING", .sym ';']) (.word s%"RETURNING") []
    ((selExprsL i.returning).map (lexemes b)) (by decide) (hr.mono (by decide))
  have f2 := heads_append (S := [.word s%"ON", .word s%"RETURNING", .sym ';'])
    (hch.mono (by decide)) (f1.mono (by decide))
  have f3 := heads_listClause (S := [.word s%"VALUES", .word s%"ON", .word s%"RETURNING", .sym ';'])
    (.word s%"VALUES") [] vl (by decide) (f2.mono (by decide))
  have f4 : Heads stopTable (columnsLexemes ((i.columns.map columnL).map (lexemes b)) ++ _) :=
    heads_optional _ _ _ _ (by decide) (f3.mono (by decide))
  have r1 := reads_listClause i1 (T := stopEnd) (.word s%"RETURNING") [] (n := n) (by decide)
    (by decide) (by decide) (by decide) (by omega) hr
  have r2 := hcr n _ (by omega) f1
  have r3 := reads_listClause hvr (.word s%"VALUES") [] (n := n) (by decide) (by decide)
    (by decide) (by decide) (by omega) f2
  have r4 := reads_columns (readsAll_columns (b := b) h2) n _ (by omega) (f3.mono (by decide))
  have r5 := reads_table i.into n _ (by omega) f4
  simp only [readInsert, eats, eat_self, Option.bind_eq_bind, Option.bind_some, r5, r4, r3, r2,
    readReturning, r1, meanStmt]

/-! ## Any statement -/

theorem readSelect_none {wl : List (List Lexeme)} {ws : List SqlWith}
    (h : ReadsAll readWith 0 stopWith wl ws) (n : Nat) (r : List Lexeme)
    (hn : 8 * (withsLexemes wl).length + 2 ≤ n) :
    readSelect n (withsLexemes wl ++ .tok (.word s%"UPDATE") :: r) = none := by
  obtain ⟨n, rfl⟩ : ∃ k, n = k + 1 := ⟨n - 1, by omega⟩
  rw [readSelect, reads_withs h (S := [.word s%"UPDATE"]) (by simp) n _ (by omega)
    (heads_cons (by decide) _)]
  simp [eat_ne]

theorem readSelect_word {w : Str} (h : w ≠ s%"SELECT") (h' : w ≠ s%"WITH") (n : Nat)
    (r : List Lexeme) : readSelect n (.tok (.word w) :: r) = none := by
  cases n with
  | zero => rfl
  | succ n => simp [readSelect, ifNextList, eats, eat_ne, h, h']

theorem lexemes_insertHead (i : InsertStmt) :
    ∃ r, lexemes b (insertL i) = .tok (.word s%"INSERT") :: r := by
  rw [insertL, lexemes_append, lexemes_spaced]
  exact ⟨_, rfl⟩

theorem lexemes_deleteHead (d : DeleteStmt) :
    ∃ r, lexemes b (deleteL d) = .tok (.word s%"DELETE") :: r := by
  rw [deleteL, lexemes_append, lexemes_spaced]
  exact ⟨_, rfl⟩

theorem lexemes_updateHead (u : UpdateStmt) :
    ∃ r, lexemes b (updateL u) =
      withsLexemes ((withsL u.withs).map (lexemes b)) ++ .tok (.word s%"UPDATE") :: r := by
  rw [updateL, lexemes_append, lexemes_spaced]
  simp only [List.flatMap_cons, List.append_assoc]
  rw [opt_list (b := b) (xs := withsL u.withs) (words := [.word s%"WITH"])
    (by cases u.withs <;> rfl) rfl]
  exact ⟨_, rfl⟩

/-- The statement without its comment. -/
theorem read_any {s : Stmt} (h : plainStmt (uncommented s) = true) :
    Reads readAny 10 stopEnd (lexemes b (layout (uncommented s))) (meanStmt s) := by
  intro n rest hn hr
  match s with
  | .select ⟨pfx, withs, distinct, distinctOn, exprs, tables, joins, whr, groupBy, having, orderBy,
      limit, offset, sfx, comment⟩ =>
    simp only [uncommented, layout] at hn ⊢
    have := (read_select b _ h).2 n rest (by omega) (hr.mono (by decide))
    simp only [readAny, this, meanStmt, meanSelect]
  | .insert i =>
    simp only [uncommented, layout] at hn ⊢
    have r1 := read_insert (b := b) (i := i) h n rest hn hr
    obtain ⟨r, e⟩ := lexemes_insertHead (b := b) { i with comment := [] }
    rw [readAny, r1, e, List.cons_append, readSelect_word (by decide) (by decide)]
  | .update u =>
    simp only [uncommented, layout] at hn ⊢
    have r1 := read_update (b := b) (u := u) h n rest hn hr
    obtain ⟨r, e⟩ := lexemes_updateHead (b := b) { u with comment := [] }
    have hw := read_withs b u.withs (by
      simp only [uncommented, plainStmt, Bool.and_eq_true] at h
      exact h.1.1.1.1.1.1)
    rw [readAny, r1]
    rw [e] at hn ⊢
    simp only [List.length_append, List.length_cons] at hn
    simp only [List.append_assoc, List.cons_append]
    have r2 := readSelect_none hw n (r ++ rest) (by omega)
    simp only [r2]
    have hh : Heads [.word s%"WITH", .word s%"UPDATE"]
        (withsLexemes ((withsL u.withs).map (lexemes b)) ++ .tok (.word s%"UPDATE") :: (r ++ rest)) :=
      heads_optional _ _ _ _ (by decide) (heads_cons (by decide) _)
    simp only [readInsert, eats_heads hh _ (t := .word s%"INSERT") (by decide)]
    rfl
  | .delete d =>
    simp only [uncommented, layout] at hn ⊢
    have r1 := read_delete (b := b) (d := d) h n rest (by omega) hr
    obtain ⟨r, e⟩ := lexemes_deleteHead (b := b) { d with comment := [] }
    rw [readAny, r1]
    rw [e, List.cons_append, readSelect_word (by decide) (by decide)]
    simp [readInsert, readUpdate, eats, eat_ne, ifNextList]

end

end Verif
