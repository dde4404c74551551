import Verif.Lemmas.Complete
import Verif.Lemmas.Set
import Verif.Props.Sample

/-!
# C25, C37: the clauses of a statement
-/

set_option linter.unusedSectionVars false

namespace Verif.Props
open Spec

section
variable [GoRuntime]

/-! ## C25 -/

private theorem word_texts {α : Type} {f : α → W} {g : α → List Piece} {ok : α → Bool} {kw : Str}
    (hd : ∀ a, Denotes (f a) (ok a) (evs (g a))) {l : List α} (hok : ∀ a ∈ l, ok a = true)
    {x : Option Str} (h : ClauseText (clause (!l.isEmpty) (.sql kw :: commaSep (l.map g))) x) :
    ∃ ts, Texts (fun a => (f a).string) l ts ∧ x = when (!l.isEmpty) (kw ++ commaText ts) := by
  obtain ⟨y, hy, rfl⟩ := clauseText_clause h
  cases l with
  | nil => exact ⟨[], rfl, rfl⟩
  | cons a l =>
    obtain ⟨u, hu, rfl⟩ := rawText_sql_inv (hy rfl)
    obtain ⟨ts, h1, rfl⟩ := commaSep_texts hd hok hu
    exact ⟨ts, h1, rfl⟩

private theorem cond_text {e : Expr} {kw : Str} {x : Option Str} (hok : okIf e.isUnset (okE e) = true)
    (h : ClauseText (clause (!blank e) (.sql kw :: exprL e)) x) :
    ∃ t, (blank e = false → e.write.string = .ok t) ∧ x = when (!blank e) (kw ++ t) := by
  obtain ⟨y, hy, rfl⟩ := clauseText_clause h
  cases hb : blank e with
  | true => exact ⟨[], (fun h => Bool.noConfusion h), rfl⟩
  | false =>
    rw [hb] at hy
    obtain ⟨u, hu, rfl⟩ := rawText_sql_inv (hy rfl)
    rw [okIf_nonblank hb] at hok
    exact ⟨u, fun _ => (expr_string _ _).2 ⟨hok, hu⟩, rfl⟩

private theorem raw_text {s : Str} {x : Option Str}
    (h : ClauseText (clause (!s.isEmpty) [.raw s]) x) : x = when (!s.isEmpty) s := by
  obtain ⟨y, hy, rfl⟩ := clauseText_clause h
  cases s with
  | nil => rfl
  | cons c s =>
    have := hy rfl
    rw [rawText_raw_ok (t := []) rfl] at this
    cases this
    simp

private theorem sql_text {c : Bool} {s : Str} {x : Option Str}
    (h : ClauseText (clause c [.sql s]) x) : x = when c s := by
  obtain ⟨y, hy, rfl⟩ := clauseText_clause h
  cases c with
  | false => rfl
  | true =>
    have := hy rfl
    rw [rawText_sql_ok (t := []) rfl] at this
    cases this
    simp

private theorem comment_text {c t : Str} (h : rawText (commentL c) = .ok t) : t = commentText c := by
  cases c with
  | nil => cases h; rfl
  | cons a c =>
    simp only [commentL, List.isEmpty_cons, Bool.false_eq_true, if_false] at h
    cases h
    simp [commentText]

/-- C25, SELECT. The text of every SELECT that can be rendered is made of exactly the clauses
that are set, in SQL order, separated by single spaces, and then the comment. Each clause is
its keyword followed by the texts of its elements, in order. -/
theorem C25_select (b : SelectStmt) (t : Str) (h : b.write.string = .ok t) :
    ∃ (withs distinctOn columns tables joins groupBy orderBy : List Str) (whr having : Str),
      Texts (fun w : WithQuery => w.write.string) b.withs withs ∧
      Texts (fun c : Column => c.write.string) b.distinctOn distinctOn ∧
      Texts (fun e : SelExpr => e.write.string) b.exprs columns ∧
      Texts (fun f : FromItem => f.write.string) b.tables tables ∧
      Texts (fun j : Join => j.write.string) b.joins joins ∧
      (blank b.whr = false → b.whr.write.string = .ok whr) ∧
      Texts (fun c : Column => c.write.string) b.groupBy groupBy ∧
      (blank b.having = false → b.having.write.string = .ok having) ∧
      Texts (fun o : Order => o.write.string) b.orderBy orderBy ∧
      b.exprs ≠ [] ∧
      t = oneSpace
        ([when (!b.pfx.isEmpty) b.pfx,
          when (!b.withs.isEmpty) (s%"WITH " ++ commaText withs),
          some s%"SELECT",
          when (!b.distinctOn.isEmpty) (s%"DISTINCT ON (" ++ commaText distinctOn ++ s%")"),
          when b.distinct s%"DISTINCT",
          some (commaText columns),
          when (!b.tables.isEmpty) (s%"FROM " ++ commaText tables)]
         ++ joins.map some ++
         [when (!blank b.whr) (s%"WHERE " ++ whr),
          when (!b.groupBy.isEmpty) (s%"GROUP BY " ++ commaText groupBy),
          when (!blank b.having) (s%"HAVING " ++ having),
          when (!b.orderBy.isEmpty) (s%"ORDER BY " ++ commaText orderBy),
          when (b.limit ≠ 0) (s%"LIMIT " ++ formatInt b.limit),
          when (b.offset ≠ 0) (s%"OFFSET " ++ formatInt b.offset),
          when (!b.sfx.isEmpty) b.sfx])
        ++ commentText b.comment := by
  obtain ⟨hok, ht⟩ := (select_string _ _).1 h
  clear h
  cases b with
  | mk pfx withs distinct distinctOn exprs tables joins whr groupBy having orderBy limit offset sfx comment =>
    rw [selectL] at ht
    rw [okS] at hok
    simp only [Bool.and_eq_true] at hok
    obtain ⟨hne, hw, hs, hf, hj, hwh, hh⟩ := hok
    obtain ⟨t1, t2, ht1, ht2, rfl⟩ := rawText_append_inv ht
    obtain ⟨xs, hxs, rfl⟩ := spaced_text ht1
    obtain ⟨xs, tail, rfl, hxs, htail⟩ := allText_append hxs
    obtain ⟨head, jn, rfl, hhead, hjn⟩ := allText_append hxs
    obtain ⟨x1, head, rfl, c1, hhead⟩ := allText_cons hhead
    obtain ⟨x2, head, rfl, c2, hhead⟩ := allText_cons hhead
    obtain ⟨x3, head, rfl, c3, hhead⟩ := allText_cons hhead
    obtain ⟨x4, head, rfl, c4, hhead⟩ := allText_cons hhead
    obtain ⟨x5, head, rfl, c5, hhead⟩ := allText_cons hhead
    obtain ⟨x6, head, rfl, c6, hhead⟩ := allText_cons hhead
    obtain ⟨x7, head, rfl, c7, hhead⟩ := allText_cons hhead
    obtain ⟨y1, tail, rfl, d1, htail⟩ := allText_cons htail
    obtain ⟨y2, tail, rfl, d2, htail⟩ := allText_cons htail
    obtain ⟨y3, tail, rfl, d3, htail⟩ := allText_cons htail
    obtain ⟨y4, tail, rfl, d4, htail⟩ := allText_cons htail
    obtain ⟨y5, tail, rfl, d5, htail⟩ := allText_cons htail
    obtain ⟨y6, tail, rfl, d6, htail⟩ := allText_cons htail
    obtain ⟨y7, tail, rfl, d7, htail⟩ := allText_cons htail
    rw [allText_nil hhead, allText_nil htail]
    have e1 := raw_text c1
    rw [withsL_map] at c2
    obtain ⟨w, hwt, e2⟩ := word_texts with_denotes ((okWiths_all _).1 hw) c2
    have e3 : x3 = some s%"SELECT" := by
      obtain ⟨y, hy, rfl⟩ := clauseText_some c3
      rw [rawText_sql_ok (t := []) rfl] at hy; cases hy; rfl
    have e4 : ∃ ds, Texts (fun c : Column => c.write.string) distinctOn ds ∧
        x4 = when (!distinctOn.isEmpty) (s%"DISTINCT ON (" ++ commaText ds ++ s%")") := by
      obtain ⟨y, hy, rfl⟩ := clauseText_clause c4
      cases distinctOn with
      | nil => exact ⟨[], rfl, rfl⟩
      | cons a l =>
        obtain ⟨u, hu, rfl⟩ := rawText_sql_inv (hy rfl)
        obtain ⟨v, z, hv, hz, rfl⟩ := rawText_append_inv hu
        obtain ⟨ts, h1, rfl⟩ := commaSep_texts denotes_column (fun _ _ => rfl) hv
        rw [rawText_sql_ok (t := []) rfl] at hz
        cases hz
        exact ⟨ts, h1, by simp⟩
    obtain ⟨ds, hds, e4⟩ := e4
    have e5 := sql_text c5
    obtain ⟨cs, hcs, e6⟩ : ∃ cs, Texts (fun e : SelExpr => e.write.string) exprs cs ∧
        x6 = some (commaText cs) := by
      obtain ⟨y, hy, rfl⟩ := clauseText_some c6
      rw [selExprsL_map] at hy
      obtain ⟨ts, h1, rfl⟩ := commaSep_texts denotes_selExpr ((okSels_all _).1 hs) hy
      exact ⟨ts, h1, rfl⟩
    obtain ⟨fs, hfs, e7⟩ := word_texts (kw := s%"FROM ") denotes_fromItem
      (by simpa using hf) c7
    obtain ⟨js, hjs, rfl⟩ := joins_texts ((okJoins_all _).1 hj) hjn
    obtain ⟨wt, hwt', f1⟩ := cond_text hwh d1
    obtain ⟨gs, hgs, f2⟩ := word_texts denotes_column (fun _ _ => rfl) d2
    obtain ⟨ht', hht, f3⟩ := cond_text hh d3
    obtain ⟨os, hos, f4⟩ := word_texts denotes_order (fun _ _ => rfl) d4
    have f5 := sql_text d5
    have f6 := sql_text d6
    have f7 := raw_text d7
    subst e1 e2 e3 e4 e5 e6 e7 f1 f2 f3 f4 f5 f6 f7
    exact ⟨w, ds, cs, fs, js, gs, os, wt, ht', hwt, hds, hcs, hfs, hjs, hwt', hgs, hht, hos,
      by simpa using hne, by rw [comment_text ht2]⟩

/-- C25, INSERT. -/
theorem C25_insert (b : InsertStmt) (t : Str) (h : (Stmt.insert b).write.string = .ok t) :
    ∃ (into values conflict : Str) (columns returning : List Str),
      b.into.write.string = .ok into ∧
      Texts (fun c : Column => c.write.string) b.columns columns ∧
      (blank b.values = false → b.values.write.string = .ok values) ∧
      (actionBlank b.action = false → (writeOnConflict b.target b.action).string = .ok conflict) ∧
      Texts (fun e : SelExpr => e.write.string) b.returning returning ∧
      b.into.name ≠ [] ∧
      t = oneSpace
        [some (s%"INSERT INTO " ++ into),
         when (!b.columns.isEmpty) (s%"(" ++ commaText columns ++ s%")"),
         when (!blank b.values) (s%"VALUES " ++ values),
         when (!actionBlank b.action) conflict,
         when (!b.returning.isEmpty) (s%"RETURNING " ++ commaText returning)]
        ++ commentText b.comment := by
  obtain ⟨hok, ht⟩ := (stmt_string _ _).1 h
  rw [layout, insertL] at ht
  rw [okStmt] at hok
  simp only [Bool.and_eq_true] at hok
  obtain ⟨hne, hv, ha, hr⟩ := hok
  obtain ⟨t1, t2, ht1, ht2, rfl⟩ := rawText_append_inv ht
  obtain ⟨xs, hxs, rfl⟩ := spaced_text ht1
  obtain ⟨x1, xs, rfl, c1, hxs⟩ := allText_cons hxs
  obtain ⟨x2, xs, rfl, c2, hxs⟩ := allText_cons hxs
  obtain ⟨x3, xs, rfl, c3, hxs⟩ := allText_cons hxs
  obtain ⟨x4, xs, rfl, c4, hxs⟩ := allText_cons hxs
  obtain ⟨x5, xs, rfl, c5, hxs⟩ := allText_cons hxs
  rw [allText_nil hxs]
  obtain ⟨i, hi, e1⟩ : ∃ i, b.into.write.string = .ok i ∧ x1 = some (s%"INSERT INTO " ++ i) := by
    obtain ⟨y, hy, rfl⟩ := clauseText_some c1
    obtain ⟨u, hu, rfl⟩ := rawText_sql_inv hy
    exact ⟨u, (string_denotes (denotes_table _) u).2 ⟨rfl, hu⟩, rfl⟩
  obtain ⟨cs, hcs, e2⟩ : ∃ cs, Texts (fun c : Column => c.write.string) b.columns cs ∧
      x2 = when (!b.columns.isEmpty) (s%"(" ++ commaText cs ++ s%")") := by
    obtain ⟨y, hy, rfl⟩ := clauseText_clause c2
    cases hc : b.columns with
    | nil => exact ⟨[], rfl, rfl⟩
    | cons a l =>
      rw [hc] at hy
      obtain ⟨u, hu, rfl⟩ := rawText_sql_inv (hy rfl)
      obtain ⟨v, z, hv, hz, rfl⟩ := rawText_append_inv hu
      obtain ⟨ts, h1, rfl⟩ := commaSep_texts denotes_column (fun _ _ => rfl) hv
      rw [rawText_sql_ok (t := []) rfl] at hz
      cases hz
      exact ⟨ts, h1, by simp⟩
  obtain ⟨vs, hvs, e3⟩ := cond_text hv c3
  obtain ⟨k, hk, e4⟩ : ∃ k, (actionBlank b.action = false →
        (writeOnConflict b.target b.action).string = .ok k) ∧ x4 = when (!actionBlank b.action) k := by
    obtain ⟨y, hy, rfl⟩ := clauseText_clause c4
    refine ⟨y, fun hb => ?_, rfl⟩
    rw [hb] at hy
    have hact : okAction b.action = true := by
      rw [hb] at ha
      simpa using ha
    have hd : Denotes (writeOnConflict b.target b.action) (okAction b.action)
        (evs (conflictL b.target b.action)) := by
      have hda := denotes_action b.action
      unfold writeOnConflict
      rw [actionIsEmpty_eq, hb, if_neg (by simp)]
      have hdt : Denotes (if b.target.isEmpty then W.skip else writeTarget b.target ;; W.text s%" ")
          true (evs (if b.target.isEmpty then []
            else .sql s%"(" :: commaSep (b.target.map columnL) ++ [.sql s%") "])) := by
        unfold writeTarget
        cases hh : b.target with
        | nil => exact Denotes.skip
        | cons c l =>
          refine ((((Denotes.text s%"(").seq ((denotes_columns (c :: l)).seq
            (Denotes.text s%")"))).seq (Denotes.text s%" "))).congr rfl ?_
          simp [evs, Piece.evs, chs]
      refine ((Denotes.text Token.On).seq ((Denotes.text s%" ").seq ((Denotes.text Token.Conflict).seq
        ((Denotes.text s%" ").seq (hdt.seq hda))))).congr ?_ ?_
      · simp
      · simp [conflictL, evs, Piece.evs, chs, Token.On, Token.Conflict]
    exact (string_denotes hd y).2 ⟨hact, hy rfl⟩
  obtain ⟨rs, hrs, e5⟩ : ∃ rs, Texts (fun e : SelExpr => e.write.string) b.returning rs ∧
      x5 = when (!b.returning.isEmpty) (s%"RETURNING " ++ commaText rs) := by
    rw [returningL, selExprsL_map] at c5
    exact word_texts denotes_selExpr ((okSels_all _).1 hr) c5
  subst e1 e2 e3 e4 e5
  exact ⟨i, vs, k, cs, rs, hi, hcs, hvs, hk, hrs, by simpa using hne, by rw [comment_text ht2]⟩

/-- C25, UPDATE. -/
theorem C25_update (b : UpdateStmt) (t : Str) (h : (Stmt.update b).write.string = .ok t) :
    ∃ (withs tables returning : List Str) (table set whr : Str),
      Texts (fun w : WithQuery => w.write.string) b.withs withs ∧
      b.table.write.string = .ok table ∧
      b.set.write.string = .ok set ∧
      Texts (fun f : FromItem => f.write.string) b.tables tables ∧
      (blank b.whr = false → b.whr.write.string = .ok whr) ∧
      Texts (fun e : SelExpr => e.write.string) b.returning returning ∧
      b.table.name ≠ [] ∧
      t = oneSpace
        [when (!b.withs.isEmpty) (s%"WITH " ++ commaText withs),
         some s%"UPDATE",
         when b.only s%"ONLY",
         some table,
         some set,
         when (!b.tables.isEmpty) (s%"FROM " ++ commaText tables),
         when (!blank b.whr) (s%"WHERE " ++ whr),
         when (!b.returning.isEmpty) (s%"RETURNING " ++ commaText returning)]
        ++ commentText b.comment := by
  obtain ⟨hok, ht⟩ := (stmt_string _ _).1 h
  rw [layout, updateL] at ht
  rw [okStmt] at hok
  simp only [Bool.and_eq_true] at hok
  obtain ⟨hne, hw, hs, hf, hwh, hr⟩ := hok
  obtain ⟨t1, t2, ht1, ht2, rfl⟩ := rawText_append_inv ht
  obtain ⟨xs, hxs, rfl⟩ := spaced_text ht1
  obtain ⟨x1, xs, rfl, c1, hxs⟩ := allText_cons hxs
  obtain ⟨x2, xs, rfl, c2, hxs⟩ := allText_cons hxs
  obtain ⟨x3, xs, rfl, c3, hxs⟩ := allText_cons hxs
  obtain ⟨x4, xs, rfl, c4, hxs⟩ := allText_cons hxs
  obtain ⟨x5, xs, rfl, c5, hxs⟩ := allText_cons hxs
  obtain ⟨x6, xs, rfl, c6, hxs⟩ := allText_cons hxs
  obtain ⟨x7, xs, rfl, c7, hxs⟩ := allText_cons hxs
  obtain ⟨x8, xs, rfl, c8, hxs⟩ := allText_cons hxs
  rw [allText_nil hxs]
  rw [withsL_map] at c1
  obtain ⟨w, hwt, e1⟩ := word_texts with_denotes ((okWiths_all _).1 hw) c1
  have e2 : x2 = some s%"UPDATE" := by
    obtain ⟨y, hy, rfl⟩ := clauseText_some c2
    rw [rawText_sql_ok (t := []) rfl] at hy; cases hy; rfl
  have e3 := sql_text c3
  obtain ⟨tb, htb, e4⟩ := clauseText_some c4
  obtain ⟨st, hst, e5⟩ := clauseText_some c5
  obtain ⟨fs, hfs, e6⟩ := word_texts (kw := s%"FROM ") denotes_fromItem (by simpa using hf) c6
  obtain ⟨wt, hwt', e7⟩ := cond_text hwh c7
  obtain ⟨rs, hrs, e8⟩ : ∃ rs, Texts (fun e : SelExpr => e.write.string) b.returning rs ∧
      x8 = when (!b.returning.isEmpty) (s%"RETURNING " ++ commaText rs) := by
    rw [returningL, selExprsL_map] at c8
    exact word_texts denotes_selExpr ((okSels_all _).1 hr) c8
  subst e1 e2 e3 e4 e5 e6 e7 e8
  exact ⟨w, fs, rs, tb, st, wt, hwt, (string_denotes (denotes_table _) _).2 ⟨rfl, htb⟩,
    (string_denotes (denotes_set _) _).2 ⟨hs, hst⟩, hfs, hwt', hrs, by simpa using hne,
    by rw [comment_text ht2]⟩

/-- C25, DELETE. -/
theorem C25_delete (b : DeleteStmt) (t : Str) (h : (Stmt.delete b).write.string = .ok t) :
    ∃ (tables usings returning : List Str) (whr : Str),
      Texts (fun f : FromItem => f.write.string) b.tables tables ∧
      Texts (fun t : Table => t.write.string) b.usings usings ∧
      (blank b.whr = false → b.whr.write.string = .ok whr) ∧
      Texts (fun e : SelExpr => e.write.string) b.returning returning ∧
      b.tables ≠ [] ∧
      t = oneSpace
        [some s%"DELETE",
         some (s%"FROM " ++ commaText tables),
         when (!b.usings.isEmpty) (s%"USING " ++ commaText usings),
         when (!blank b.whr) (s%"WHERE " ++ whr),
         when (!b.returning.isEmpty) (s%"RETURNING " ++ commaText returning)]
        ++ commentText b.comment := by
  obtain ⟨hok, ht⟩ := (stmt_string _ _).1 h
  rw [layout, deleteL] at ht
  rw [okStmt] at hok
  simp only [Bool.and_eq_true] at hok
  obtain ⟨hne, hf, hwh, hr⟩ := hok
  obtain ⟨t1, t2, ht1, ht2, rfl⟩ := rawText_append_inv ht
  obtain ⟨xs, hxs, rfl⟩ := spaced_text ht1
  obtain ⟨x1, xs, rfl, c1, hxs⟩ := allText_cons hxs
  obtain ⟨x2, xs, rfl, c2, hxs⟩ := allText_cons hxs
  obtain ⟨x3, xs, rfl, c3, hxs⟩ := allText_cons hxs
  obtain ⟨x4, xs, rfl, c4, hxs⟩ := allText_cons hxs
  obtain ⟨x5, xs, rfl, c5, hxs⟩ := allText_cons hxs
  rw [allText_nil hxs]
  have e1 : x1 = some s%"DELETE" := by
    obtain ⟨y, hy, rfl⟩ := clauseText_some c1
    rw [rawText_sql_ok (t := []) rfl] at hy; cases hy; rfl
  obtain ⟨fs, hfs, e2⟩ : ∃ fs, Texts (fun f : FromItem => f.write.string) b.tables fs ∧
      x2 = some (s%"FROM " ++ commaText fs) := by
    obtain ⟨y, hy, rfl⟩ := clauseText_some c2
    obtain ⟨u, hu, rfl⟩ := rawText_sql_inv hy
    obtain ⟨ts, h1, rfl⟩ := commaSep_texts denotes_fromItem (by simpa using hf) hu
    exact ⟨ts, h1, rfl⟩
  obtain ⟨us, hus, e3⟩ := word_texts denotes_table (fun _ _ => rfl) c3
  obtain ⟨wt, hwt', e4⟩ := cond_text hwh c4
  obtain ⟨rs, hrs, e5⟩ : ∃ rs, Texts (fun e : SelExpr => e.write.string) b.returning rs ∧
      x5 = when (!b.returning.isEmpty) (s%"RETURNING " ++ commaText rs) := by
    rw [returningL, selExprsL_map] at c5
    exact word_texts denotes_selExpr ((okSels_all _).1 hr) c5
  subst e1 e2 e3 e4 e5
  exact ⟨fs, us, rs, wt, hfs, hus, hwt', hrs, by simpa using hne, by rw [comment_text ht2]⟩

/-! ## C37 -/

/-- None of the three renderings of a statement gives a text. -/
def Refused (s : Stmt) : Prop :=
  (∃ p, s.write.string = .error p) ∧ (∃ p, s.write.query = .error p) ∧
    ∃ p, s.write.namedQuery = .error p

/-- A statement with a part that cannot be written is not rendered. -/
theorem refused {s : Stmt} (h : okStmt s = false) : Refused s := by
  obtain ⟨p, h1, h2, q, h3⟩ := panics s h
  exact ⟨⟨q, h3⟩, ⟨p, h1⟩, ⟨p, h2⟩⟩

/-- C37. A SELECT without columns is never rendered. -/
theorem C37_select (b : SelectStmt) (h : b.exprs = []) : Refused (.select b) := by
  refine refused ?_
  cases b
  simp only at h
  simp [okStmt, okS, h]

/-- C37. An INSERT without table is never rendered. -/
theorem C37_insert (b : InsertStmt) (h : b.into.name = []) : Refused (.insert b) :=
  refused (by simp [okStmt, h])

/-- C37. An UPDATE without table is never rendered. -/
theorem C37_update_table (b : UpdateStmt) (h : b.table.name = []) : Refused (.update b) :=
  refused (by simp [okStmt, h])

/-- C37. An UPDATE without assignment is never rendered, whatever calls of `Set` and `Using`
made its SET clause. -/
theorem C37_update_set (b : UpdateStmt) (hr : ReachedSet b.set) (h : NoAssignment b.set) :
    Refused (.update b) := by
  refine refused ?_
  have : setBlank b.set = true := by
    have hw := reached_wf hr
    revert h hw
    unfold NoAssignment setBlank SetWF
    cases b.set.mode with
    | unknown => simp
    | associative => intro h hw; simp only at h hw; simp [h, hw]
    | array =>
      intro h hw
      simp only at h hw
      rcases h with h | h
      · exact absurd h hw.2
      · simp [h, hw]
  simp [okStmt, okSet, this]

/-- C37. A DELETE without table is never rendered. -/
theorem C37_delete (b : DeleteStmt) (h : b.tables = []) : Refused (.delete b) :=
  refused (by simp [okStmt, h])

/-! Conversely a statement that has its required parts is rendered as soon as each of its
parts is. -/

/-- C37, converse for SELECT. -/
theorem C37_select_complete (b : SelectStmt) (hne : b.exprs ≠ [])
    (hw : ∀ w ∈ b.withs, ∃ t, w.write.string = .ok t)
    (hs : ∀ e ∈ b.exprs, ∃ t, e.write.string = .ok t)
    (hf : ∀ f ∈ b.tables, ∃ t, f.write.string = .ok t)
    (hj : ∀ j ∈ b.joins, ∃ t, j.write.string = .ok t)
    (hwh : b.whr = .nil ∨ ∃ t, b.whr.write.string = .ok t)
    (hh : b.having = .nil ∨ ∃ t, b.having.write.string = .ok t) :
    ∃ t, b.write.string = .ok t := by
  cases b with
  | mk pfx withs distinct distinctOn exprs tables joins whr groupBy having orderBy limit offset sfx comment =>
    rw [list_renders with_denotes] at hw
    rw [list_renders denotes_selExpr] at hs
    rw [list_renders denotes_fromItem] at hf
    rw [list_renders denotes_join] at hj
    obtain ⟨hw1, hw2⟩ := hw
    obtain ⟨hs1, hs2⟩ := hs
    obtain ⟨hf1, hf2⟩ := hf
    obtain ⟨hj1, hj2⟩ := hj
    obtain ⟨hwh1, hwh2⟩ := cond_renders hwh
    obtain ⟨hh1, hh2⟩ := cond_renders hh
    refine (string_renders (denotes_select _)).2 ⟨?_, ?_⟩
    · rw [okS]
      simp only [Bool.and_eq_true]
      refine ⟨?_, (okWiths_all _).2 hw1, (okSels_all _).2 hs1, ?_, (okJoins_all _).2 hj1, hwh1, hh1⟩
      · simpa using hne
      · simpa using hf1
    · rw [selectL, renders_append, renders_spaced]
      refine ⟨?_, renders_comment _⟩
      simp only [List.mem_append, List.mem_cons, List.not_mem_nil, or_false, or_imp, forall_and,
        renders_clause, joinsL_map, withsL_map, selExprsL_map, List.mem_map]
      refine ⟨⟨⟨?_, ?_, ?_, ?_, ?_, ?_, ?_⟩, ?_⟩, ?_, ?_, ?_, ?_, ?_, ?_, ?_⟩
      · exact fun _ => (renders_raw _ _).2 renders_nil
      · refine fun _ => (renders_sql _ _).2 ((renders_commaSep _).2 ?_)
        simpa using hw2
      · intro a ha; cases ha; exact (renders_sql _ _).2 renders_nil
      · refine fun _ => ?_
        rw [List.cons_append, renders_sql, renders_append, renders_commaSep]
        refine ⟨?_, (renders_sql _ _).2 renders_nil⟩
        simpa using fun c _ => renders_column c
      · exact fun _ => (renders_sql _ _).2 renders_nil
      · intro a ha; cases ha
        rw [renders_commaSep]
        simpa using hs2
      · refine fun _ => (renders_sql _ _).2 ((renders_commaSep _).2 ?_)
        simpa using hf2
      · rintro a ⟨j, hj, h⟩
        cases h
        exact hj2 j hj
      · intro h
        exact (renders_sql _ _).2 (hwh2 (by simpa using h))
      · refine fun _ => (renders_sql _ _).2 ((renders_commaSep _).2 ?_)
        simpa using fun c _ => renders_column c
      · intro h
        exact (renders_sql _ _).2 (hh2 (by simpa using h))
      · refine fun _ => (renders_sql _ _).2 ((renders_commaSep _).2 ?_)
        simpa using fun c _ => renders_order c
      · exact fun _ => (renders_sql _ _).2 renders_nil
      · exact fun _ => (renders_sql _ _).2 renders_nil
      · exact fun _ => (renders_raw _ _).2 renders_nil

/-- C37, converse for INSERT. -/
theorem C37_insert_complete (b : InsertStmt) (hne : b.into.name ≠ [])
    (hv : b.values = .nil ∨ ∃ t, b.values.write.string = .ok t)
    (ha : actionBlank b.action = true ∨ ∃ t, b.action.write.string = .ok t)
    (hr : ∀ e ∈ b.returning, ∃ t, e.write.string = .ok t) :
    ∃ t, (Stmt.insert b).write.string = .ok t := by
  rw [list_renders denotes_selExpr] at hr
  obtain ⟨hr1, hr2⟩ := hr
  obtain ⟨hv1, hv2⟩ := cond_renders hv
  rw [string_renders (denotes_action _)] at ha
  refine (string_renders (denotes_stmt _)).2 ⟨?_, ?_⟩
  · rw [okStmt]
    simp only [Bool.and_eq_true, Bool.or_eq_true]
    refine ⟨?_, hv1, ?_, (okSels_all _).2 hr1⟩
    · simpa using hne
    · exact ha.imp id (fun h => h.1)
  · rw [layout, insertL, renders_append, renders_spaced]
    refine ⟨?_, renders_comment _⟩
    simp only [List.mem_cons, List.not_mem_nil, or_false, or_imp, forall_and, renders_clause]
    refine ⟨?_, ?_, ?_, ?_, ?_⟩
    · intro a ha; cases ha
      exact (renders_sql _ _).2 (renders_table _)
    · refine fun _ => ?_
      rw [List.cons_append, renders_sql, renders_append, renders_commaSep]
      refine ⟨?_, (renders_sql _ _).2 renders_nil⟩
      simpa using fun c _ => renders_column c
    · intro h
      exact (renders_sql _ _).2 (hv2 (by simpa using h))
    · intro h
      rcases ha with ha | ha
      · rw [ha] at h; cases h
      · rw [conflictL, List.cons_append, renders_sql, renders_append]
        refine ⟨?_, ha.2⟩
        split
        · exact renders_nil
        · rw [List.cons_append, renders_sql, renders_append, renders_commaSep]
          refine ⟨?_, (renders_sql _ _).2 renders_nil⟩
          simpa using fun c _ => renders_column c
    · refine fun _ => (renders_sql _ _).2 ((renders_commaSep _).2 ?_)
      rw [selExprsL_map]
      simpa using hr2

/-- C37, converse for UPDATE. -/
theorem C37_update_complete (b : UpdateStmt) (hne : b.table.name ≠ [])
    (hw : ∀ w ∈ b.withs, ∃ t, w.write.string = .ok t)
    (hs : ∃ t, b.set.write.string = .ok t)
    (hf : ∀ f ∈ b.tables, ∃ t, f.write.string = .ok t)
    (hwh : b.whr = .nil ∨ ∃ t, b.whr.write.string = .ok t)
    (hr : ∀ e ∈ b.returning, ∃ t, e.write.string = .ok t) :
    ∃ t, (Stmt.update b).write.string = .ok t := by
  rw [list_renders with_denotes] at hw
  rw [list_renders denotes_selExpr] at hr
  rw [list_renders denotes_fromItem] at hf
  rw [string_renders (denotes_set _)] at hs
  obtain ⟨hw1, hw2⟩ := hw
  obtain ⟨hr1, hr2⟩ := hr
  obtain ⟨hf1, hf2⟩ := hf
  obtain ⟨hs1, hs2⟩ := hs
  obtain ⟨hwh1, hwh2⟩ := cond_renders hwh
  refine (string_renders (denotes_stmt _)).2 ⟨?_, ?_⟩
  · rw [okStmt]
    simp only [Bool.and_eq_true]
    refine ⟨?_, (okWiths_all _).2 hw1, hs1, ?_, hwh1, (okSels_all _).2 hr1⟩
    · simpa using hne
    · simpa using hf1
  · rw [layout, updateL, renders_append, renders_spaced]
    refine ⟨?_, renders_comment _⟩
    simp only [List.mem_cons, List.not_mem_nil, or_false, or_imp, forall_and, renders_clause,
      withsL_map]
    refine ⟨?_, ?_, ?_, ?_, ?_, ?_, ?_, ?_⟩
    · refine fun _ => (renders_sql _ _).2 ((renders_commaSep _).2 ?_)
      simpa using hw2
    · intro a ha; cases ha; exact (renders_sql _ _).2 renders_nil
    · exact fun _ => (renders_sql _ _).2 renders_nil
    · intro a ha; cases ha; exact renders_table _
    · intro a ha; cases ha; exact hs2
    · refine fun _ => (renders_sql _ _).2 ((renders_commaSep _).2 ?_)
      simpa using hf2
    · intro h
      exact (renders_sql _ _).2 (hwh2 (by simpa using h))
    · refine fun _ => (renders_sql _ _).2 ((renders_commaSep _).2 ?_)
      rw [selExprsL_map]
      simpa using hr2

/-- C37, converse for DELETE. -/
theorem C37_delete_complete (b : DeleteStmt) (hne : b.tables ≠ [])
    (hf : ∀ f ∈ b.tables, ∃ t, f.write.string = .ok t)
    (hwh : b.whr = .nil ∨ ∃ t, b.whr.write.string = .ok t)
    (hr : ∀ e ∈ b.returning, ∃ t, e.write.string = .ok t) :
    ∃ t, (Stmt.delete b).write.string = .ok t := by
  rw [list_renders denotes_selExpr] at hr
  rw [list_renders denotes_fromItem] at hf
  obtain ⟨hr1, hr2⟩ := hr
  obtain ⟨hf1, hf2⟩ := hf
  obtain ⟨hwh1, hwh2⟩ := cond_renders hwh
  refine (string_renders (denotes_stmt _)).2 ⟨?_, ?_⟩
  · rw [okStmt]
    simp only [Bool.and_eq_true]
    refine ⟨?_, ?_, hwh1, (okSels_all _).2 hr1⟩
    · simpa using hne
    · simpa using hf1
  · rw [layout, deleteL, renders_append, renders_spaced]
    refine ⟨?_, renders_comment _⟩
    simp only [List.mem_cons, List.not_mem_nil, or_false, or_imp, forall_and, renders_clause]
    refine ⟨?_, ?_, ?_, ?_, ?_⟩
    · intro a ha; cases ha; exact (renders_sql _ _).2 renders_nil
    · intro a ha; cases ha
      refine (renders_sql _ _).2 ((renders_commaSep _).2 ?_)
      simpa using hf2
    · refine fun _ => (renders_sql _ _).2 ((renders_commaSep _).2 ?_)
      simpa using fun c _ => renders_table c
    · intro h
      exact (renders_sql _ _).2 (hwh2 (by simpa using h))
    · refine fun _ => (renders_sql _ _).2 ((renders_commaSep _).2 ?_)
      rw [selExprsL_map]
      simpa using hr2

end

/-! ### The hypotheses can be met -/

section
attribute [local instance] Runtime.sample

/-- A SELECT with every clause. -/
def everyClause : SelectStmt :=
  { Sample.users with
    pfx := s%"EXPLAIN", distinct := true, distinctOn := [{ name := s%"id" }]
    withs := [⟨s%"g", .select Sample.groups⟩], groupBy := [{ name := s%"id" }]
    whr := .raw s%"a", having := .raw s%"b", offset := 5, sfx := s%"FOR UPDATE"
    comment := s%"c" }

set_option maxRecDepth 4000 in
example : everyClause.write.string = .ok s%"EXPLAIN WITH g AS (SELECT \"id\" FROM \"groups\" WHERE (\"active\" = true)) SELECT DISTINCT ON (\"id\") DISTINCT \"id\", \"name\" AS \"n\" FROM \"users\" LEFT JOIN \"teams\" ON \"users\".\"team\" = \"teams\".\"id\" WHERE a GROUP BY \"id\" HAVING b ORDER BY id DESC LIMIT 10 OFFSET 5 FOR UPDATE; -- c" := by
  rfl

set_option maxRecDepth 2000 in
example : (Stmt.insert Sample.insertUsers).write.string = .ok s%"INSERT INTO \"users\" (\"email\", \"age\") VALUES ('a@b', 1), (NULL, 2) ON CONFLICT (\"email\") DO UPDATE SET \"age\" = 3 RETURNING \"id\"" := by
  rfl

set_option maxRecDepth 2000 in
example : (Stmt.update Sample.updateUsers).write.string = .ok s%"UPDATE \"users\" SET \"a\" = 'x', \"b\" = (SELECT \"id\" FROM \"groups\" WHERE (\"active\" = true)) WHERE (\"id\" = 7)" := by
  rfl

set_option maxRecDepth 2000 in
example : (Stmt.delete Sample.deleteUsers).write.string = .ok s%"DELETE FROM \"users\" WHERE (\"id\" = 7); -- cleanup" := by
  rfl

/-- A column list without values, made with the API. -/
example : ∃ b : UpdateStmt, ReachedSet b.set ∧ NoAssignment b.set ∧ b.set.columns.length = 2 := by
  let b0 : UpdateStmt :=
    ⟨[], { name := s%"users" }, false, [], PairContainer.new, .nil, [], []⟩
  have h0 : update (.val (.str s%"users")) = .ok b0 := rfl
  have hb : b0.Set [.val (.str s%"a"), .val (.str s%"b")] = .ok { b0 with
      set := ⟨.array, [], [{ name := s%"a" }, { name := s%"b" }], []⟩ } := rfl
  exact ⟨_, .set .new hb, Or.inr rfl, rfl⟩

/-- `Delete("")` has a table, with an empty name, and is rendered. -/
theorem C37_delete_blank : (delete (.val (.str s%""))).bind (fun d => (Stmt.delete d).write.string) =
    .ok s%"DELETE FROM \"\"" := by
  rfl

end

end Verif.Props
