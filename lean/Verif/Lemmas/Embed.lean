import Verif.Lemmas.Contexts
import Verif.Spec.Embed

/-!
# The layout of an embedded SELECT is part of the layout of the statement
-/

set_option linter.unusedSectionVars false

namespace Verif
open Spec

theorem infix_mid {a : List Piece} (p l q : List Piece) (h : a <:+: l) : a <:+: p ++ l ++ q := by
  obtain ⟨x, y, rfl⟩ := h
  exact ⟨p ++ x, y ++ q, by simp⟩

theorem infix_cons {a l : List Piece} (p : Piece) (h : a <:+: l) : a <:+: p :: l := by
  obtain ⟨x, y, rfl⟩ := h
  exact ⟨p :: x, y, by simp⟩

theorem infix_left {a l : List Piece} (q : List Piece) (h : a <:+: l) : a <:+: l ++ q := by
  obtain ⟨x, y, rfl⟩ := h
  exact ⟨x, y ++ q, by simp⟩

theorem infix_right {a l : List Piece} (p : List Piece) (h : a <:+: l) : a <:+: p ++ l := by
  obtain ⟨x, y, rfl⟩ := h
  exact ⟨p ++ x, y, by simp⟩

theorem infix_commaSep {a : List Piece} {l : List (List Piece)} (h : a ∈ l) :
    a <:+: commaSep l := by
  match l with
  | [b] => simp at h; subst h; exact List.infix_refl _
  | b :: c :: l =>
    rw [commaSep]
    rcases List.mem_cons.1 h with rfl | h
    · exact infix_left _ (List.infix_refl _)
    · exact infix_right _ (infix_cons _ (infix_commaSep h))

theorem infix_spaceTail {a : List Piece} {l : List (Option (List Piece))} (h : some a ∈ l) :
    a <:+: spaceTail l := by
  induction l with
  | nil => cases h
  | cons b l ih =>
    rcases List.mem_cons.1 h with rfl | h
    · exact infix_left _ (infix_cons _ (List.infix_refl _))
    · cases b with
      | none => rename_i hm; exact ih hm
      | some b => rename_i hm; exact infix_right _ (ih hm)

theorem infix_spaced {a : List Piece} {l : List (Option (List Piece))} (h : some a ∈ l) :
    a <:+: spaced l := by
  induction l with
  | nil => cases h
  | cons b l ih =>
    cases b with
    | none =>
      rcases List.mem_cons.1 h with h | h
      · cases h
      · exact ih h
    | some b =>
      rw [spaced_some]
      rcases List.mem_cons.1 h with h | h
      · cases h; exact infix_left _ (List.infix_refl _)
      · exact infix_right _ (infix_spaceTail h)

theorem mem_exprsL {e : Expr} {l : List Expr} (h : e ∈ l) : exprL e ∈ exprsL l := by
  induction l with
  | nil => cases h
  | cons b l ih =>
    rw [exprsL]
    rcases List.mem_cons.1 h with rfl | h
    · exact List.mem_cons_self
    · exact List.mem_cons_of_mem _ (ih h)

theorem mem_rowsL {e : Expr} {l : List Expr} (h : e ∈ l) :
    (.sql s%"(" :: exprL e ++ [.sql s%")"]) ∈ rowsL l := by
  induction l with
  | nil => cases h
  | cons b l ih =>
    rw [rowsL]
    rcases List.mem_cons.1 h with rfl | h
    · exact List.mem_cons_self
    · exact List.mem_cons_of_mem _ (ih h)

theorem mem_selExprsL {e : SelExpr} {l : List SelExpr} (h : e ∈ l) : selExprL e ∈ selExprsL l := by
  induction l with
  | nil => cases h
  | cons b l ih =>
    rw [selExprsL]
    rcases List.mem_cons.1 h with rfl | h
    · exact List.mem_cons_self
    · exact List.mem_cons_of_mem _ (ih h)

theorem mem_withsL {e : WithQuery} {l : List WithQuery} (h : e ∈ l) : withL e ∈ withsL l := by
  induction l with
  | nil => cases h
  | cons b l ih =>
    rw [withsL]
    rcases List.mem_cons.1 h with rfl | h
    · exact List.mem_cons_self
    · exact List.mem_cons_of_mem _ (ih h)

theorem mem_joinsL {e : Join} {l : List Join} (h : e ∈ l) : some (joinL e) ∈ joinsL l := by
  induction l with
  | nil => cases h
  | cons b l ih =>
    rw [joinsL]
    rcases List.mem_cons.1 h with rfl | h
    · exact List.mem_cons_self
    · exact List.mem_cons_of_mem _ (ih h)

theorem okEs_mem {e : Expr} {l : List Expr} (h : e ∈ l) (hl : okEs l = true) : okE e = true := by
  induction l with
  | nil => cases h
  | cons b l ih =>
    simp only [okEs, Bool.and_eq_true] at hl
    rcases List.mem_cons.1 h with rfl | h
    · exact hl.1
    · exact ih h hl.2

theorem okSels_mem {e : SelExpr} {l : List SelExpr} (h : e ∈ l) (hl : okSels l = true) :
    okSel e = true := by
  induction l with
  | nil => cases h
  | cons b l ih =>
    simp only [okSels, Bool.and_eq_true] at hl
    rcases List.mem_cons.1 h with rfl | h
    · exact hl.1
    · exact ih h hl.2

theorem okJoins_mem {j : Join} {l : List Join} (h : j ∈ l) (hl : okJoins l = true) :
    okE j.cond = true := by
  induction l with
  | nil => cases h
  | cons b l ih =>
    obtain ⟨_, _, _⟩ := b
    simp only [okJoins, Bool.and_eq_true] at hl
    rcases List.mem_cons.1 h with rfl | h
    · exact hl.1
    · exact ih h hl.2

theorem okIf_of_not {g : Go Bool} {b ok : Bool} (hg : ∀ x, g = .ok x → b = x) (hb : b = false)
    (h : okIf g ok = true) : ok = true := by
  match g, hg, h with
  | .ok true, hg, _ => rw [hg true rfl] at hb; cases hb
  | .ok false, _, h => exact h

theorem okIf_where {e : Expr} (hb : blank e = false) (h : okIf e.isUnset (okE e) = true) :
    okE e = true := okIf_of_not (fun _ hx => isUnset_ok hx) hb h

theorem okWiths_mem {w : WithQuery} {l : List WithQuery} (h : w ∈ l) (hl : okWiths l = true)
    (hn : w.name ≠ []) (hb : blank w.subquery = false) : okE w.subquery = true := by
  induction l with
  | nil => cases h
  | cons b l ih =>
    obtain ⟨n, e⟩ := b
    simp only [okWiths, Bool.and_eq_true] at hl
    rcases List.mem_cons.1 h with rfl | h
    · refine okIf_of_not (b := List.isEmpty n || blank e) (fun _ hx => withIsEmpty_ok hx) ?_ hl.1
      simp_all
    · exact ih h hl.2

theorem withL_eq {w : WithQuery} (hn : w.name ≠ []) (hb : blank w.subquery = false) :
    withL w = .raw w.name :: .sql s%" AS (" :: exprL w.subquery ++ [.sql s%")"] := by
  obtain ⟨n, e⟩ := w
  simp only [withL]
  rw [if_neg]
  simp_all

theorem clause_mem {b : Bool} {c : List Piece} (h : b = true) :
    clause b c = some c := by rw [h]; rfl

theorem okS_parts {t : SelectStmt} (ok : okS t = true) :
    okWiths t.withs = true ∧ okSels t.exprs = true ∧ okJoins t.joins = true ∧
      okIf t.whr.isUnset (okE t.whr) = true ∧ okIf t.having.isUnset (okE t.having) = true := by
  obtain ⟨pfx, withs, distinct, distinctOn, exprs, tables, joins, whr, groupBy, having, orderBy,
      limit, offset, sfx, comment⟩ := t
  simp only [okS, Bool.and_eq_true] at ok
  obtain ⟨_, ok1, ok2, _, ok3, ok4, ok5⟩ := ok
  exact ⟨ok1, ok2, ok3, ok4, ok5⟩

theorem withs_infix_select {t : SelectStmt} (h : t.withs ≠ []) :
    (.sql s%"WITH " :: commaSep (withsL t.withs)) <:+: selectL t := by
  obtain ⟨pfx, withs, distinct, distinctOn, exprs, tables, joins, whr, groupBy, having, orderBy,
      limit, offset, sfx, comment⟩ := t
  rw [selectL]
  refine infix_left _ (infix_spaced ?_)
  rw [clause_mem (c := .sql s%"WITH " :: _) (by cases withs <;> simp_all)]
  simp

theorem exprs_infix_select {t : SelectStmt} : commaSep (selExprsL t.exprs) <:+: selectL t := by
  obtain ⟨pfx, withs, distinct, distinctOn, exprs, tables, joins, whr, groupBy, having, orderBy,
      limit, offset, sfx, comment⟩ := t
  rw [selectL]
  exact infix_left _ (infix_spaced (by simp))

theorem cond_infix_join {j : Join} : exprL j.cond <:+: joinL j := by
  obtain ⟨ty, tb, c⟩ := j
  exact infix_right _ (infix_cons _ (List.infix_refl _))

theorem join_infix_select {t : SelectStmt} {j : Join} (h : j ∈ t.joins) :
    joinL j <:+: selectL t := by
  obtain ⟨pfx, withs, distinct, distinctOn, exprs, tables, joins, whr, groupBy, having, orderBy,
      limit, offset, sfx, comment⟩ := t
  rw [selectL]
  refine infix_left _ (infix_spaced ?_)
  have := mem_joinsL h
  simp only at this
  simp [this]

theorem where_infix_select {t : SelectStmt} (h : blank t.whr = false) :
    (.sql s%"WHERE " :: exprL t.whr) <:+: selectL t := by
  obtain ⟨pfx, withs, distinct, distinctOn, exprs, tables, joins, whr, groupBy, having, orderBy,
      limit, offset, sfx, comment⟩ := t
  rw [selectL]
  refine infix_left _ (infix_spaced ?_)
  rw [clause_mem (c := .sql s%"WHERE " :: _) (by simp only at h; rw [h]; rfl)]
  simp

theorem having_infix_select {t : SelectStmt} (h : blank t.having = false) :
    (.sql s%"HAVING " :: exprL t.having) <:+: selectL t := by
  obtain ⟨pfx, withs, distinct, distinctOn, exprs, tables, joins, whr, groupBy, having, orderBy,
      limit, offset, sfx, comment⟩ := t
  rw [selectL]
  refine infix_left _ (infix_spaced ?_)
  rw [clause_mem (c := .sql s%"HAVING " :: _) (by simp only at h; rw [h]; rfl)]
  simp

mutual

theorem okE_of_inE {s : SelectStmt} {e : Expr} (h : InE s e) (ok : okE e = true) :
    okS s = true ∧ selectL s <:+: exprL e := by
  match h with
  | .here => exact ⟨ok, List.infix_refl _⟩
  | .arrayList hm h =>
    obtain ⟨h1, h2⟩ := okE_of_inE h (okEs_mem hm ok)
    exact ⟨h1, (infix_mid [.sql s%"("] _ [.sql s%")"] h2).trans (infix_commaSep (mem_rowsL hm))⟩
  | .array hm h =>
    obtain ⟨h1, h2⟩ := okE_of_inE h (okEs_mem hm ok)
    exact ⟨h1, h2.trans (infix_commaSep (mem_exprsL hm))⟩
  | .wrapper h =>
    obtain ⟨h1, h2⟩ := okE_of_inE h ok
    exact ⟨h1, infix_left _ (infix_cons _ h2)⟩
  | .call hm h =>
    obtain ⟨h1, h2⟩ := okE_of_inE h (okEs_mem hm ok)
    refine ⟨h1, ?_⟩
    rw [exprL]
    exact infix_left _ (infix_cons _ (infix_cons _ (h2.trans (infix_commaSep (mem_exprsL hm)))))
  | .infxL h =>
    simp only [okE, Bool.and_eq_true] at ok
    obtain ⟨h1, h2⟩ := okE_of_inE h ok.2.1
    refine ⟨h1, ?_⟩
    rw [exprL]
    exact infix_left _ (infix_left _ (infix_cons _ h2))
  | .infxR h =>
    simp only [okE, Bool.and_eq_true] at ok
    obtain ⟨h1, h2⟩ := okE_of_inE h ok.2.2
    refine ⟨h1, ?_⟩
    rw [exprL]
    exact infix_left _ (infix_right _ (infix_cons _ (infix_cons _ (infix_cons _ h2))))
  | .inxE h =>
    simp only [okE, Bool.and_eq_true] at ok
    obtain ⟨h1, h2⟩ := okE_of_inE h ok.2.1
    refine ⟨h1, ?_⟩
    rw [exprL]
    exact infix_left _ (infix_left _ (infix_cons _ h2))
  | .inxV h hb =>
    simp only [okE, Bool.and_eq_true] at ok
    obtain ⟨h1, h2⟩ := okE_of_inE h (okIf_of_not (fun _ hx => isEmpty_ok _ hx) hb ok.2.2)
    refine ⟨h1, ?_⟩
    rw [exprL, hb]
    exact infix_left _ (infix_right _ (infix_cons _ (infix_cons _ (infix_cons _ h2))))
  | .betweenLo h =>
    simp only [okE, Bool.and_eq_true] at ok
    obtain ⟨h1, h2⟩ := okE_of_inE h ok.2.1
    refine ⟨h1, ?_⟩
    rw [exprL]
    exact infix_left _ (infix_left _ (infix_right _ (infix_cons _ (infix_cons _ (infix_cons _ h2)))))
  | .betweenHi h =>
    simp only [okE, Bool.and_eq_true] at ok
    obtain ⟨h1, h2⟩ := okE_of_inE h ok.2.2
    refine ⟨h1, ?_⟩
    rw [exprL]
    exact infix_left _ (infix_right _ (infix_cons _ (infix_cons _ (infix_cons _ h2))))
  | .exist h =>
    obtain ⟨h1, h2⟩ := okE_of_inE h ok
    exact ⟨h1, infix_left _ (infix_cons _ h2)⟩
  | .notExist h =>
    obtain ⟨h1, h2⟩ := okE_of_inE h ok
    exact ⟨h1, infix_left _ (infix_cons _ h2)⟩
  | .select h => exact okS_of_inS h ok
  | .infixOnL h =>
    simp only [okE, Bool.and_eq_true] at ok
    obtain ⟨h1, h2⟩ := okE_of_inE h ok.2.1
    refine ⟨h1, ?_⟩
    rw [exprL]
    exact infix_left _ (infix_left _ (infix_cons _ h2))
  | .infixOnR h =>
    simp only [okE, Bool.and_eq_true] at ok
    obtain ⟨h1, h2⟩ := okE_of_inE h ok.2.2
    refine ⟨h1, ?_⟩
    rw [exprL]
    exact infix_left _ (infix_right _ (infix_cons _ (infix_cons _ (infix_cons _ h2))))

theorem okSel_of_inSel {s : SelectStmt} {e : SelExpr} (h : InSel s e) (ok : okSel e = true) :
    okS s = true ∧ selectL s <:+: selExprL e := by
  match h with
  | .exist h =>
    obtain ⟨h1, h2⟩ := okE_of_inE h ok
    exact ⟨h1, infix_left _ (infix_cons _ h2)⟩
  | .notExist h =>
    obtain ⟨h1, h2⟩ := okE_of_inE h ok
    exact ⟨h1, infix_left _ (infix_cons _ h2)⟩

theorem okS_of_inS {s t : SelectStmt} (h : InS s t) (ok : okS t = true) :
    okS s = true ∧ selectL s <:+: selectL t := by
  match h with
  | .withs hm hn hb h =>
    obtain ⟨h1, h2⟩ := okE_of_inE h (okWiths_mem hm (okS_parts ok).1 hn hb)
    refine ⟨h1, ?_⟩
    have hw := infix_commaSep (mem_withsL hm)
    rw [withL_eq hn hb] at hw
    have h3 := (infix_left _ (infix_cons _ (infix_cons _ h2))).trans hw
    have h4 := infix_cons (.sql s%"WITH ") h3
    exact h4.trans (withs_infix_select (List.ne_nil_of_mem hm))
  | .exprs hm h =>
    obtain ⟨h1, h2⟩ := okSel_of_inSel h (okSels_mem hm (okS_parts ok).2.1)
    exact ⟨h1, (h2.trans (infix_commaSep (mem_selExprsL hm))).trans exprs_infix_select⟩
  | .joins hm h =>
    obtain ⟨h1, h2⟩ := okE_of_inE h (okJoins_mem hm (okS_parts ok).2.2.1)
    exact ⟨h1, (h2.trans cond_infix_join).trans (join_infix_select hm)⟩
  | .whr h hb =>
    obtain ⟨h1, h2⟩ := okE_of_inE h (okIf_where hb (okS_parts ok).2.2.2.1)
    exact ⟨h1, (infix_cons (.sql s%"WHERE ") h2).trans (where_infix_select hb)⟩
  | .having h hb =>
    obtain ⟨h1, h2⟩ := okE_of_inE h (okIf_where hb (okS_parts ok).2.2.2.2)
    exact ⟨h1, (infix_cons (.sql s%"HAVING ") h2).trans (having_infix_select hb)⟩

end

section
variable [GoRuntime]

theorem okSet_of_inSet {s : SelectStmt} {p : PairContainer} (h : InSet s p)
    (ok : okSet p = true) : okS s = true ∧ selectL s <:+: setL p := by
  simp only [okSet, Bool.and_eq_true] at ok
  cases h with
  | @assoc c e hm hx h =>
    rw [hm] at ok
    obtain ⟨_, ok⟩ := ok
    have oke : okE e = true := by
      unfold assignments at hx
      cases hv : p.values with
      | error q => rw [hv] at hx; cases hx
      | ok r =>
        obtain ⟨cs, es⟩ := r
        rw [hv] at hx ok
        exact List.all_eq_true.1 ok _ hx
    obtain ⟨h1, h2⟩ := okE_of_inE h oke
    refine ⟨h1, ?_⟩
    rw [setL, hm]
    have h3 : selectL s <:+: assignL (c, e) := infix_right _ (infix_cons _ h2)
    exact infix_cons _ (h3.trans (infix_commaSep (List.mem_map_of_mem hx)))
  | array hm hx h =>
    rw [hm] at ok
    obtain ⟨_, ok⟩ := ok
    obtain ⟨h1, h2⟩ := okE_of_inE h (okEs_mem hx ok)
    refine ⟨h1, ?_⟩
    rw [setL, hm]
    exact infix_cons _ (infix_left _ (infix_right _ (infix_cons _
      (h2.trans (infix_commaSep (mem_exprsL hx))))))

theorem okStmt_of_inStmt {s : SelectStmt} {t : Stmt} (h : InStmt s t) (ok : okStmt t = true) :
    okS s = true ∧ selectL s <:+: layout t := by
  cases h with
  | select h => exact okE_of_inE h ok
  | insertValues h hb =>
    simp only [okStmt, Bool.and_eq_true] at ok
    obtain ⟨h1, h2⟩ := okE_of_inE h (okIf_where hb ok.2.1)
    refine ⟨h1, ?_⟩
    rw [layout, insertL]
    refine infix_left _ ((infix_cons (.sql s%"VALUES ") h2).trans (infix_spaced ?_))
    rw [clause_mem (c := .sql s%"VALUES " :: _) (by rw [hb]; rfl)]
    simp
  | @insertConflict i p ha hb h =>
    simp only [okStmt, Bool.and_eq_true, hb, Bool.false_or] at ok
    rw [ha] at ok
    obtain ⟨h1, h2⟩ := okSet_of_inSet h ok.2.2.1
    refine ⟨h1, ?_⟩
    rw [layout, insertL]
    have h3 : selectL s <:+: conflictL i.target i.action := by
      rw [conflictL, ha]
      exact infix_cons _ (infix_right _ (infix_cons _ h2))
    refine infix_left _ (h3.trans (infix_spaced ?_))
    rw [clause_mem (c := conflictL _ _) (by rw [hb]; rfl)]
    simp
  | @insertReturning i e hm h =>
    simp only [okStmt, Bool.and_eq_true] at ok
    obtain ⟨h1, h2⟩ := okSel_of_inSel h (okSels_mem hm ok.2.2.2)
    refine ⟨h1, ?_⟩
    have h3 : selectL s <:+: returningL i.returning :=
      infix_cons _ (h2.trans (infix_commaSep (mem_selExprsL hm)))
    rw [layout, insertL]
    refine infix_left _ (h3.trans (infix_spaced ?_))
    have : i.returning ≠ [] := List.ne_nil_of_mem hm
    rw [clause_mem (c := returningL _) (by simp [this])]
    simp
  | @updateWith u w hm hn hb h =>
    simp only [okStmt, Bool.and_eq_true] at ok
    obtain ⟨h1, h2⟩ := okE_of_inE h (okWiths_mem hm ok.2.1 hn hb)
    refine ⟨h1, ?_⟩
    have hw := infix_commaSep (mem_withsL hm)
    rw [withL_eq hn hb] at hw
    have h3 := (infix_left _ (infix_cons _ (infix_cons _ h2))).trans hw
    have h4 := infix_cons (.sql s%"WITH ") h3
    rw [layout, updateL]
    refine infix_left _ (h4.trans (infix_spaced ?_))
    have : u.withs ≠ [] := List.ne_nil_of_mem hm
    rw [clause_mem (c := .sql s%"WITH " :: _) (by simp [this])]
    simp
  | updateSet h =>
    simp only [okStmt, Bool.and_eq_true] at ok
    obtain ⟨h1, h2⟩ := okSet_of_inSet h ok.2.2.1
    refine ⟨h1, ?_⟩
    rw [layout, updateL]
    exact infix_left _ (h2.trans (infix_spaced (by simp)))
  | updateWhere h hb =>
    simp only [okStmt, Bool.and_eq_true] at ok
    obtain ⟨h1, h2⟩ := okE_of_inE h (okIf_where hb ok.2.2.2.2.1)
    refine ⟨h1, ?_⟩
    rw [layout, updateL]
    refine infix_left _ ((infix_cons (.sql s%"WHERE ") h2).trans (infix_spaced ?_))
    rw [clause_mem (c := .sql s%"WHERE " :: _) (by rw [hb]; rfl)]
    simp
  | @updateReturning u e hm h =>
    simp only [okStmt, Bool.and_eq_true] at ok
    obtain ⟨h1, h2⟩ := okSel_of_inSel h (okSels_mem hm ok.2.2.2.2.2)
    refine ⟨h1, ?_⟩
    have h3 : selectL s <:+: returningL u.returning :=
      infix_cons _ (h2.trans (infix_commaSep (mem_selExprsL hm)))
    rw [layout, updateL]
    refine infix_left _ (h3.trans (infix_spaced ?_))
    have : u.returning ≠ [] := List.ne_nil_of_mem hm
    rw [clause_mem (c := returningL _) (by simp [this])]
    simp
  | deleteWhere h hb =>
    simp only [okStmt, Bool.and_eq_true] at ok
    obtain ⟨h1, h2⟩ := okE_of_inE h (okIf_where hb ok.2.2.1)
    refine ⟨h1, ?_⟩
    rw [layout, deleteL]
    refine infix_left _ ((infix_cons (.sql s%"WHERE ") h2).trans (infix_spaced ?_))
    rw [clause_mem (c := .sql s%"WHERE " :: _) (by rw [hb]; rfl)]
    simp
  | @deleteReturning d e hm h =>
    simp only [okStmt, Bool.and_eq_true] at ok
    obtain ⟨h1, h2⟩ := okSel_of_inSel h (okSels_mem hm ok.2.2.2)
    refine ⟨h1, ?_⟩
    have h3 : selectL s <:+: returningL d.returning :=
      infix_cons _ (h2.trans (infix_commaSep (mem_selExprsL hm)))
    rw [layout, deleteL]
    refine infix_left _ (h3.trans (infix_spaced ?_))
    have : d.returning ≠ [] := List.ne_nil_of_mem hm
    rw [clause_mem (c := returningL _) (by simp [this])]
    simp

/-! ## Texts and arguments of a concatenation -/

theorem arguments_append (a b : List Piece) : arguments (a ++ b) = arguments a ++ arguments b := by
  induction a with
  | nil => rfl
  | cons p a ih =>
    cases p with
    | val v => cases v <;> simp [arguments, ih]
    | _ => simp [arguments, ih]

theorem render_append (ph : Nat → Val → Str) (k : Nat) (a b : List Piece) :
    render ph k (a ++ b) = render ph k a ++ render ph (k + (arguments a).length) b := by
  induction a generalizing k with
  | nil => simp [render, arguments]
  | cons p a ih =>
    cases p with
    | val v =>
      cases v
      case nil => simp only [List.cons_append, render, arguments, ih, List.append_assoc]
      all_goals
        simp only [List.cons_append, render, arguments, ih, List.append_assoc, List.length_cons]
        congr 3; omega
    | _ => simp [render, arguments, ih]

end

end Verif
