import Verif.Lemmas.Compare
import Verif.Spec.Where
import Verif.Spec.Argument
import Verif.Model.Builder

/-!
# Lemmas about WHERE clauses
-/

set_option linter.unusedSectionVars false

namespace Verif
open Spec

theorem spaced_append {l m : List (Option (List Piece))} (h : ∃ a, some a ∈ l) :
    spaced (l ++ m) = spaced l ++ spaceTail m := by
  induction l with
  | nil => obtain ⟨a, ha⟩ := h; cases ha
  | cons x l ih =>
    cases x with
    | none =>
      obtain ⟨a, ha⟩ := h
      have : ∃ a, some a ∈ l := ⟨a, by simpa using ha⟩
      rw [List.cons_append, spaced, ih this, spaced]
    | some a =>
      rw [List.cons_append, spaced_some, spaced_some, spaceTail_append, List.append_assoc]

section
variable [GoRuntime]

/-- The WHERE clause with the space before it. -/
def wherePieces (w : Expr) : List Piece := spaceTail [clause (!blank w) (.sql s%"WHERE " :: exprL w)]

theorem select_where (b : SelectStmt) :
    ∃ pre post, ∀ w, selectL { b with whr := w } = pre ++ (wherePieces w ++ post) := by
  cases b with
  | mk pfx withs distinct distinctOn exprs tables joins whr groupBy having orderBy limit offset sfx comment =>
    refine ⟨spaced ([clause (!pfx.isEmpty) [.raw pfx],
        clause (!withs.isEmpty) (.sql s%"WITH " :: commaSep (withsL withs)),
        some [.sql s%"SELECT"],
        clause (!distinctOn.isEmpty)
          (.sql s%"DISTINCT ON (" :: commaSep (distinctOn.map columnL) ++ [.sql s%")"]),
        clause distinct [.sql s%"DISTINCT"],
        some (commaSep (selExprsL exprs)),
        clause (!tables.isEmpty) (fromL tables)] ++ joinsL joins),
      spaceTail [clause (!groupBy.isEmpty) (.sql s%"GROUP BY " :: commaSep (groupBy.map columnL)),
        clause (!blank having) (.sql s%"HAVING " :: exprL having),
        clause (!orderBy.isEmpty) (.sql s%"ORDER BY " :: commaSep (orderBy.map orderL)),
        clause (limit ≠ 0) [.sql (s%"LIMIT " ++ formatInt limit)],
        clause (offset ≠ 0) [.sql (s%"OFFSET " ++ formatInt offset)],
        clause (!sfx.isEmpty) [.raw sfx]] ++ commentL comment, ?_⟩
    intro w
    rw [selectL, spaced_append ⟨[.sql s%"SELECT"], by simp⟩, spaceTail_cons2]
    simp only [wherePieces, List.append_assoc]

theorem update_where (b : UpdateStmt) :
    ∃ pre post, ∀ w, updateL { b with whr := w } = pre ++ (wherePieces w ++ post) := by
  cases b with
  | mk withs table only tables set whr returning comment =>
    refine ⟨spaced [clause (!withs.isEmpty) (.sql s%"WITH " :: commaSep (withsL withs)),
        some [.sql s%"UPDATE"],
        clause only [.sql s%"ONLY"],
        some (tableL table),
        some (setL set),
        clause (!tables.isEmpty) (fromL tables)],
      spaceTail [clause (!returning.isEmpty) (returningL returning)] ++ commentL comment, ?_⟩
    intro w
    have := spaced_append (l := [clause (!withs.isEmpty) (.sql s%"WITH " :: commaSep (withsL withs)),
        some [.sql s%"UPDATE"],
        clause only [.sql s%"ONLY"],
        some (tableL table),
        some (setL set),
        clause (!tables.isEmpty) (fromL tables)])
      (m := [clause (!blank w) (.sql s%"WHERE " :: exprL w),
        clause (!returning.isEmpty) (returningL returning)]) ⟨[.sql s%"UPDATE"], by simp⟩
    rw [updateL]
    simp only [List.cons_append, List.nil_append] at this
    rw [this, spaceTail_cons2]
    simp only [wherePieces, List.append_assoc]

theorem delete_where (b : DeleteStmt) :
    ∃ pre post, ∀ w, deleteL { b with whr := w } = pre ++ (wherePieces w ++ post) := by
  cases b with
  | mk tables usings whr returning comment =>
    refine ⟨spaced [some [.sql s%"DELETE"],
        some (fromL tables),
        clause (!usings.isEmpty) (.sql s%"USING " :: commaSep (usings.map tableL))],
      spaceTail [clause (!returning.isEmpty) (returningL returning)] ++ commentL comment, ?_⟩
    intro w
    have := spaced_append (l := [some [.sql s%"DELETE"],
        some (fromL tables),
        clause (!usings.isEmpty) (.sql s%"USING " :: commaSep (usings.map tableL))])
      (m := [clause (!blank w) (.sql s%"WHERE " :: exprL w),
        clause (!returning.isEmpty) (returningL returning)]) ⟨[.sql s%"DELETE"], by simp⟩
    rw [deleteL]
    simp only [List.cons_append, List.nil_append] at this
    rw [this, spaceTail_cons2]
    simp only [wherePieces, List.append_assoc]

/-- The condition under which writing a statement with condition `w` succeeds. -/
def okWhere (rest : Bool) (w : Expr) : Bool := rest && okIf w.isUnset (okE w)

theorem select_okWhere (b : SelectStmt) : ∃ rest, ∀ w, okS { b with whr := w } = okWhere rest w := by
  cases b with
  | mk pfx withs distinct distinctOn exprs tables joins whr groupBy having orderBy limit offset sfx comment =>
    refine ⟨!exprs.isEmpty && (okWiths withs && (okSels exprs && (tables.all (· ≠ .nil) &&
      (okJoins joins && okIf having.isUnset (okE having))))), fun w => ?_⟩
    rw [okS, okWhere]
    simp only [Bool.and_assoc]
    cases okIf w.isUnset (okE w) <;> simp

theorem update_okWhere (b : UpdateStmt) :
    ∃ rest, ∀ w, okStmt (.update { b with whr := w }) = okWhere rest w := by
  refine ⟨!b.table.name.isEmpty && (okWiths b.withs && (okSet b.set && (b.tables.all (· ≠ .nil) &&
      okSels b.returning))), fun w => ?_⟩
  rw [okStmt, okWhere]
  simp only [Bool.and_assoc]
  cases okIf w.isUnset (okE w) <;> simp

theorem delete_okWhere (b : DeleteStmt) :
    ∃ rest, ∀ w, okStmt (.delete { b with whr := w }) = okWhere rest w := by
  refine ⟨!b.tables.isEmpty && (b.tables.all (· ≠ .nil) && okSels b.returning), fun w => ?_⟩
  rw [okStmt, okWhere]
  simp only [Bool.and_assoc]
  cases okIf w.isUnset (okE w) <;> simp

theorem isUnset_of {e : Expr} (h : okE e = true) : e.isUnset = .ok (blank e) := by
  cases he : e.isUnset with
  | ok b => rw [isUnset_ok he]
  | error p =>
    rcases Go.or_error he with h1 | ⟨-, h1⟩
    · cases h1
    · rw [isEmpty_error e h1] at h; cases h

theorem okIf_nonblank {e : Expr} (h : blank e = false) : okIf e.isUnset (okE e) = okE e := by
  cases ho : okE e with
  | true => rw [isUnset_of ho, h]; rfl
  | false =>
    cases he : e.isUnset with
    | ok b => rw [isUnset_ok he] at h; subst h; rfl
    | error p => rfl

/-- The text of a statement with a condition is the text without condition with the clause
inserted at a place that does not depend on the condition. -/
theorem where_text {L : Expr → List Piece} {ok : Expr → Bool} {pre post : List Piece} {rest : Bool}
    (hL : ∀ w, L w = pre ++ (wherePieces w ++ post)) (hok : ∀ w, ok w = okWhere rest w)
    {u : Str} (h : ok .nil = true ∧ rawText (L .nil) = .ok u) :
    ∃ x y, u = x ++ y ∧ ∀ w t, blank w = false → w.write.string = .ok t →
      ok w = true ∧ rawText (L w) = .ok (x ++ s%" WHERE " ++ t ++ y) := by
  obtain ⟨h1, h2⟩ := h
  rw [hL] at h2
  obtain ⟨x, v, hx, hv, rfl⟩ := rawText_append_inv h2
  have h0 : wherePieces .nil = [] := by simp [wherePieces, blank, clause]
  rw [h0, List.nil_append] at hv
  refine ⟨x, v, rfl, ?_⟩
  intro w t hb ht
  obtain ⟨ho, ht⟩ := (expr_string _ _).1 ht
  rw [hok, okWhere, Bool.and_eq_true] at h1
  refine ⟨by rw [hok, okWhere, h1.1, okIf_nonblank hb, ho]; rfl, ?_⟩
  rw [hL]
  have hw : rawText (wherePieces w) = .ok (s%" WHERE " ++ t) := by
    simp only [wherePieces, hb, Bool.not_false, clause, if_true, spaceTail_some, spaceTail_nil,
      List.append_nil]
    exact rawText_sql_ok (rawText_sql_ok ht)
  refine (rawText_append_ok hx (rawText_append_ok hw hv)).trans ?_
  simp

/-- The same, starting from the statement with the condition. -/
theorem where_inv {L : Expr → List Piece} {ok : Expr → Bool} {pre post : List Piece} {rest : Bool}
    (hL : ∀ w, L w = pre ++ (wherePieces w ++ post)) (hok : ∀ w, ok w = okWhere rest w)
    {w : Expr} {text : Str} (hb : blank w = false) (h : ok w = true ∧ rawText (L w) = .ok text) :
    ∃ x t y, w.write.string = .ok t ∧ text = x ++ s%" WHERE " ++ t ++ y ∧
      ok .nil = true ∧ rawText (L .nil) = .ok (x ++ y) := by
  obtain ⟨h1, h2⟩ := h
  rw [hL] at h2
  obtain ⟨x, v, hx, hv, rfl⟩ := rawText_append_inv h2
  obtain ⟨q, y, hq, hy, rfl⟩ := rawText_append_inv hv
  rw [hok, okWhere, Bool.and_eq_true, okIf_nonblank hb] at h1
  simp only [wherePieces, hb, Bool.not_false, clause, if_true, spaceTail_some, spaceTail_nil,
      List.append_nil] at hq
  obtain ⟨u1, hu1, rfl⟩ := rawText_sql_inv hq
  obtain ⟨t, ht, rfl⟩ := rawText_sql_inv hu1
  refine ⟨x, t, y, (expr_string _ _).2 ⟨h1.2, ht⟩, by simp, ?_, ?_⟩
  · rw [hok, okWhere, h1.1]; rfl
  · have h0 : wherePieces .nil = [] := by simp [wherePieces, blank, clause]
    rw [hL, h0, List.nil_append]
    exact rawText_append_ok hx hy

/-! ## Sequences of calls -/

/-- `Where`, `And` or `Or` on the condition of a builder. -/
def condStep (w : Expr) : CondCall → Expr → Go Expr
  | .and, e => whereAnd w e
  | .or, e => whereOr w e
  | .whr, e =>
    match w.isUnset with
    | .error p => .error p
    | .ok true => .ok (newWhere e)
    | .ok false => whereAnd w e

theorem condStep_ok {w e : Expr} (c : CondCall) (hb : blank w = false) (hok : okE w = true) :
    condStep w c e = .ok (.infx w (.logical c.word) (newWrapper e)) := by
  have h := isUnset_of hok
  rw [hb] at h
  cases c <;> simp only [condStep, whereAnd, whereOr, h] <;> rfl

/-- A further condition. -/
theorem step_text {w e : Expr} {t u : Str} (c : CondCall) (hb : blank w = false)
    (ht : w.write.string = .ok t) (he : blank e = false) (hu : e.write.string = .ok u) :
    ∃ w', condStep w c e = .ok w' ∧ blank w' = false ∧
      w'.write.string = .ok (s%"(" ++ t ++ s%" " ++ c.word ++ s%" " ++ operandOf true e u ++ s%")") := by
  have hok := ((expr_string _ _).1 ht).1
  refine ⟨_, condStep_ok c hb hok, ?_, ?_⟩
  · cases c <;> simp [blank, hb, opBlank, CondCall.word, blank_wrapper, he]
  · refine (infx_string _ _ _ _).2 ⟨hb, by cases c <;> rfl, by rw [blank_wrapper, he],
      t, operandOf true e u, ht, (wrapper_string _ _).2 ⟨u, hu, rfl⟩, by simp [comparisonText, paren, opL]⟩

theorem run_text (calls : List (CondCall × Expr × Str)) : ∀ {w : Expr} {t : Str}, blank w = false →
    w.write.string = .ok t →
    (∀ x ∈ calls, blank x.2.1 = false ∧ x.2.1.write.string = .ok x.2.2) →
    ∃ w', runCalls condStep w (calls.map fun x => (x.1, x.2.1)) = .ok w' ∧ blank w' = false ∧
      w'.write.string = .ok (foldText t (calls.map fun x => (x.1, operandOf true x.2.1 x.2.2))) := by
  induction calls with
  | nil => intro w t hb ht _; exact ⟨w, rfl, hb, ht⟩
  | cons x calls ih =>
    intro w t hb ht h
    obtain ⟨h1, h2⟩ := h x List.mem_cons_self
    obtain ⟨w1, hw1, hb1, ht1⟩ := step_text x.1 hb ht h1 h2
    obtain ⟨w', hw', hb', ht'⟩ := ih hb1 ht1 (fun y hy => h y (List.mem_cons_of_mem _ hy))
    refine ⟨w', ?_, hb', ?_⟩
    · rw [List.map_cons, runCalls, hw1]; exact hw'
    · rw [List.map_cons, foldText]; exact ht'

/-- A builder whose calls only touch its condition. -/
theorem runCalls_lift {β : Type} {step : β → CondCall → Expr → Go β} (get : β → Expr)
    (put : β → Expr → β) (hgp : ∀ b w, get (put b w) = w) (hpp : ∀ b v w, put (put b v) w = put b w)
    (hstep : ∀ b c e w', e.isNil = false → condStep (get b) c e = .ok w' → step b c e = .ok (put b w'))
    (calls : List (CondCall × Expr)) (hn : ∀ x ∈ calls, x.2.isNil = false) (hput : ∀ b, put b (get b) = b) :
    ∀ (b : β) (w' : Expr), runCalls condStep (get b) calls = .ok w' →
      runCalls step b calls = .ok (put b w') := by
  induction calls with
  | nil => intro b w' h; cases h; rw [runCalls, hput]
  | cons x calls ih =>
    intro b w' h
    obtain ⟨c, e⟩ := x
    rw [runCalls] at h ⊢
    cases hs : condStep (get b) c e with
    | error p => rw [hs] at h; cases h
    | ok w1 =>
      rw [hs] at h
      rw [hstep b c e w1 (hn _ List.mem_cons_self) hs]
      have := ih (fun y hy => hn y (List.mem_cons_of_mem _ hy)) (put b w1) w' (by rw [hgp]; exact h)
      simp only [this, hpp]

/-! ## From the text back to the conditions -/

theorem condStep_inv {w e w' : Expr} {c : CondCall} (h : condStep w c e = .ok w') :
    (blank w = true ∧ w' = newWrapper e) ∨
    (blank w = false ∧ w' = .infx w (.logical c.word) (newWrapper e)) := by
  cases hu : w.isUnset with
  | error p => cases c <;> simp [condStep, whereAnd, whereOr, hu] at h
  | ok b =>
    have hb := isUnset_ok hu
    cases b with
    | true =>
      cases c <;> simp [condStep, whereAnd, whereOr, hu, Go.panic, newWhere] at h
      exact .inl ⟨hb, h.symm⟩
    | false =>
      right
      refine ⟨hb, ?_⟩
      cases c <;> simp [condStep, whereAnd, whereOr, hu] at h <;> exact h.symm

theorem operandOf_infix (b : Bool) (e : Expr) (t : Str) : t <:+: operandOf b e t := by
  unfold operandOf
  split
  · exact ⟨s%"(", s%")", rfl⟩
  · exact List.infix_refl t

/-- One call keeps the conditions given so far and adds its own. -/
theorem condStep_keeps {w e w' : Expr} {c : CondCall} (h : condStep w c e = .ok w')
    (he : blank e = false) : blank w' = false ∧ ∀ t', w'.write.string = .ok t' →
      (∃ t, e.write.string = .ok t ∧ t <:+: t') ∧
      (blank w = false → ∃ t, w.write.string = .ok t ∧ t <:+: t') := by
  rcases condStep_inv h with ⟨hb, rfl⟩ | ⟨hb, rfl⟩
  · refine ⟨by rw [blank_wrapper, he], fun t' ht' => ?_⟩
    obtain ⟨r, hr, rfl⟩ := (wrapper_string _ _).1 ht'
    exact ⟨⟨r, hr, operandOf_infix _ _ _⟩, fun hb' => by rw [hb] at hb'; cases hb'⟩
  · refine ⟨by cases c <;> simp [blank, hb, opBlank, CondCall.word, blank_wrapper, he], ?_⟩
    intro t' ht'
    obtain ⟨-, -, -, x, y, hx, hy, rfl⟩ := (infx_string _ _ _ _).1 ht'
    obtain ⟨r, hr, rfl⟩ := (wrapper_string _ _).1 hy
    refine ⟨⟨r, hr, (operandOf_infix true e r).trans
        ⟨s%"(" ++ x ++ s%" " ++ c.word ++ s%" ", s%")", ?_⟩⟩,
      fun _ => ⟨x, hx, s%"(", s%" " ++ c.word ++ s%" " ++ operandOf true e r ++ s%")", ?_⟩⟩
    · simp [comparisonText, paren, opL]
    · simp [comparisonText, paren, opL]

theorem run_keeps (calls : List (CondCall × Expr)) : ∀ {w w' : Expr},
    runCalls condStep w calls = .ok w' → (∀ x ∈ calls, blank x.2 = false) →
    (calls ≠ [] ∨ blank w = false → blank w' = false) ∧ ∀ t', w'.write.string = .ok t' →
      (∀ x ∈ calls, ∃ t, x.2.write.string = .ok t ∧ t <:+: t') ∧
      (blank w = false → ∃ t, w.write.string = .ok t ∧ t <:+: t') := by
  induction calls with
  | nil =>
    intro w w' h _
    cases h
    exact ⟨fun h => h.resolve_left (fun h => h rfl), fun t' ht' =>
      ⟨(by simp), fun _ => ⟨t', ht', List.infix_refl _⟩⟩⟩
  | cons x calls ih =>
    intro w w' h hn
    obtain ⟨c, e⟩ := x
    rw [runCalls] at h
    cases hs : condStep w c e with
    | error p => rw [hs] at h; cases h
    | ok w1 =>
      rw [hs] at h
      obtain ⟨hb1, h1⟩ := condStep_keeps hs (hn _ List.mem_cons_self)
      obtain ⟨hb', h2⟩ := ih h (fun y hy => hn y (List.mem_cons_of_mem _ hy))
      refine ⟨fun _ => hb' (.inr hb1), fun t' ht' => ?_⟩
      obtain ⟨ha, hc⟩ := h2 t' ht'
      obtain ⟨t1, ht1, hi⟩ := hc hb1
      obtain ⟨⟨t, ht, hti⟩, hw⟩ := h1 t1 ht1
      refine ⟨?_, fun hb => ?_⟩
      · intro y hy
        rcases List.mem_cons.1 hy with rfl | hy
        · exact ⟨t, ht, hti.trans hi⟩
        · exact ha y hy
      · obtain ⟨u, hu, hui⟩ := hw hb
        exact ⟨u, hu, hui.trans hi⟩

theorem runCalls_lower {β : Type} {step : β → CondCall → Expr → Go β} (get : β → Expr)
    (put : β → Expr → β) (hgp : ∀ b w, get (put b w) = w) (hpp : ∀ b v w, put (put b v) w = put b w)
    (hput : ∀ b, put b (get b) = b)
    (hstep : ∀ b c e b', step b c e = .ok b' → ∃ w', condStep (get b) c e = .ok w' ∧ b' = put b w')
    (calls : List (CondCall × Expr)) : ∀ (b b' : β), runCalls step b calls = .ok b' →
      ∃ w', runCalls condStep (get b) calls = .ok w' ∧ b' = put b w' := by
  induction calls with
  | nil => intro b b' h; cases h; exact ⟨get b, rfl, (hput b).symm⟩
  | cons x calls ih =>
    intro b b' h
    obtain ⟨c, e⟩ := x
    rw [runCalls] at h
    cases hs : step b c e with
    | error p => rw [hs] at h; cases h
    | ok b1 =>
      rw [hs] at h
      obtain ⟨w1, hw1, rfl⟩ := hstep b c e b1 hs
      obtain ⟨w', hw', rfl⟩ := ih _ _ h
      rw [hgp] at hw'
      exact ⟨w', by rw [runCalls, hw1]; exact hw', hpp _ _ _⟩

/-! ## Which conditions last -/

theorem lasting_snoc (calls : List (CondCall × Expr)) (x : CondCall × Expr) :
    lasting (calls ++ [x]) = if blank x.2 then [] else lasting calls ++ [x] := by
  unfold lasting
  rw [List.reverse_append]
  simp only [List.reverse_cons, List.reverse_nil, List.nil_append, List.cons_append,
    List.takeWhile_cons]
  cases h : blank x.2 with
  | true => simp
  | false => simp

/-- The condition of a builder after calls that last. -/
def Lasts (w : Expr) : List (CondCall × Expr) → Prop
  | [] => blank w = true
  | x :: l => blank w = false ∧ ∀ t, w.write.string = .ok t →
      ∃ texts, Each OperandText (x :: l) texts ∧ whereText texts = s%" WHERE " ++ t

theorem each_append {α β : Type} {R : α → β → Prop} {l l' : List α} {m m' : List β}
    (h : Each R l m) (h' : Each R l' m') : Each R (l ++ l') (m ++ m') := by
  induction h with
  | nil => exact h'
  | cons h1 _ ih => exact .cons h1 ih

theorem foldText_snoc (l : List (CondCall × Str)) (c : CondCall) (t u : Str) :
    foldText t (l ++ [(c, u)]) = s%"(" ++ foldText t l ++ s%" " ++ c.word ++ s%" " ++ u ++ s%")" := by
  induction l generalizing t with
  | nil => rfl
  | cons x l ih => obtain ⟨d, v⟩ := x; rw [List.cons_append, foldText, ih, foldText]

theorem lasts_step {w w' : Expr} {kept : List (CondCall × Expr)} {c : CondCall} {e : Expr}
    (hw : Lasts w kept) (h : condStep w c e = .ok w') :
    Lasts w' (if blank e then [] else kept ++ [(c, e)]) := by
  rcases condStep_inv h with ⟨hb, rfl⟩ | ⟨hb, rfl⟩
  · have hk : kept = [] := by
      cases kept with
      | nil => rfl
      | cons x l => rw [hw.1] at hb; cases hb
    subst hk
    cases he : blank e with
    | true => simp only [if_true]; show blank _ = true; rw [blank_wrapper, he]
    | false =>
      simp only [Bool.false_eq_true, if_false, List.nil_append]
      refine ⟨by rw [blank_wrapper, he], fun t ht => ?_⟩
      obtain ⟨r, hr, rfl⟩ := (wrapper_string _ _).1 ht
      exact ⟨[(c, operandOf true e r)], .cons ⟨rfl, r, hr, rfl⟩ .nil, rfl⟩
  · cases kept with
    | nil => rw [show blank w = true from hw] at hb; cases hb
    | cons x l =>
      cases he : blank e with
      | true =>
        simp only [if_true]
        show blank _ = true
        cases c <;> simp [blank, hb, opBlank, CondCall.word, blank_wrapper, he]
      | false =>
        simp only [Bool.false_eq_true, if_false, List.cons_append]
        refine ⟨by cases c <;> simp [blank, hb, opBlank, CondCall.word, blank_wrapper, he], ?_⟩
        intro t' ht'
        obtain ⟨-, -, -, t, y, ht, hy, rfl⟩ := (infx_string _ _ _ _).1 ht'
        obtain ⟨r, hr, rfl⟩ := (wrapper_string _ _).1 hy
        obtain ⟨texts, h1, h2⟩ := hw.2 t ht
        cases h1 with
        | @cons _ y _ ys h3 h4 =>
          refine ⟨y :: (ys ++ [(c, operandOf true e r)]), .cons h3
            (each_append h4 (.cons ⟨rfl, r, hr, rfl⟩ .nil)), ?_⟩
          obtain ⟨d, v⟩ := y
          rw [whereText] at h2 ⊢
          have h2 := List.append_cancel_left h2
          rw [foldText_snoc, h2]
          simp [comparisonText, paren, opL]

theorem lasts_run (calls : List (CondCall × Expr)) : ∀ {w w' : Expr}
    {before : List (CondCall × Expr)}, Lasts w (lasting before) →
    runCalls condStep w calls = .ok w' → Lasts w' (lasting (before ++ calls)) := by
  induction calls with
  | nil => intro w w' before hw h; cases h; rw [List.append_nil]; exact hw
  | cons x calls ih =>
    intro w w' before hw h
    obtain ⟨c, e⟩ := x
    rw [runCalls] at h
    cases hs : condStep w c e with
    | error p => rw [hs] at h; cases h
    | ok w1 =>
      rw [hs] at h
      have h1 := lasts_step hw hs
      have h2 := ih (before := before ++ [(c, e)]) (by rw [lasting_snoc]; exact h1) h
      rw [List.append_assoc] at h2
      exact h2

/-- Asking whether the condition is empty does not panic. -/
def Askable (e : Expr) : Prop := e.isUnset = .ok (blank e)

theorem askable_iff {e : Expr} : Askable e ↔ ∃ b, e.isUnset = .ok b := by
  constructor
  · intro h; exact ⟨_, h⟩
  · rintro ⟨b, h⟩; unfold Askable; rw [h, isUnset_ok h]

theorem askable_wrapper {e : Expr} (h : Askable e) : Askable (newWrapper e) := by
  unfold Askable at h ⊢
  rw [blank_wrapper]
  cases e <;> exact h

theorem askable_cases {e : Expr} (h : Askable e) :
    (e.isNil = true ∧ blank e = true) ∨ (e.isNil = false ∧ e.isEmpty = .ok (blank e)) := by
  unfold Askable Expr.isUnset at h
  cases hn : e.isNil with
  | true => exact .inl ⟨rfl, blank_of_isNil hn⟩
  | false => rw [hn] at h; exact .inr ⟨rfl, h⟩

theorem askable_infx {l r : Expr} {s : Str} (hl : Askable l) (hr : Askable r) :
    Askable (.infx l (.logical s) r) := by
  refine askable_iff.2 ?_
  show ∃ b, Go.or (.ok false) (Expr.isEmpty (.infx l (.logical s) r)) = .ok b
  rw [Expr.isEmpty]
  simp only [Op.isEmpty]
  rcases askable_cases hl with ⟨h1, -⟩ | ⟨h1, h2⟩
  · rw [h1]; exact ⟨true, rfl⟩
  · rcases askable_cases hr with ⟨h3, -⟩ | ⟨h3, h4⟩
    · rw [h1, h3]; exact ⟨true, rfl⟩
    · rw [h1, h2, h3, h4]
      cases blank l <;> cases s <;> exact ⟨_, rfl⟩

theorem condStep_exact {w e : Expr} {c : CondCall} (hw : Askable w) :
    (∃ w', condStep w c e = .ok w') ↔ (c = .whr ∨ blank w = false) := by
  unfold Askable at hw
  cases hb : blank w with
  | true =>
    rw [hb] at hw
    cases c <;> simp [condStep, whereAnd, whereOr, hw, Go.panic]
  | false =>
    rw [hb] at hw
    cases c <;> simp [condStep, whereAnd, whereOr, hw]

theorem condStep_askable {w e w' : Expr} {c : CondCall} (hw : Askable w) (he : Askable e)
    (h : condStep w c e = .ok w') : Askable w' := by
  rcases condStep_inv h with ⟨-, rfl⟩ | ⟨-, rfl⟩
  · exact askable_wrapper he
  · exact askable_infx hw (askable_wrapper he)

theorem lasts_blank {w : Expr} {kept : List (CondCall × Expr)} (h : Lasts w kept) :
    blank w = false ↔ kept ≠ [] := by
  cases kept with
  | nil => simp [show blank w = true from h]
  | cons x l => simp [h.1]

theorem run_exact (calls : List (CondCall × Expr)) : ∀ {w : Expr}
    {before : List (CondCall × Expr)}, Lasts w (lasting before) → Askable w →
    (∀ x ∈ calls, Askable x.2) →
    ((∃ w', runCalls condStep w calls = .ok w') ↔
      ∀ pre c e post, calls = pre ++ (c, e) :: post → c ≠ .whr → lasting (before ++ pre) ≠ []) := by
  induction calls with
  | nil =>
    intro w before _ _ _
    refine ⟨fun _ pre c e post h => ?_, fun _ => ⟨w, rfl⟩⟩
    cases pre <;> cases h
  | cons x calls ih =>
    intro w before hl ha hc
    obtain ⟨c, e⟩ := x
    have he := hc _ List.mem_cons_self
    have hs := condStep_exact (e := e) (c := c) ha
    rw [lasts_blank hl] at hs
    constructor
    · rintro ⟨w', h⟩
      rw [runCalls] at h
      cases h1 : condStep w c e with
      | error p => rw [h1] at h; cases h
      | ok w1 =>
        rw [h1] at h
        intro pre d f post h2 hd
        cases pre with
        | nil =>
          cases h2
          rw [List.append_nil]
          exact (hs.1 ⟨_, h1⟩).resolve_left hd
        | cons y pre =>
          cases h2
          have := (ih (w := w1) (before := before ++ [(c, e)])
            (by rw [lasting_snoc]; exact lasts_step hl h1) (condStep_askable ha he h1)
            (fun x hx => hc x (List.mem_cons_of_mem _ hx))).1 ⟨w', h⟩ pre d f post rfl hd
          rw [List.append_assoc] at this
          exact this
    · intro h
      obtain ⟨w1, h1⟩ : ∃ w1, condStep w c e = .ok w1 := by
        refine hs.2 ?_
        by_cases hd : c = .whr
        · exact .inl hd
        · have := h [] c e calls rfl hd
          rw [List.append_nil] at this
          exact .inr this
      rw [runCalls, h1]
      refine (ih (w := w1) (before := before ++ [(c, e)])
        (by rw [lasting_snoc]; exact lasts_step hl h1) (condStep_askable ha he h1)
        (fun x hx => hc x (List.mem_cons_of_mem _ hx))).2 ?_
      intro pre d f post h2 hd
      rw [List.append_assoc]
      exact h ((c, e) :: pre) d f post (by rw [h2]; rfl) hd

/-- The text of a statement after calls of condition methods. -/
theorem lasts_text {L : Expr → List Piece} {ok : Expr → Bool} {pre post : List Piece} {rest : Bool}
    (hL : ∀ w, L w = pre ++ (wherePieces w ++ post)) (hok : ∀ w, ok w = okWhere rest w)
    {u : Str} (h : ok .nil = true ∧ rawText (L .nil) = .ok u) :
    ∃ x y, u = x ++ y ∧ ∀ kept w text, Lasts w kept → ok w = true → rawText (L w) = .ok text →
      ∃ texts, Each OperandText kept texts ∧ text = x ++ whereText texts ++ y := by
  obtain ⟨-, h2⟩ := h
  rw [hL] at h2
  obtain ⟨x, v, hx, hv, rfl⟩ := rawText_append_inv h2
  have h0 : ∀ {w}, blank w = true → wherePieces w = [] := by
    intro w hw; simp [wherePieces, hw, clause]
  rw [h0 rfl, List.nil_append] at hv
  refine ⟨x, v, rfl, ?_⟩
  intro kept w text hw ho ht
  rw [hL] at ht
  obtain ⟨x', v', hx', hv', rfl⟩ := rawText_append_inv ht
  obtain ⟨q, y, hq, hy, rfl⟩ := rawText_append_inv hv'
  rw [hx] at hx'; cases hx'
  rw [hv] at hy; cases hy
  cases kept with
  | nil =>
    rw [h0 hw] at hq
    cases hq
    exact ⟨[], .nil, by simp [whereText]⟩
  | cons z l =>
    obtain ⟨hb, hs⟩ := hw
    rw [hok, okWhere, Bool.and_eq_true, okIf_nonblank hb] at ho
    simp only [wherePieces, hb, Bool.not_false, clause, if_true, spaceTail_some, spaceTail_nil,
      List.append_nil] at hq
    obtain ⟨u1, hu1, rfl⟩ := rawText_sql_inv hq
    obtain ⟨t, ht', rfl⟩ := rawText_sql_inv hu1
    obtain ⟨texts, h3, h4⟩ := hs t ((expr_string _ _).2 ⟨ho.2, ht'⟩)
    exact ⟨texts, h3, by rw [h4]; simp⟩

end

end Verif
