import Verif.Lemmas.RawText
import Verif.Spec.Compare
import Verif.Model.Construct

/-!
# Lemmas about comparisons, IN and BETWEEN
-/

set_option linter.unusedSectionVars false

namespace Verif
open Spec

section
variable [GoRuntime]

theorem intercalate_cons2 (sep a b : Str) (l : List Str) :
    List.intercalate sep (a :: b :: l) = a ++ sep ++ List.intercalate sep (b :: l) := by
  simp [List.intercalate, List.intersperse]

theorem rawText_commaSep (ls : List (List Piece)) (t : Str) :
    rawText (commaSep ls) = .ok t ↔
      ∃ ts : List Str, ls.map rawText = ts.map .ok ∧ t = commaText ts := by
  induction ls generalizing t with
  | nil =>
    constructor
    · intro h; simp only [commaSep, rawText, Except.ok.injEq] at h; exact ⟨[], rfl, h.symm⟩
    · rintro ⟨ts, h, rfl⟩
      cases ts with
      | nil => rfl
      | cons a l => simp at h
  | cons a ls ih =>
    cases ls with
    | nil =>
      rw [commaSep]
      constructor
      · intro h; exact ⟨[t], by simp [h], by simp [commaText, List.intercalate]⟩
      · rintro ⟨ts, h, rfl⟩
        match ts, h with
        | [], h => simp at h
        | [x], h => simp at h; simpa [commaText, List.intercalate] using h
        | _ :: _ :: _, h => simp at h
    | cons b ls =>
      rw [commaSep]
      constructor
      · intro h
        obtain ⟨x, y, hx, hy, rfl⟩ := rawText_append_inv h
        obtain ⟨y1, y2, hy1, hy2, rfl⟩ := rawText_append_inv (a := [.sql s%", "]) hy
        obtain ⟨ts, hts, rfl⟩ := (ih y2).1 hy2
        have : y1 = s%", " := by
          simp only [rawText, Piece.rawText, List.append_nil, Except.ok.injEq] at hy1; exact hy1.symm
        subst this
        match ts, hts with
        | u :: us, hts =>
          refine ⟨x :: u :: us, ?_, ?_⟩
          · rw [List.map_cons, hts, hx]; rfl
          · simp [commaText]
      · rintro ⟨ts, h, rfl⟩
        match ts, h with
        | [], h => simp at h
        | [x], h => simp at h
        | x :: u :: us, h =>
          rw [List.map_cons, List.map_cons] at h
          injection h with h1 h2
          refine (rawText_append_ok h1 (rawText_sql_ok ((ih (commaText (u :: us))).2 ⟨_, h2, rfl⟩))).trans ?_
          simp [commaText]

omit [GoRuntime] in
theorem newWrapper_eq (e : Expr) : newWrapper e = if isSub e then .wrapper e else e := by
  cases e <;> rfl

theorem rawText_sql_inv {x t : Str} {l : List Piece} (h : rawText (.sql x :: l) = .ok t) :
    ∃ u, rawText l = .ok u ∧ t = x ++ u := by
  simp only [rawText, Piece.rawText] at h
  cases hl : rawText l with
  | error e => rw [hl] at h; cases h
  | ok u => rw [hl] at h; exact ⟨u, rfl, by cases h; rfl⟩

theorem rawText_op (a b c : Str) (l : List Piece) :
    rawText (.sql a :: .raw b :: .sql c :: l) = rawText (.sql (a ++ b ++ c) :: l) := by
  simp only [rawText, Piece.rawText]
  cases rawText l <;> simp

/-- The text of an operand. -/
theorem rawText_wrapper (e : Expr) (u : Str) :
    rawText (exprL (newWrapper e)) = .ok u ↔
      ∃ r, rawText (exprL e) = .ok r ∧ u = if isSub e then paren r else r := by
  rw [newWrapper_eq]
  split
  · rw [exprL]
    constructor
    · intro h
      obtain ⟨u1, h1, rfl⟩ := rawText_sql_inv h
      obtain ⟨x, u2, hx, h2, rfl⟩ := rawText_append_inv h1
      obtain ⟨u3, h3, rfl⟩ := rawText_sql_inv h2
      cases h3
      exact ⟨x, hx, by simp [paren]⟩
    · rintro ⟨r, h, rfl⟩
      refine (rawText_sql_ok (rawText_append_ok h (rawText_sql_ok rfl))).trans ?_
      simp [paren]
  · simp

theorem okE_wrapper (e : Expr) : okE (newWrapper e) = okE e := by
  rw [newWrapper_eq]; split <;> simp [okE]

theorem blank_wrapper (e : Expr) : blank (newWrapper e) = blank e := by
  rw [newWrapper_eq]; split <;> simp [blank]

/-- The text of a binary expression. -/
theorem infx_string (l : Expr) (op : Op) (r : Expr) (t : Str) :
    (Expr.infx l op r).write.string = .ok t ↔
      blank l = false ∧ opBlank op = false ∧ blank r = false ∧
      ∃ x y, l.write.string = .ok x ∧ r.write.string = .ok y ∧ t = comparisonText x (opL op) y := by
  constructor
  · intro h
    obtain ⟨hok, ht⟩ := (expr_string _ _).1 h
    simp only [okE, blank, Bool.and_eq_true, Bool.not_eq_true', Bool.or_eq_false_iff] at hok
    rw [exprL] at ht
    simp only [List.cons_append, List.append_assoc] at ht
    obtain ⟨u1, h1, rfl⟩ := rawText_sql_inv ht
    obtain ⟨x, u2, hx, h2, rfl⟩ := rawText_append_inv h1
    rw [rawText_op] at h2
    obtain ⟨u3, h3, rfl⟩ := rawText_sql_inv h2
    obtain ⟨y, u4, hy, h4, rfl⟩ := rawText_append_inv h3
    obtain ⟨u5, h5, rfl⟩ := rawText_sql_inv h4
    cases h5
    refine ⟨hok.1.1.1, hok.1.1.2, hok.1.2, x, y, (expr_string _ _).2 ⟨hok.2.1, hx⟩,
      (expr_string _ _).2 ⟨hok.2.2, hy⟩, by simp [comparisonText, paren]⟩
  · rintro ⟨h1, h2, h3, x, y, hx, hy, rfl⟩
    obtain ⟨ox, hx⟩ := (expr_string _ _).1 hx
    obtain ⟨oy, hy⟩ := (expr_string _ _).1 hy
    refine (expr_string _ _).2 ⟨by simp [okE, blank, *], ?_⟩
    rw [exprL]
    simp only [List.cons_append, List.append_assoc]
    refine (rawText_sql_ok (rawText_append_ok hx ((rawText_op ..).trans
      (rawText_sql_ok (rawText_append_ok hy (rawText_sql_ok rfl)))))).trans ?_
    simp [comparisonText, paren]

/-- The text of an operand in a position with parentheses. -/
theorem wrapper_string (e : Expr) (u : Str) :
    (newWrapper e).write.string = .ok u ↔
      ∃ r, e.write.string = .ok r ∧ u = operandOf true e r := by
  simp only [expr_string, okE_wrapper, rawText_wrapper, operandOf, Bool.true_and]
  constructor
  · rintro ⟨h, r, hr, rfl⟩; exact ⟨r, ⟨h, hr⟩, rfl⟩
  · rintro ⟨r, ⟨h, hr⟩, rfl⟩; exact ⟨h, r, hr, rfl⟩

/-! ## Query texts -/

theorem query_denotes {w : W} {ok : Bool} {l : List Piece} (h : Denotes w ok (evs l)) (t : Str)
    (vs : List Val) :
    w.query = .ok (t, vs) ↔ ok = true ∧ t = render dollar 1 l ∧ vs = arguments l := by
  cases ok with
  | true =>
    rw [W.query, h.1 rfl _ _ stdContext_additive, run_std]
    simp only [List.nil_append, List.length_nil, Except.ok.injEq, Prod.mk.injEq, true_and]
    exact ⟨fun h => ⟨h.1.symm, h.2.symm⟩, fun h => ⟨h.1.symm, h.2.symm⟩⟩
  | false =>
    obtain ⟨p, es, hl⟩ := h.2 rfl
    obtain ⟨s', hs'⟩ := run_std_total es ⟨[], []⟩
    rw [W.query, hl _ _ stdContext_additive, hs']
    simp

theorem expr_query_iff (e : Expr) (t : Str) (vs : List Val) :
    e.write.query = .ok (t, vs) ↔
      okE e = true ∧ t = render dollar 1 (exprL e) ∧ vs = arguments (exprL e) :=
  query_denotes (denotes_expr e) t vs

theorem expr_namedQuery (e : Expr) (h : okE e = true) :
    e.write.namedQuery = .ok (render colon 1 (exprL e), Spec.namedArgs (arguments (exprL e))) := by
  rw [W.namedQuery, (denotes_expr e).1 h _ _ namedContext_additive]
  have := run_named (exprL e) [] []
  simp only [namedMap, List.isEmpty_nil, if_true] at this
  rw [this]; simp [← namedMap_eq, namedMap]

theorem arguments_ident (i : Ident) : arguments (exprL (.ident i)) = [] := by
  rw [exprL]; cases i <;> rfl

theorem render_ident (ph : Nat → Val → Str) (k j : Nat) (i : Ident) :
    render ph k (exprL (.ident i)) = render ph j (exprL (.ident i)) := by
  rw [exprL]; cases i <;> rfl

theorem render_newWrapper (ph : Nat → Val → Str) (k : Nat) (e : Expr) :
    render ph k (exprL (newWrapper e)) = operandOf true e (render ph k (exprL e)) := by
  rw [newWrapper_eq, operandOf]
  cases h : isSub e
  · rfl
  · simp [exprL, render_sql, render_append, render_nil, paren]

theorem arguments_newWrapper (e : Expr) :
    arguments (exprL (newWrapper e)) = arguments (exprL e) := by
  rw [newWrapper_eq]
  split
  · simp [exprL, arguments_append, arguments]
  · rfl

/-! ## Comparisons -/

theorem okE_infx (l : Expr) (op : Op) (r : Expr) :
    okE (.infx l op r) = true ↔
      (blank l = false ∧ opBlank op = false ∧ blank r = false) ∧ okE l = true ∧ okE r = true := by
  simp [okE, blank, and_assoc]

/-- What one comparison does, whichever method built it. -/
theorem compare_string {left : Expr} {op : Str} {wraps : Bool} {a : Any} {e : Expr} {t : Str}
    (h : (if wraps then compareWrapped left op a else comparePlain left op a) = .ok e)
    (ht : e.write.string = .ok t) :
    ∃ x l r, newExpression a = .ok x ∧ left.write.string = .ok l ∧ x.write.string = .ok r ∧
      t = comparisonText l op (operandOf wraps x r) := by
  cases wraps with
  | false =>
    simp only [Bool.false_eq_true, if_false, comparePlain] at h
    cases hx : newExpression a with
    | error p => rw [hx] at h; cases h
    | ok x =>
      rw [hx] at h; cases h
      obtain ⟨-, -, -, l, r, hl, hr, rfl⟩ := (infx_string _ _ _ _).1 ht
      exact ⟨x, l, r, rfl, hl, hr, rfl⟩
  | true =>
    simp only [if_true, compareWrapped, newWrapped] at h
    cases hx : newExpression a with
    | error p => rw [hx] at h; cases h
    | ok x =>
      rw [hx] at h; cases h
      obtain ⟨-, -, -, l, r', hl, hr', rfl⟩ := (infx_string _ _ _ _).1 ht
      obtain ⟨r, hr, rfl⟩ := (wrapper_string _ _).1 hr'
      exact ⟨x, l, r, rfl, hl, hr, rfl⟩

/-- The same for `Query`, when the left operand binds nothing. -/
theorem compare_query {i : Ident} {op : Str} {wraps : Bool} {a : Any} {e : Expr} {t : Str}
    {vs : List Val}
    (h : (if wraps then compareWrapped (.ident i) op a else comparePlain (.ident i) op a) = .ok e)
    (ht : e.write.query = .ok (t, vs)) :
    ∃ x l r, newExpression a = .ok x ∧ (Expr.ident i).write.query = .ok (l, []) ∧
      x.write.query = .ok (r, vs) ∧ t = comparisonText l op (operandOf wraps x r) := by
  obtain ⟨hok, rfl, rfl⟩ := (expr_query_iff _ _ _).1 ht
  have key : ∀ x : Expr, okE x = true → x.write.query = .ok (render dollar 1 (exprL x), arguments (exprL x)) :=
    fun x hx => expr_query x hx
  have hleft : (Expr.ident i).write.query = .ok (render dollar 1 (exprL (.ident i)), []) := by
    rw [expr_query _ (by simp [okE]), arguments_ident]
  cases wraps with
  | false =>
    simp only [Bool.false_eq_true, if_false, comparePlain] at h
    cases hx : newExpression a with
    | error p => rw [hx] at h; cases h
    | ok x =>
      rw [hx] at h; cases h
      obtain ⟨-, -, hx⟩ := (okE_infx _ _ _).1 hok
      refine ⟨x, _, render dollar 1 (exprL x), rfl, hleft, ?_, ?_⟩
      · rw [key x hx, arguments_infx, arguments_ident]; rfl
      · rw [render_infx, arguments_ident]
        simp [comparisonText, paren, opL, operandOf]
  | true =>
    simp only [if_true, compareWrapped, newWrapped] at h
    cases hx : newExpression a with
    | error p => rw [hx] at h; cases h
    | ok x =>
      rw [hx] at h; cases h
      obtain ⟨-, -, hx⟩ := (okE_infx _ _ _).1 hok
      rw [okE_wrapper] at hx
      refine ⟨x, _, render dollar 1 (exprL x), rfl, hleft, ?_, ?_⟩
      · rw [key x hx, arguments_infx, arguments_ident, arguments_newWrapper]; rfl
      · rw [render_infx, arguments_ident, render_newWrapper]
        simp [comparisonText, paren, opL]

/-- A comparison of a name and a plain value. -/
theorem compare_value {n : Str} {op : Str} {wraps : Bool} {v : Val} (hn : n ≠ []) (hop : op ≠ [])
    (hv : v.accepted = true) :
    ∃ e, (if wraps then compareWrapped (.ident (.str n)) op (.val v)
        else comparePlain (.ident (.str n)) op (.val v)) = .ok e ∧
      okE e = true ∧
      (∀ ph k, render ph k (exprL e) =
        comparisonText (quote n) op (render ph k [.val v])) ∧
      arguments (exprL e) = arguments [.val v] := by
  have hx : newExpression (.val v) = .ok (.value v) := by
    cases v <;> simp_all [newExpression, Any.isNil, Any.asExpr]
  refine ⟨.infx (.ident (.str n)) (.comparison op) (.value v), ?_, ?_, ?_, ?_⟩
  · cases wraps <;> simp [compareWrapped, comparePlain, newWrapped, hx, newWrapper]
  · simp [okE, blank, identBlank, opBlank, hn, hop]
  · intro ph k
    rw [render_infx, arguments_ident]
    simp [exprL, identL, render_name, render_nil, comparisonText, paren, opL]
  · rw [arguments_infx, arguments_ident]; simp [exprL]

/-! ## IN and BETWEEN -/

theorem inx_string (l : Expr) (op : Str) (v : Expr) (t : Str) :
    (Expr.inx l op v).write.string = .ok t →
      ∃ x y, l.write.string = .ok x ∧ (blank v = true ∧ y = [] ∨ v.write.string = .ok y) ∧
        t = comparisonText x op (paren y) := by
  intro h
  obtain ⟨hok, ht⟩ := (expr_string _ _).1 h
  simp only [okE, Bool.and_eq_true] at hok
  rw [exprL] at ht
  simp only [List.cons_append, List.append_assoc] at ht
  obtain ⟨u1, h1, rfl⟩ := rawText_sql_inv ht
  obtain ⟨x, u2, hx, h2, rfl⟩ := rawText_append_inv h1
  rw [rawText_op] at h2
  obtain ⟨u3, h3, rfl⟩ := rawText_sql_inv h2
  obtain ⟨y, u4, hy, h4, rfl⟩ := rawText_append_inv h3
  obtain ⟨u5, h5, rfl⟩ := rawText_sql_inv h4
  cases h5
  refine ⟨x, y, (expr_string _ _).2 ⟨hok.2.1, hx⟩, ?_, by simp [comparisonText, paren]⟩
  cases hb : blank v with
  | true => rw [hb, if_pos rfl] at hy; cases hy; exact .inl ⟨rfl, rfl⟩
  | false =>
    rw [hb, if_neg (by simp)] at hy
    refine .inr ((expr_string _ _).2 ⟨?_, hy⟩)
    have := hok.2.2
    unfold okIf at this
    cases he : v.isEmpty with
    | error p => rw [he] at this; cases this
    | ok b =>
      rw [he] at this
      have hb' := isEmpty_ok v he
      rw [hb] at hb'; subst hb'
      exact this

theorem between_string (i : Ident) (op : Str) (lo : Expr) (and : Str) (hi : Expr) (t : Str) :
    (Expr.between i op lo and hi).write.string = .ok t →
      ∃ x y z, (Expr.ident i).write.string = .ok x ∧ lo.write.string = .ok y ∧
        hi.write.string = .ok z ∧
        t = paren (x ++ s%" " ++ op ++ s%" " ++ y ++ s%" " ++ and ++ s%" " ++ z) := by
  intro h
  obtain ⟨hok, ht⟩ := (expr_string _ _).1 h
  simp only [okE, Bool.and_eq_true] at hok
  rw [exprL] at ht
  simp only [List.cons_append, List.append_assoc] at ht
  obtain ⟨u1, h1, rfl⟩ := rawText_sql_inv ht
  obtain ⟨x, u2, hx, h2, rfl⟩ := rawText_append_inv h1
  rw [rawText_op] at h2
  obtain ⟨u3, h3, rfl⟩ := rawText_sql_inv h2
  obtain ⟨y, u4, hy, h4, rfl⟩ := rawText_append_inv h3
  rw [rawText_op] at h4
  obtain ⟨u5, h5, rfl⟩ := rawText_sql_inv h4
  obtain ⟨z, u6, hz, h6, rfl⟩ := rawText_append_inv h5
  obtain ⟨u7, h7, rfl⟩ := rawText_sql_inv h6
  cases h7
  refine ⟨x, y, z, (expr_string _ _).2 ⟨rfl, by rw [exprL]; exact hx⟩,
    (expr_string _ _).2 ⟨hok.2.1, hy⟩, (expr_string _ _).2 ⟨hok.2.2, hz⟩, by simp [paren]⟩

theorem exprsL_map (es : List Expr) : exprsL es = es.map exprL := by
  induction es with
  | nil => rfl
  | cons e es ih => rw [exprsL, ih, List.map_cons]

theorem okEs_all (es : List Expr) : okEs es = true ↔ ∀ e ∈ es, okE e = true := by
  induction es with
  | nil => simp [okEs]
  | cons e es ih => simp [okEs, ih]

/-- The text of a list of expressions. -/
theorem array_string (es : List Expr) (t : Str) :
    (Expr.array es).write.string = .ok t ↔
      ∃ ts : List Str, es.map (fun e => e.write.string) = ts.map .ok ∧ t = commaText ts := by
  rw [expr_string, okE, exprL, rawText_commaSep, exprsL_map, okEs_all, List.map_map]
  have key : ∀ ts : List Str, ((∀ e ∈ es, okE e = true) ∧ es.map (rawText ∘ exprL) = ts.map .ok) ↔
      es.map (fun e => e.write.string) = ts.map .ok := by
    intro ts
    induction es generalizing ts with
    | nil => simp
    | cons e es ih =>
      cases ts with
      | nil => simp
      | cons u us =>
        simp only [List.map_cons, List.cons.injEq, List.mem_cons, forall_eq_or_imp, expr_string,
          Function.comp]
        rw [← ih us]
        constructor
        · rintro ⟨⟨h1, h2⟩, h3, h4⟩; exact ⟨⟨h1, h3⟩, h2, h4⟩
        · rintro ⟨⟨h1, h3⟩, h2, h4⟩; exact ⟨⟨h1, h2⟩, h3, h4⟩
  constructor
  · rintro ⟨h, ts, hts, rfl⟩; exact ⟨ts, (key ts).1 ⟨h, hts⟩, rfl⟩
  · rintro ⟨ts, hts, rfl⟩
    obtain ⟨h1, h2⟩ := (key ts).2 hts
    exact ⟨h1, ts, h2, rfl⟩

/-! ### Lists of plain values -/

theorem newExpression_val {v : Val} (hv : v.accepted = true) :
    newExpression (.val v) = .ok (.value v) := by
  cases v <;> simp_all [newExpression, Any.isNil, Any.asExpr]

theorem appendAll_vals {vs : List Val} (h : ∀ v ∈ vs, v.accepted = true) :
    appendAll (vs.map .val) = .ok (vs.map .value) := by
  induction vs with
  | nil => rfl
  | cons v vs ih =>
    rw [List.map_cons, appendAll, newExpression_val (h v (by simp)),
      ih (fun w hw => h w (List.mem_cons_of_mem _ hw))]
    rfl

theorem arguments_vals (vs : List Val) :
    arguments (commaSep ((vs.map Expr.value).map exprL)) = nonNil vs := by
  induction vs with
  | nil => rfl
  | cons v vs ih =>
    cases vs with
    | nil => rw [List.map_cons, List.map_cons, exprL]; cases v <;> rfl
    | cons w vs =>
      simp only [List.map_cons] at ih
      simp only [List.map_cons, commaSep, arguments_append, arguments_sql, ih]
      rw [exprL]
      cases v <;> rfl

theorem render_vals (k : Nat) (vs : List Val) :
    render dollar k (commaSep ((vs.map Expr.value).map exprL)) = commaText (marks k vs) := by
  have one : ∀ k v, render dollar k (exprL (.value v)) = commaText (marks k [v]) := by
    intro k v
    rw [exprL]
    cases v <;> simp [render, marks, commaText, dollar, List.intercalate, numeral, formatNat]
  have hne : ∀ k (w : Val) vs, marks k (w :: vs) ≠ [] := by
    intro k w vs; cases w <;> simp [marks]
  have step : ∀ a l, l ≠ [] → commaText (a :: l) = a ++ s%", " ++ commaText l := by
    intro a l hl
    cases l with
    | nil => exact absurd rfl hl
    | cons b l => exact intercalate_cons2 _ _ _ _
  induction vs generalizing k with
  | nil => rfl
  | cons v vs ih =>
    cases vs with
    | nil => exact one k v
    | cons w vs =>
      simp only [List.map_cons] at ih
      simp only [List.map_cons, commaSep, render_append, render_sql, ih]
      rw [one]
      have split : marks k (v :: w :: vs)
          = commaText (marks k [v]) :: marks (k + (arguments (exprL (.value v))).length) (w :: vs) := by
        rw [exprL]
        cases v <;> simp [marks, arguments, commaText, List.intercalate]
      rw [split, step _ _ (hne _ _ _)]
      simp

end

end Verif
