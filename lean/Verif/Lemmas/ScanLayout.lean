import Verif.Lemmas.Scan

/-!
# Scanning layouts: by recursion on the statement
-/

set_option linter.unusedSectionVars false

namespace Verif
open Spec

section
variable [GoRuntime]
variable {b : Bool} {ph : Nat → Val → Str} {mark : Nat → List Str}

theorem scan_formatNat (n d : Nat) (fs : List Str) :
    scan b ⟨.free, d, fs⟩ (formatNat n) = ⟨.word, d, fs⟩ := by
  have h : ∀ c ∈ formatNat n, isDigit c = true := fun c hc => digit_of_mem_formatNat hc
  cases hs : formatNat n with
  | nil => exact absurd hs (formatNat_ne_nil n)
  | cons c s =>
    rw [hs] at h
    rw [scan_cons]
    show scan b (Scan.start _ c) s = _
    rw [start_digit (h c List.mem_cons_self)]
    exact scan_digits fun x hx => h x (List.mem_cons_of_mem _ hx)

theorem scan_formatInt (n : Int) (d : Nat) (fs : List Str) :
    scan b ⟨.free, d, fs⟩ (formatInt n) = ⟨.word, d, fs⟩ := by
  cases n with
  | ofNat m => exact scan_formatNat m d fs
  | negSucc m =>
    simp only [formatInt]
    have h : ∀ c ∈ formatNat (m + 1), isDigit c = true := fun c hc => digit_of_mem_formatNat hc
    rw [scan_cons, show Scan.step b ⟨.free, d, fs⟩ '-' = ⟨.dash, d, fs⟩ from rfl]
    cases hs : formatNat (m + 1) with
    | nil => exact absurd hs (formatNat_ne_nil _)
    | cons c s =>
      rw [hs] at h
      rw [scan_cons]
      have hc := h c List.mem_cons_self
      have hne : c ≠ '-' := by rintro rfl; cases hc
      have : Scan.step b ⟨.dash, d, fs⟩ c = ⟨.word, d, fs⟩ := by
        show (if c = '-' then _ else Scan.start _ c) = _
        rw [if_neg hne, start_digit hc]
      rw [this]
      exact scan_digits fun x hx => h x (List.mem_cons_of_mem _ hx)

theorem closed_limit (n : Int) : SelfContained b (s%"LIMIT " ++ formatInt n) := by
  unfold SelfContained ClosedWith
  rw [scan_append, show scan b .init s%"LIMIT " = ⟨.free, 0, []⟩ from by cases b <;> rfl,
    scan_formatInt]
  rfl

theorem closed_offset (n : Int) : SelfContained b (s%"OFFSET " ++ formatInt n) := by
  unfold SelfContained ClosedWith
  rw [scan_append, show scan b .init s%"OFFSET " = ⟨.free, 0, []⟩ from by cases b <;> rfl,
    scan_formatInt]
  rfl

theorem runs_ident {i : Ident} (h : AllGood b ph mark (identL i)) :
    Runs b ph mark 0 0 (identL i) := by
  cases i with
  | str s => exact runs_name (allGood_cons.1 h).1.1
  | raw s => exact runs_raw (allGood_cons.1 h).1.1
  | other => exact runs_nil 0

/-- `(left op right)` -/
theorem runs_parenInfix {l r : List Piece} {op : Str}
    (hl : AllGood b ph mark l → Runs b ph mark 0 0 l)
    (hr : AllGood b ph mark r → Runs b ph mark 0 0 r)
    (h : AllGood b ph mark
      (.sql s%"(" :: l ++ .sql s%" " :: .raw op :: .sql s%" " :: r ++ [.sql s%")"])) :
    Runs b ph mark 0 0
      (.sql s%"(" :: l ++ .sql s%" " :: .raw op :: .sql s%" " :: r ++ [.sql s%")"]) := by
  rw [allGood_append, allGood_append, allGood_cons] at h
  obtain ⟨⟨⟨-, h1⟩, h2⟩, -⟩ := h
  rw [allGood_cons, allGood_cons, allGood_cons] at h2
  have := runs_infix (hl h1) h2.2.1.1 (hr h2.2.2.2)
  have := runs_paren (o := s%"(") (fun _ _ => rfl) this
  simpa [List.append_assoc] using this

mutual

theorem runs_expr (e : Expr) (h : AllGood b ph mark (exprL e)) : Runs b ph mark 0 0 (exprL e) := by
  match e with
  | .nil => exact runs_nil 0
  | .ident i => exact runs_ident h
  | .value v => exact runs_val ((allGood_cons.1 h).1.2 v rfl)
  | .arrayList l =>
    rw [exprL] at h ⊢
    exact runs_commaSep fun a ha => runs_rows l a ha (allGood_commaSep h a ha)
  | .array l =>
    rw [exprL] at h ⊢
    exact runs_commaSep fun a ha => runs_exprs l a ha (allGood_commaSep h a ha)
  | .raw s => exact runs_raw (allGood_cons.1 h).1.1
  | .wrapper e =>
    rw [exprL, List.cons_append, allGood_cons, allGood_append] at h
    rw [exprL]
    exact runs_paren (fun _ _ => rfl) (runs_expr e h.2.1)
  | .call f args =>
    rw [exprL, List.cons_append, List.cons_append, allGood_cons, allGood_cons, allGood_append] at h
    rw [exprL]
    have := runs_paren (b := b) (ph := ph) (mark := mark) (o := s%"(") (fun _ _ => rfl)
      (runs_commaSep fun a ha => runs_exprs args a ha (allGood_commaSep h.2.2.1 a ha))
    exact runs_append (a := [.raw f]) (runs_raw h.1.1) rfl this
  | .infx l op r =>
    rw [exprL] at h ⊢
    exact runs_parenInfix (runs_expr l) (runs_expr r) h
  | .inx e op v =>
    rw [exprL, List.cons_append, List.cons_append, allGood_cons, List.append_assoc,
      allGood_append] at h
    simp only [List.cons_append] at h
    rw [allGood_cons, allGood_cons, allGood_cons, allGood_append] at h
    obtain ⟨-, h1, -, h2, -, h3, -⟩ := h
    have hv : Runs b ph mark 0 0 (if blank v = true then [] else exprL v) := by
      split
      · exact runs_nil 0
      · rename_i hb
        rw [if_neg hb] at h3
        exact runs_expr v h3
    rw [exprL]
    simp only [List.cons_append, List.append_assoc]
    refine runs_sql (d1 := 1) (fun _ _ => rfl) ?_
    refine runs_append (runs_add (runs_expr e h1) 1) rfl (runs_sql (d1 := 1) (fun _ _ => rfl) ?_)
    refine runs_append (a := [.raw op]) (runs_add (runs_raw h2.1) 1) rfl
      (runs_sql (d1 := 2) (fun _ _ => rfl) ?_)
    exact runs_append (runs_add hv 2) rfl (runs_sql (d1 := 0) (fun _ _ => rfl) (runs_nil 0))
  | .between i op lo and hi =>
    rw [exprL] at h ⊢
    simp only [List.cons_append, List.append_assoc, allGood_cons, allGood_append] at h
    obtain ⟨-, h1, -, h2, -, h3, -, h4, -, h5, -⟩ := h
    have := runs_infix (runs_ident h1) h2.1 (runs_infix (runs_expr lo h3) h4.1 (runs_expr hi h5))
    have := runs_paren (o := s%"(") (fun _ _ => rfl) this
    simpa [List.append_assoc] using this
  | .exist e =>
    rw [exprL, List.cons_append, allGood_cons, allGood_append] at h
    rw [exprL]
    exact runs_paren (fun _ _ => rfl) (runs_expr e h.2.1)
  | .notExist e =>
    rw [exprL, List.cons_append, allGood_cons, allGood_append] at h
    rw [exprL]
    exact runs_paren (fun _ _ => rfl) (runs_expr e h.2.1)
  | .select s =>
    rw [exprL] at h ⊢
    exact runs_select s h
  | .onClause l r =>
    rw [exprL, allGood_append, allGood_cons] at h
    rw [exprL]
    exact runs_append (runs_column h.1) rfl (runs_sql (fun _ _ => rfl) (runs_column h.2.2))
  | .infixOn l op r =>
    rw [exprL] at h ⊢
    exact runs_parenInfix (runs_expr l) (runs_expr r) h

theorem runs_exprs (l : List Expr) :
    ∀ a ∈ exprsL l, AllGood b ph mark a → Runs b ph mark 0 0 a := by
  match l with
  | [] => simp [exprsL]
  | e :: l =>
    intro a ha h
    rw [exprsL] at ha
    rcases List.mem_cons.1 ha with rfl | ha
    · exact runs_expr e h
    · exact runs_exprs l a ha h

theorem runs_rows (l : List Expr) :
    ∀ a ∈ rowsL l, AllGood b ph mark a → Runs b ph mark 0 0 a := by
  match l with
  | [] => simp [rowsL]
  | e :: l =>
    intro a ha h
    rw [rowsL] at ha
    rcases List.mem_cons.1 ha with rfl | ha
    · rw [List.cons_append, allGood_cons, allGood_append] at h
      exact runs_paren (fun _ _ => rfl) (runs_expr e h.2.1)
    · exact runs_rows l a ha h

theorem runs_selExpr (e : SelExpr) (h : AllGood b ph mark (selExprL e)) :
    Runs b ph mark 0 0 (selExprL e) := by
  match e with
  | .nil => exact runs_nil 0
  | .column c => exact runs_column h
  | .raw s => exact runs_raw (allGood_cons.1 h).1.1
  | .count v distinct alias =>
    rw [selExprL] at h ⊢
    cases distinct with
    | true =>
      simp only [if_true, List.cons_append, List.nil_append, allGood_cons] at h ⊢
      refine runs_sql (d1 := 1) (fun _ _ => rfl) ?_
      refine runs_sql (d1 := 1) (fun _ _ => rfl) ?_
      exact runs_argument h.2.2.1.1 h.2.2.2.2
    | false =>
      simp only [Bool.false_eq_true, if_false, List.cons_append, List.nil_append,
        allGood_cons] at h ⊢
      exact runs_aggregate (fun _ _ => rfl) h.2.1.1 h.2.2.2
  | .max v alias =>
    rw [selExprL] at h ⊢
    simp only [allGood_cons] at h
    exact runs_aggregate (fun _ _ => rfl) h.2.1.1 h.2.2.2
  | .min v alias =>
    rw [selExprL] at h ⊢
    simp only [allGood_cons] at h
    exact runs_aggregate (fun _ _ => rfl) h.2.1.1 h.2.2.2
  | .sum v alias =>
    rw [selExprL] at h ⊢
    simp only [allGood_cons] at h
    exact runs_aggregate (fun _ _ => rfl) h.2.1.1 h.2.2.2
  | .exist e =>
    rw [selExprL, List.cons_append, allGood_cons, allGood_append] at h
    rw [selExprL]
    exact runs_paren (fun _ _ => rfl) (runs_expr e h.2.1)
  | .notExist e =>
    rw [selExprL, List.cons_append, allGood_cons, allGood_append] at h
    rw [selExprL]
    exact runs_paren (fun _ _ => rfl) (runs_expr e h.2.1)

theorem runs_selExprs (l : List SelExpr) :
    ∀ a ∈ selExprsL l, AllGood b ph mark a → Runs b ph mark 0 0 a := by
  match l with
  | [] => simp [selExprsL]
  | e :: l =>
    intro a ha h
    rw [selExprsL] at ha
    rcases List.mem_cons.1 ha with rfl | ha
    · exact runs_selExpr e h
    · exact runs_selExprs l a ha h

theorem runs_join (j : Join) (h : AllGood b ph mark (joinL j)) :
    Runs b ph mark 0 0 (joinL j) := by
  match j with
  | ⟨type, table, cond⟩ =>
    rw [joinL] at h ⊢
    simp only [List.cons_append, allGood_cons, allGood_append] at h
    exact runs_append (a := [.raw type]) (runs_raw h.1.1) rfl (runs_sql (fun _ _ => rfl)
      (runs_append (runs_table h.2.2.1) rfl (runs_sql (fun _ _ => rfl)
        (runs_expr cond h.2.2.2.2))))

theorem runs_joins (l : List Join) : ∀ o ∈ joinsL l, Fine b ph mark o := by
  match l with
  | [] => simp [joinsL]
  | j :: l =>
    intro o ho
    rw [joinsL] at ho
    rcases List.mem_cons.1 ho with rfl | ho
    · exact fine_some (runs_join j)
    · exact runs_joins l o ho

theorem runs_with (w : WithQuery) (h : AllGood b ph mark (withL w)) :
    Runs b ph mark 0 0 (withL w) := by
  match w with
  | ⟨name, sub⟩ =>
    rw [withL] at h ⊢
    split
    · exact runs_nil 0
    · rename_i hb
      rw [if_neg hb] at h
      simp only [List.cons_append, allGood_cons, allGood_append] at h
      exact runs_append (a := [.raw name]) (runs_raw h.1.1) rfl
        (runs_paren (fun _ _ => rfl) (runs_expr sub h.2.2.1))

theorem runs_withs (l : List WithQuery) :
    ∀ a ∈ withsL l, AllGood b ph mark a → Runs b ph mark 0 0 a := by
  match l with
  | [] => simp [withsL]
  | w :: l =>
    intro a ha h
    rw [withsL] at ha
    rcases List.mem_cons.1 ha with rfl | ha
    · exact runs_with w h
    · exact runs_withs l a ha h

theorem runs_select (s : SelectStmt) (h : AllGood b ph mark (selectL s)) :
    Runs b ph mark 0 0 (selectL s) := by
  match s with
  | ⟨pfx, withs, distinct, distinctOn, exprs, tables, joins, whr, groupBy, having, orderBy,
      limit, offset, sfx, comment⟩ =>
    rw [selectL, allGood_append] at h
    rw [selectL]
    refine runs_comment comment (runs_fine ?_ h.1)
    intro o ho
    rw [List.mem_append, List.mem_append] at ho
    rcases ho with (ho | ho) | ho
    · simp only [List.mem_cons, List.not_mem_nil, or_false] at ho
      rcases ho with rfl | rfl | rfl | rfl | rfl | rfl | rfl
      · exact fine_clause fun h => runs_raw (allGood_cons.1 h).1.1
      · exact fine_clause fun h => runs_keyword (fun _ _ => rfl)
          (runs_commaSep fun a ha =>
            runs_withs withs a ha (allGood_commaSep (allGood_cons.1 h).2 a ha))
      · exact fine_some fun _ => runs_text (by cases b <;> rfl)
      · refine fine_clause fun h => runs_paren (fun _ _ => rfl) ?_
        rw [List.cons_append, allGood_cons, allGood_append] at h
        exact runs_map (fun _ => runs_column) h.2.1
      · exact fine_clause fun _ => runs_text (by cases b <;> rfl)
      · exact fine_some fun h => runs_commaSep fun a ha =>
          runs_selExprs exprs a ha (allGood_commaSep h a ha)
      · exact fine_clause runs_from
    · exact runs_joins joins o ho
    · simp only [List.mem_cons, List.not_mem_nil, or_false] at ho
      rcases ho with rfl | rfl | rfl | rfl | rfl | rfl | rfl
      · exact fine_clause fun h => runs_keyword (fun _ _ => rfl) (runs_expr whr (allGood_cons.1 h).2)
      · exact fine_clause fun h => runs_keyword (fun _ _ => rfl)
          (runs_map (fun _ => runs_column) (allGood_cons.1 h).2)
      · exact fine_clause fun h => runs_keyword (fun _ _ => rfl)
          (runs_expr having (allGood_cons.1 h).2)
      · exact fine_clause fun h => runs_keyword (fun _ _ => rfl)
          (runs_map (fun _ => runs_order) (allGood_cons.1 h).2)
      · exact fine_clause fun _ => runs_text (closed_limit limit)
      · exact fine_clause fun _ => runs_text (closed_offset offset)
      · exact fine_clause fun h => runs_raw (allGood_cons.1 h).1.1

end

theorem runs_assign {ce : Column × Expr} (h : AllGood b ph mark (assignL ce)) :
    Runs b ph mark 0 0 (assignL ce) := by
  unfold assignL at *
  rw [allGood_append, allGood_cons] at h
  exact runs_append (runs_column h.1) rfl (runs_sql (fun _ _ => rfl) (runs_expr _ h.2.2))

theorem runs_set {p : PairContainer} (h : AllGood b ph mark (setL p)) :
    Runs b ph mark 0 0 (setL p) := by
  unfold setL at *
  rw [allGood_cons] at h
  replace h := h.2
  refine runs_keyword (fun _ _ => rfl) ?_
  cases hm : p.mode with
  | unknown => exact runs_nil 0
  | associative =>
    rw [hm] at h
    exact runs_map (fun _ => runs_assign) h
  | array =>
    rw [hm] at h
    simp only [List.cons_append, List.append_assoc, allGood_cons, allGood_append] at h
    simp only [List.cons_append, List.append_assoc]
    refine runs_sql (d1 := 1) (fun _ _ => rfl) ?_
    refine runs_append (runs_add (runs_map (fun _ => runs_column) h.2.1) 1) rfl
      (runs_sql (d1 := 1) (fun _ _ => rfl) ?_)
    refine runs_append (runs_add (runs_commaSep fun a ha =>
      runs_exprs p.expressions a ha (allGood_commaSep h.2.2.2.1 a ha)) 1) rfl
      (runs_sql (d1 := 0) (fun _ _ => rfl) (runs_nil 0))

theorem runs_action {a : ConflictAction} (h : AllGood b ph mark (actionL a)) :
    Runs b ph mark 0 0 (actionL a) := by
  cases a with
  | nil => exact runs_nil 0
  | nothing => exact runs_text (by cases b <;> rfl)
  | update set => exact runs_keyword (fun _ _ => rfl) (runs_set (allGood_cons.1 h).2)

theorem runs_conflict {target : List Column} {a : ConflictAction}
    (h : AllGood b ph mark (conflictL target a)) :
    Runs b ph mark 0 0 (conflictL target a) := by
  unfold conflictL at *
  rw [List.cons_append, allGood_cons, allGood_append] at h
  rw [List.cons_append]
  refine runs_keyword (fun _ _ => rfl) ?_
  split
  · exact runs_action h.2.2
  · rename_i ht
    rw [if_neg ht, List.cons_append, allGood_cons, allGood_append] at h
    simp only [List.cons_append, List.append_assoc, List.nil_append]
    refine runs_sql (d1 := 1) (fun _ _ => rfl) ?_
    exact runs_append (runs_add (runs_map (fun _ => runs_column) h.2.1.2.1) 1) rfl
      (runs_sql (d1 := 0) (fun _ _ => rfl) (runs_action h.2.2))

theorem runs_returning {es : List SelExpr} (h : AllGood b ph mark (returningL es)) :
    Runs b ph mark 0 0 (returningL es) :=
  runs_keyword (fun _ _ => rfl) (runs_commaSep fun a ha =>
    runs_selExprs es a ha (allGood_commaSep (allGood_cons.1 h).2 a ha))

theorem runs_layout (s : Stmt) (h : AllGood b ph mark (layout s)) :
    Runs b ph mark 0 0 (layout s) := by
  cases s with
  | select s => exact runs_select s h
  | insert i =>
    simp only [layout, insertL] at h ⊢
    rw [allGood_append] at h
    refine runs_comment _ (runs_fine ?_ h.1)
    intro o ho
    simp only [List.mem_cons, List.not_mem_nil, or_false] at ho
    rcases ho with rfl | rfl | rfl | rfl | rfl
    · exact fine_some fun h => runs_keyword (fun _ _ => rfl) (runs_table (allGood_cons.1 h).2)
    · refine fine_clause fun h => runs_paren (fun _ _ => rfl) ?_
      rw [List.cons_append, allGood_cons, allGood_append] at h
      exact runs_map (fun _ => runs_column) h.2.1
    · exact fine_clause fun h => runs_keyword (fun _ _ => rfl) (runs_expr _ (allGood_cons.1 h).2)
    · exact fine_clause runs_conflict
    · exact fine_clause runs_returning
  | update u =>
    simp only [layout, updateL] at h ⊢
    rw [allGood_append] at h
    refine runs_comment _ (runs_fine ?_ h.1)
    intro o ho
    simp only [List.mem_cons, List.not_mem_nil, or_false] at ho
    rcases ho with rfl | rfl | rfl | rfl | rfl | rfl | rfl | rfl
    · exact fine_clause fun h => runs_keyword (fun _ _ => rfl)
        (runs_commaSep fun a ha =>
          runs_withs _ a ha (allGood_commaSep (allGood_cons.1 h).2 a ha))
    · exact fine_some fun _ => runs_text (by cases b <;> rfl)
    · exact fine_clause fun _ => runs_text (by cases b <;> rfl)
    · exact fine_some runs_table
    · exact fine_some runs_set
    · exact fine_clause runs_from
    · exact fine_clause fun h => runs_keyword (fun _ _ => rfl) (runs_expr _ (allGood_cons.1 h).2)
    · exact fine_clause runs_returning
  | delete d =>
    simp only [layout, deleteL] at h ⊢
    rw [allGood_append] at h
    refine runs_comment _ (runs_fine ?_ h.1)
    intro o ho
    simp only [List.mem_cons, List.not_mem_nil, or_false] at ho
    rcases ho with rfl | rfl | rfl | rfl | rfl
    · exact fine_some fun _ => runs_text (by cases b <;> rfl)
    · exact fine_some runs_from
    · exact fine_clause fun h => runs_keyword (fun _ _ => rfl)
        (runs_map (fun _ => runs_table) (allGood_cons.1 h).2)
    · exact fine_clause fun h => runs_keyword (fun _ _ => rfl) (runs_expr _ (allGood_cons.1 h).2)
    · exact fine_clause runs_returning

/-- A good layout is closed, and the placeholders in it are those of its values. -/
theorem closed_layout (s : Stmt) (h : AllGood b ph mark (layout s)) (hn : NoNote (layout s))
    (k : Nat) :
    ClosedWith b (render ph k (layout s))
      ((List.range' k (arguments (layout s)).length).flatMap mark) := by
  have := (runs_layout s h).1 hn k 0 []
  simpa [ClosedWith, Scan.init] using this

end

end Verif
