import Verif.Lemmas.Tokens

/-!
# The characters of the fixed texts

Keywords, punctuation and numbers: upper case letters, digits, spaces and `,()=-`.
-/

set_option linter.unusedSectionVars false

namespace Verif
open Spec

/-- A character that the library writes of its own accord. -/
def fixedChar (c : Char) : Bool :=
  ('A' ≤ c && c ≤ 'Z') || Spec.isDigit c || c = ' ' || c = ',' || c = '(' || c = ')' || c = '=' ||
  c = '-'

/-- The fixed texts of the pieces are made of such characters. -/
def Fixed (l : List Piece) : Prop := ∀ t, .sql t ∈ l → t.all fixedChar = true

theorem fixed_nil : Fixed [] := fun _ h => by cases h

theorem fixed_append {l m : List Piece} (hl : Fixed l) (hm : Fixed m) : Fixed (l ++ m) := by
  intro t h
  rcases List.mem_append.1 h with h | h
  · exact hl t h
  · exact hm t h

theorem fixed_sql {t : Str} {l : List Piece} (ht : t.all fixedChar = true) (hl : Fixed l) :
    Fixed (.sql t :: l) := by
  intro u h
  rcases List.mem_cons.1 h with h | h
  · cases h; exact ht
  · exact hl u h

theorem fixed_name {n : Str} {l : List Piece} (hl : Fixed l) : Fixed (.name n :: l) := by
  intro u h
  rcases List.mem_cons.1 h with h | h
  · cases h
  · exact hl u h

theorem fixed_raw {n : Str} {l : List Piece} (hl : Fixed l) : Fixed (.raw n :: l) := by
  intro u h
  rcases List.mem_cons.1 h with h | h
  · cases h
  · exact hl u h

theorem fixed_val {v : Val} {l : List Piece} (hl : Fixed l) : Fixed (.val v :: l) := by
  intro u h
  rcases List.mem_cons.1 h with h | h
  · cases h
  · exact hl u h

theorem fixed_note {c : Str} {l : List Piece} (hl : Fixed l) : Fixed (.note c :: l) := by
  intro u h
  rcases List.mem_cons.1 h with h | h
  · cases h
  · exact hl u h

theorem fixed_commaSep {l : List (List Piece)} (h : ∀ a ∈ l, Fixed a) : Fixed (commaSep l) := by
  induction l with
  | nil => exact fixed_nil
  | cons a l ih =>
    cases l with
    | nil => exact h a List.mem_cons_self
    | cons a' l =>
      rw [commaSep]
      exact fixed_append (h a List.mem_cons_self)
        (fixed_sql (by decide) (ih fun x hx => h x (List.mem_cons_of_mem _ hx)))

theorem fixed_map {α : Type} {f : α → List Piece} (h : ∀ a, Fixed (f a)) (l : List α) :
    Fixed (commaSep (l.map f)) :=
  fixed_commaSep fun a ha => by
    obtain ⟨x, -, rfl⟩ := List.mem_map.1 ha
    exact h x

theorem fixed_spaced {l : List (Option (List Piece))} (h : ∀ o ∈ l, ∀ a, o = some a → Fixed a) :
    Fixed (spaced l) := by
  induction l with
  | nil => exact fixed_nil
  | cons c l ih =>
    cases c with
    | none => exact ih fun x hx => h x (List.mem_cons_of_mem _ hx)
    | some x =>
      rw [spaced]
      refine fixed_append (h _ List.mem_cons_self x rfl) ?_
      intro t ht
      obtain ⟨o, ho, ht⟩ := List.mem_flatMap.1 ht
      cases o with
      | none => cases ht
      | some y =>
        exact fixed_sql (by decide) (h _ (List.mem_cons_of_mem _ ho) y rfl) t ht

theorem fixed_clause {p : Bool} {c : List Piece} (h : Fixed c) :
    ∀ a, clause p c = some a → Fixed a := by
  intro a ha
  unfold clause at ha
  split at ha
  · cases ha; exact h
  · cases ha

theorem fixed_some {c : List Piece} (h : Fixed c) : ∀ a, some c = some a → Fixed a := by
  rintro _ ⟨⟩; exact h

theorem fixed_paren {o : Str} {l : List Piece} (ho : o.all fixedChar = true) (h : Fixed l) :
    Fixed (.sql o :: l ++ [.sql s%")"]) := by
  rw [List.cons_append]
  exact fixed_sql ho (fixed_append h (fixed_sql (by decide) fixed_nil))

theorem fixed_infix {l r : List Piece} {op : Str} (hl : Fixed l) (hr : Fixed r) :
    Fixed (l ++ .sql s%" " :: .raw op :: .sql s%" " :: r) :=
  fixed_append hl (fixed_sql (by decide) (fixed_raw (fixed_sql (by decide) hr)))

theorem fixed_parenInfix {l r : List Piece} {op : Str} (hl : Fixed l) (hr : Fixed r) :
    Fixed (.sql s%"(" :: l ++ .sql s%" " :: .raw op :: .sql s%" " :: r ++ [.sql s%")"]) := by
  have := fixed_paren (o := s%"(") (by decide) (fixed_infix (op := op) hl hr)
  simpa [List.append_assoc] using this

theorem fixed_ident (i : Ident) : Fixed (identL i) := by
  cases i with
  | str s => exact fixed_name fixed_nil
  | raw s => exact fixed_raw fixed_nil
  | other => exact fixed_nil

theorem fixed_aliased (n a : Str) : Fixed (aliased n a) := by
  unfold aliased
  split
  · exact fixed_name fixed_nil
  · exact fixed_name (fixed_sql (by decide) (fixed_name fixed_nil))

theorem fixed_column (c : Column) : Fixed (columnL c) := fixed_aliased _ _

theorem fixed_table (t : Table) : Fixed (tableL t) := by
  unfold tableL
  split
  · exact fixed_sql (by decide) (fixed_aliased _ _)
  · exact fixed_aliased _ _

theorem fixed_fromItem (t : FromItem) : Fixed (fromItemL t) := by
  cases t with
  | nil => exact fixed_nil
  | table t => exact fixed_table t
  | raw s => exact fixed_raw fixed_nil

theorem fixed_order (o : Order) : Fixed (orderL o) := by
  unfold orderL
  split
  · exact fixed_nil
  · exact fixed_raw (fixed_sql (by decide) (fixed_raw fixed_nil))

theorem fixed_from (ts : List FromItem) : Fixed (fromL ts) :=
  fixed_sql (by decide) (fixed_map fixed_fromItem ts)

theorem fixed_aggregate {o v alias : Str} (ho : o.all fixedChar = true) :
    Fixed (.sql o :: .raw v :: .sql s%")" :: aggAliasL alias) := by
  refine fixed_sql ho (fixed_raw (fixed_sql (by decide) ?_))
  unfold aggAliasL
  split
  · exact fixed_nil
  · exact fixed_sql (by decide) (fixed_raw fixed_nil)

theorem fixed_comment {l : List Piece} (h : Fixed l) (c : Str) : Fixed (l ++ commentL c) := by
  unfold commentL
  split
  · simpa using h
  · exact fixed_append h (fixed_note fixed_nil)

theorem fixed_formatNat (n : Nat) : (formatNat n).all fixedChar = true := by
  rw [List.all_eq_true]
  intro c hc
  simp [fixedChar, show Spec.isDigit c = true from digit_of_mem_formatNat hc]

theorem fixed_formatInt (n : Int) : (formatInt n).all fixedChar = true := by
  cases n with
  | ofNat m => exact fixed_formatNat m
  | negSucc m =>
    simp only [formatInt, List.all_cons, fixed_formatNat, Bool.and_true]
    decide

section
variable [GoRuntime]

mutual

theorem fixed_expr (e : Expr) : Fixed (exprL e) := by
  match e with
  | .nil => exact fixed_nil
  | .ident i => exact fixed_ident i
  | .value v => exact fixed_val fixed_nil
  | .arrayList l => rw [exprL]; exact fixed_commaSep (fixed_rows l)
  | .array l => rw [exprL]; exact fixed_commaSep (fixed_exprs l)
  | .raw s => exact fixed_raw fixed_nil
  | .wrapper e => rw [exprL]; exact fixed_paren (by decide) (fixed_expr e)
  | .call f args =>
    rw [exprL]
    exact fixed_raw (fixed_paren (o := s%"(") (by decide) (fixed_commaSep (fixed_exprs args)))
  | .infx l op r => rw [exprL]; exact fixed_parenInfix (fixed_expr l) (fixed_expr r)
  | .inx e op v =>
    have hv : Fixed (if blank v = true then [] else exprL v) := by
      split
      · exact fixed_nil
      · exact fixed_expr v
    rw [exprL]
    simp only [List.cons_append, List.append_assoc]
    exact fixed_sql (by decide) (fixed_append (fixed_expr e) (fixed_sql (by decide)
      (fixed_raw (fixed_sql (by decide) (fixed_append hv (fixed_sql (by decide) fixed_nil))))))
  | .between i op lo and hi =>
    rw [exprL]
    have := fixed_paren (o := s%"(") (by decide)
      (fixed_infix (op := op) (fixed_ident i)
        (fixed_infix (op := and) (fixed_expr lo) (fixed_expr hi)))
    simpa [List.append_assoc] using this
  | .exist e => rw [exprL]; exact fixed_paren (by decide) (fixed_expr e)
  | .notExist e => rw [exprL]; exact fixed_paren (by decide) (fixed_expr e)
  | .select s => rw [exprL]; exact fixed_select s
  | .onClause l r =>
    rw [exprL]
    exact fixed_append (fixed_column l) (fixed_sql (by decide) (fixed_column r))
  | .infixOn l op r => rw [exprL]; exact fixed_parenInfix (fixed_expr l) (fixed_expr r)

theorem fixed_exprs (l : List Expr) : ∀ a ∈ exprsL l, Fixed a := by
  match l with
  | [] => simp [exprsL]
  | e :: l =>
    intro a ha
    rw [exprsL] at ha
    rcases List.mem_cons.1 ha with rfl | ha
    · exact fixed_expr e
    · exact fixed_exprs l a ha

theorem fixed_rows (l : List Expr) : ∀ a ∈ rowsL l, Fixed a := by
  match l with
  | [] => simp [rowsL]
  | e :: l =>
    intro a ha
    rw [rowsL] at ha
    rcases List.mem_cons.1 ha with rfl | ha
    · exact fixed_paren (by decide) (fixed_expr e)
    · exact fixed_rows l a ha

theorem fixed_selExpr (e : SelExpr) : Fixed (selExprL e) := by
  match e with
  | .nil => exact fixed_nil
  | .column c => exact fixed_column c
  | .raw s => exact fixed_raw fixed_nil
  | .count v distinct alias =>
    rw [selExprL]
    cases distinct with
    | true =>
      simp only [if_true, List.cons_append, List.nil_append]
      exact fixed_sql (by decide) (fixed_aggregate (by decide))
    | false =>
      simp only [Bool.false_eq_true, if_false, List.cons_append, List.nil_append]
      exact fixed_aggregate (by decide)
  | .max v alias => rw [selExprL]; exact fixed_aggregate (by decide)
  | .min v alias => rw [selExprL]; exact fixed_aggregate (by decide)
  | .sum v alias => rw [selExprL]; exact fixed_aggregate (by decide)
  | .exist e => rw [selExprL]; exact fixed_paren (by decide) (fixed_expr e)
  | .notExist e => rw [selExprL]; exact fixed_paren (by decide) (fixed_expr e)

theorem fixed_selExprs (l : List SelExpr) : ∀ a ∈ selExprsL l, Fixed a := by
  match l with
  | [] => simp [selExprsL]
  | e :: l =>
    intro a ha
    rw [selExprsL] at ha
    rcases List.mem_cons.1 ha with rfl | ha
    · exact fixed_selExpr e
    · exact fixed_selExprs l a ha

theorem fixed_join (j : Join) : Fixed (joinL j) := by
  match j with
  | ⟨type, table, cond⟩ =>
    rw [joinL]
    exact fixed_raw (fixed_sql (by decide) (fixed_append (fixed_table table)
      (fixed_sql (by decide) (fixed_expr cond))))

theorem fixed_joins (l : List Join) : ∀ o ∈ joinsL l, ∀ a, o = some a → Fixed a := by
  match l with
  | [] => simp [joinsL]
  | j :: l =>
    intro o ho
    rw [joinsL] at ho
    rcases List.mem_cons.1 ho with rfl | ho
    · exact fixed_some (fixed_join j)
    · exact fixed_joins l o ho

theorem fixed_with (w : WithQuery) : Fixed (withL w) := by
  match w with
  | ⟨name, sub⟩ =>
    rw [withL]
    split
    · exact fixed_nil
    · exact fixed_raw (fixed_paren (by decide) (fixed_expr sub))

theorem fixed_withs (l : List WithQuery) : ∀ a ∈ withsL l, Fixed a := by
  match l with
  | [] => simp [withsL]
  | w :: l =>
    intro a ha
    rw [withsL] at ha
    rcases List.mem_cons.1 ha with rfl | ha
    · exact fixed_with w
    · exact fixed_withs l a ha

theorem fixed_select (s : SelectStmt) : Fixed (selectL s) := by
  match s with
  | ⟨pfx, withs, distinct, distinctOn, exprs, tables, joins, whr, groupBy, having, orderBy,
      limit, offset, sfx, comment⟩ =>
    rw [selectL]
    refine fixed_comment (fixed_spaced ?_) comment
    intro o ho
    rw [List.mem_append, List.mem_append] at ho
    rcases ho with (ho | ho) | ho
    · simp only [List.mem_cons, List.not_mem_nil, or_false] at ho
      rcases ho with rfl | rfl | rfl | rfl | rfl | rfl | rfl
      · exact fixed_clause (fixed_raw fixed_nil)
      · exact fixed_clause (fixed_sql (by decide) (fixed_commaSep (fixed_withs withs)))
      · exact fixed_some (fixed_sql (by decide) fixed_nil)
      · exact fixed_clause (fixed_paren (by decide) (fixed_map fixed_column _))
      · exact fixed_clause (fixed_sql (by decide) fixed_nil)
      · exact fixed_some (fixed_commaSep (fixed_selExprs exprs))
      · exact fixed_clause (fixed_from tables)
    · exact fixed_joins joins o ho
    · simp only [List.mem_cons, List.not_mem_nil, or_false] at ho
      rcases ho with rfl | rfl | rfl | rfl | rfl | rfl | rfl
      · exact fixed_clause (fixed_sql (by decide) (fixed_expr whr))
      · exact fixed_clause (fixed_sql (by decide) (fixed_map fixed_column _))
      · exact fixed_clause (fixed_sql (by decide) (fixed_expr having))
      · exact fixed_clause (fixed_sql (by decide) (fixed_map fixed_order _))
      · exact fixed_clause (fixed_sql (by rw [List.all_append, fixed_formatInt]; decide) fixed_nil)
      · exact fixed_clause (fixed_sql (by rw [List.all_append, fixed_formatInt]; decide) fixed_nil)
      · exact fixed_clause (fixed_raw fixed_nil)

end

theorem fixed_assign (ce : Column × Expr) : Fixed (assignL ce) :=
  fixed_append (fixed_column _) (fixed_sql (by decide) (fixed_expr _))

theorem fixed_set (p : PairContainer) : Fixed (setL p) := by
  unfold setL
  refine fixed_sql (by decide) ?_
  cases p.mode with
  | unknown => exact fixed_nil
  | associative => exact fixed_map fixed_assign _
  | array =>
    simp only [List.cons_append, List.append_assoc]
    exact fixed_sql (by decide) (fixed_append (fixed_map fixed_column _)
      (fixed_sql (by decide) (fixed_append (fixed_commaSep (fixed_exprs _))
        (fixed_sql (by decide) fixed_nil))))

theorem fixed_action (a : ConflictAction) : Fixed (actionL a) := by
  cases a with
  | nil => exact fixed_nil
  | nothing => exact fixed_sql (by decide) fixed_nil
  | update set => exact fixed_sql (by decide) (fixed_set set)

theorem fixed_conflict (target : List Column) (a : ConflictAction) :
    Fixed (conflictL target a) := by
  unfold conflictL
  rw [List.cons_append]
  refine fixed_sql (by decide) ?_
  split
  · exact fixed_action a
  · simp only [List.cons_append, List.append_assoc, List.nil_append]
    exact fixed_sql (by decide) (fixed_append (fixed_map fixed_column _)
      (fixed_sql (by decide) (fixed_action a)))

theorem fixed_returning (es : List SelExpr) : Fixed (returningL es) :=
  fixed_sql (by decide) (fixed_commaSep (fixed_selExprs es))

theorem fixed_layout (s : Stmt) : Fixed (layout s) := by
  cases s with
  | select s => exact fixed_select s
  | insert i =>
    simp only [layout, insertL]
    refine fixed_comment (fixed_spaced ?_) _
    intro o ho
    simp only [List.mem_cons, List.not_mem_nil, or_false] at ho
    rcases ho with rfl | rfl | rfl | rfl | rfl
    · exact fixed_some (fixed_sql (by decide) (fixed_table _))
    · exact fixed_clause (fixed_paren (by decide) (fixed_map fixed_column _))
    · exact fixed_clause (fixed_sql (by decide) (fixed_expr _))
    · exact fixed_clause (fixed_conflict _ _)
    · exact fixed_clause (fixed_returning _)
  | update u =>
    simp only [layout, updateL]
    refine fixed_comment (fixed_spaced ?_) _
    intro o ho
    simp only [List.mem_cons, List.not_mem_nil, or_false] at ho
    rcases ho with rfl | rfl | rfl | rfl | rfl | rfl | rfl | rfl
    · exact fixed_clause (fixed_sql (by decide) (fixed_commaSep (fixed_withs _)))
    · exact fixed_some (fixed_sql (by decide) fixed_nil)
    · exact fixed_clause (fixed_sql (by decide) fixed_nil)
    · exact fixed_some (fixed_table _)
    · exact fixed_some (fixed_set _)
    · exact fixed_clause (fixed_from _)
    · exact fixed_clause (fixed_sql (by decide) (fixed_expr _))
    · exact fixed_clause (fixed_returning _)
  | delete d =>
    simp only [layout, deleteL]
    refine fixed_comment (fixed_spaced ?_) _
    intro o ho
    simp only [List.mem_cons, List.not_mem_nil, or_false] at ho
    rcases ho with rfl | rfl | rfl | rfl | rfl
    · exact fixed_some (fixed_sql (by decide) fixed_nil)
    · exact fixed_some (fixed_from _)
    · exact fixed_clause (fixed_sql (by decide) (fixed_map fixed_table _))
    · exact fixed_clause (fixed_sql (by decide) (fixed_expr _))
    · exact fixed_clause (fixed_returning _)

end

end Verif
