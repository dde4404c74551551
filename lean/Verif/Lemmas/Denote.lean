import Verif.Lemmas.Trace

/-!
# Every `Write` method produces the layout of its statement

`Denotes` relates each writer of the model to the layout of `Verif.Spec.Layout`.
-/

namespace Verif
open W Spec

/-! ## When writing succeeds -/

mutual

/-- Writing the expression does not panic. -/
def okE : Expr → Bool
  | .nil => false
  | .ident _ => true
  | .value _ => true
  | .arrayList l => okEs l
  | .array l => okEs l
  | .raw _ => true
  | .wrapper e => okE e
  | .call _ args => okEs args
  | .infx l op r => !blank (.infx l op r) && (okE l && okE r)
  | .inx e op v => !blank (.inx e op v) && (okE e && okIf v.isEmpty (okE v))
  | .between i op lo and hi => !blank (.between i op lo and hi) && (okE lo && okE hi)
  | .exist e => okE e
  | .notExist e => okE e
  | .select s => okS s
  | .onClause _ _ => true
  | .infixOn l op r => !blank (.infixOn l op r) && (okE l && okE r)

/-- All of them. -/
def okEs : List Expr → Bool
  | [] => true
  | e :: l => okE e && okEs l

/-- Writing the column expression does not panic. -/
def okSel : SelExpr → Bool
  | .nil => false
  | .exist e => okE e
  | .notExist e => okE e
  | _ => true

/-- All of them. -/
def okSels : List SelExpr → Bool
  | [] => true
  | e :: l => okSel e && okSels l

/-- Writing the joins does not panic. -/
def okJoins : List Join → Bool
  | [] => true
  | ⟨_, _, cond⟩ :: l => okE cond && okJoins l

/-- Writing the common table expressions does not panic. -/
def okWiths : List WithQuery → Bool
  | [] => true
  | ⟨name, sub⟩ :: l => okIf (WithQuery.isEmpty ⟨name, sub⟩) (okE sub) && okWiths l

/-- Writing the SELECT does not panic. -/
def okS : SelectStmt → Bool
  | ⟨_, withs, _, _, exprs, tables, joins, whr, _, having, _, _, _, _, _⟩ =>
    !exprs.isEmpty && (okWiths withs && (okSels exprs && (tables.all (· ≠ .nil) &&
      (okJoins joins && (okIf whr.isUnset (okE whr) && okIf having.isUnset (okE having))))))

end

/-! ## Emptiness -/

theorem Go.or_ok {a b : Go Bool} {x : Bool} (h : Go.or a b = .ok x) :
    a = .ok true ∧ x = true ∨ a = .ok false ∧ b = .ok x := by
  match a with
  | .error p => simp [Go.or] at h
  | .ok true => simp [Go.or] at h; exact .inl ⟨rfl, h⟩
  | .ok false => exact .inr ⟨rfl, h⟩

theorem Go.or_error {a b : Go Bool} {p : Panic} (h : Go.or a b = .error p) :
    a = .error p ∨ a = .ok false ∧ b = .error p := by
  match a with
  | .error q => simp [Go.or] at h; subst h; exact .inl rfl
  | .ok true => simp [Go.or] at h
  | .ok false => exact .inr ⟨rfl, h⟩

@[simp] theorem Go.or_okFalse (b : Go Bool) : Go.or (.ok false) b = b := rfl
@[simp] theorem Go.or_okTrue (b : Go Bool) : Go.or (.ok true) b = .ok true := rfl

theorem blank_of_isNil {e : Expr} (h : e.isNil = true) : blank e = true := by
  cases e <;> simp_all [Expr.isNil, blank]

theorem Ident.isEmpty_eq (i : Ident) : i.isEmpty = identBlank i := by
  cases i <;> rfl

theorem isNil_eq (v : Expr) : v.isNil = absent v := by
  cases v <;> rfl

theorem Op.blank_ok {op : Op} {b : Bool} (h : op.isEmpty = .ok b) : opBlank op = b := by
  cases op <;> simp_all [Op.isEmpty, opBlank]

theorem Op.blank_of_isNil {op : Op} (h : op.isNil = true) : opBlank op = true := by
  cases op <;> simp_all [Op.isNil, opBlank]

/-- When `IsEmpty` answers, the answer is that of the specification. -/
theorem isEmpty_ok (e : Expr) : ∀ {b : Bool}, e.isEmpty = .ok b → blank e = b := by
  match e with
  | .nil => intro b h; simp [Expr.isEmpty] at h
  | .ident i => intro b h; simpa only [Expr.isEmpty, Ident.isEmpty_eq, blank, Except.ok.injEq] using h
  | .value _ => intro b h; simp [Expr.isEmpty, blank] at h ⊢; exact h
  | .arrayList _ => intro b h; simp [Expr.isEmpty, blank] at h ⊢; exact h
  | .array _ => intro b h; simp [Expr.isEmpty, blank] at h ⊢; exact h
  | .raw _ => intro b h; simp [Expr.isEmpty, blank] at h ⊢; exact h
  | .wrapper e => intro b h; rw [Expr.isEmpty] at h; rw [blank]; exact isEmpty_ok e h
  | .call _ _ => intro b h; simp [Expr.isEmpty, blank] at h ⊢; exact h
  | .exist _ => intro b h; simp [Expr.isEmpty, blank] at h ⊢; exact h
  | .notExist _ => intro b h; simp [Expr.isEmpty, blank] at h ⊢; exact h
  | .select ⟨_, _, _, _, exprs, _, _, _, _, _, _, _, _, _, _⟩ =>
    intro b h; simp only [Expr.isEmpty, SelectStmt.isEmpty, blank, Except.ok.injEq] at h ⊢; exact h
  | .onClause _ _ =>
    intro b h
    simp only [Expr.isEmpty, Column.isEmpty, blank, Except.ok.injEq] at h ⊢; exact h
  | .infx l op r =>
    intro b h
    rw [Expr.isEmpty] at h
    rw [blank]
    rcases Go.or_ok h with ⟨h1, rfl⟩ | ⟨_, h⟩
    · simp [blank_of_isNil (Except.ok.inj h1)]
    rcases Go.or_ok h with ⟨h1, rfl⟩ | ⟨_, h⟩
    · simp [Op.blank_of_isNil (Except.ok.inj h1)]
    rcases Go.or_ok h with ⟨h1, rfl⟩ | ⟨_, h⟩
    · simp [blank_of_isNil (Except.ok.inj h1)]
    rcases Go.or_ok h with ⟨h1, rfl⟩ | ⟨h1, h⟩
    · simp [isEmpty_ok l h1]
    rcases Go.or_ok h with ⟨h2, rfl⟩ | ⟨h2, h⟩
    · simp [Op.blank_ok h2]
    · simp [isEmpty_ok l h1, Op.blank_ok h2, isEmpty_ok r h]
  | .inx e op v =>
    intro b h
    rw [Expr.isEmpty] at h
    rw [blank, ← isNil_eq]
    rcases Go.or_ok h with ⟨h1, rfl⟩ | ⟨h1, h⟩
    · simp [isEmpty_ok e h1]
    rcases Go.or_ok h with ⟨h2, rfl⟩ | ⟨h2, h⟩
    · simp [Except.ok.inj h2]
    · simp [isEmpty_ok e h1, Except.ok.inj h2, Except.ok.inj h]
  | .between i op lo and hi =>
    intro b h
    rw [Expr.isEmpty] at h
    rw [blank, ← Ident.isEmpty_eq]
    rcases Go.or_ok h with ⟨h1, rfl⟩ | ⟨h1, h⟩
    · simp [Except.ok.inj h1]
    rcases Go.or_ok h with ⟨h2, rfl⟩ | ⟨h2, h⟩
    · simp [Except.ok.inj h2]
    rcases Go.or_ok h with ⟨h3, rfl⟩ | ⟨h3, h⟩
    · simp [Except.ok.inj h3]
    rcases Go.or_ok h with ⟨h4, rfl⟩ | ⟨_, h⟩
    · simp [blank_of_isNil (Except.ok.inj h4)]
    rcases Go.or_ok h with ⟨h5, rfl⟩ | ⟨_, h⟩
    · simp [blank_of_isNil (Except.ok.inj h5)]
    rcases Go.or_ok h with ⟨h6, rfl⟩ | ⟨h6, h⟩
    · simp [isEmpty_ok lo h6]
    · simp [Except.ok.inj h1, Except.ok.inj h2, Except.ok.inj h3, isEmpty_ok lo h6,
        isEmpty_ok hi h]
  | .infixOn l op r =>
    intro b h
    rw [Expr.isEmpty] at h
    rw [blank]
    rcases Go.or_ok h with ⟨h1, rfl⟩ | ⟨_, h⟩
    · simp [blank_of_isNil (Except.ok.inj h1)]
    rcases Go.or_ok h with ⟨h1, rfl⟩ | ⟨_, h⟩
    · simp [blank_of_isNil (Except.ok.inj h1)]
    rcases Go.or_ok h with ⟨h1, rfl⟩ | ⟨h1, h⟩
    · simp [isEmpty_ok l h1]
    rcases Go.or_ok h with ⟨h2, rfl⟩ | ⟨h2, h⟩
    · simp [Except.ok.inj h2]
    · simp [isEmpty_ok l h1, Except.ok.inj h2, isEmpty_ok r h]

/-- When `IsEmpty` panics, so does `Write`. -/
theorem isEmpty_error (e : Expr) : ∀ {p : Panic}, e.isEmpty = .error p → okE e = false := by
  match e with
  | .nil => intro p h; rfl
  | .ident _ | .value _ | .arrayList _ | .array _ | .raw _ | .call _ _ | .exist _ | .notExist _
  | .select _ | .onClause _ _ => intro p h; simp [Expr.isEmpty] at h
  | .wrapper e => intro p h; rw [Expr.isEmpty] at h; rw [okE]; exact isEmpty_error e h
  | .infx l op r =>
    intro p h
    rw [Expr.isEmpty] at h
    rcases Go.or_error h with h | ⟨h1, h⟩
    · cases h
    rcases Go.or_error h with h | ⟨h2, h⟩
    · cases h
    rcases Go.or_error h with h | ⟨_, h⟩
    · cases h
    rcases Go.or_error h with h | ⟨_, h⟩
    · simp [okE, isEmpty_error l h]
    rcases Go.or_error h with h | ⟨_, h⟩
    · cases op <;> simp_all [Op.isEmpty, Op.isNil]
    · simp [okE, isEmpty_error r h]
  | .inx e op v =>
    intro p h
    rw [Expr.isEmpty] at h
    rcases Go.or_error h with h | ⟨h1, h⟩
    · simp [okE, isEmpty_error e h]
    rcases Go.or_error h with h | ⟨h2, h⟩ <;> cases h
  | .between i op lo and hi =>
    intro p h
    rw [Expr.isEmpty] at h
    rcases Go.or_error h with h | ⟨_, h⟩
    · cases h
    rcases Go.or_error h with h | ⟨_, h⟩
    · cases h
    rcases Go.or_error h with h | ⟨_, h⟩
    · cases h
    rcases Go.or_error h with h | ⟨_, h⟩
    · cases h
    rcases Go.or_error h with h | ⟨_, h⟩
    · cases h
    rcases Go.or_error h with h | ⟨_, h⟩
    · simp [okE, isEmpty_error lo h]
    · simp [okE, isEmpty_error hi h]
  | .infixOn l op r =>
    intro p h
    rw [Expr.isEmpty] at h
    rcases Go.or_error h with h | ⟨_, h⟩
    · cases h
    rcases Go.or_error h with h | ⟨_, h⟩
    · cases h
    rcases Go.or_error h with h | ⟨_, h⟩
    · simp [okE, isEmpty_error l h]
    rcases Go.or_error h with h | ⟨_, h⟩
    · cases h
    · simp [okE, isEmpty_error r h]

theorem isUnset_ok {e : Expr} {b : Bool} (h : e.isUnset = .ok b) : blank e = b := by
  rcases Go.or_ok h with ⟨h1, rfl⟩ | ⟨_, h⟩
  · exact blank_of_isNil (Except.ok.inj h1)
  · exact isEmpty_ok e h

theorem withIsEmpty_ok {n : Str} {e : Expr} {b : Bool} (h : WithQuery.isEmpty ⟨n, e⟩ = .ok b) :
    (n.isEmpty || blank e) = b := by
  rcases Go.or_ok h with ⟨h1, rfl⟩ | ⟨h1, h⟩
  · simp [Except.ok.inj h1]
  rcases Go.or_ok h with ⟨h2, rfl⟩ | ⟨h2, h⟩
  · simp [blank_of_isNil (Except.ok.inj h2)]
  · simp only [isEmpty_ok e h]
    have := Except.ok.inj h1
    simp only [this, Bool.false_or]

/-! ## Separated lists -/

/-- `", "` before every element. -/
def commaTail : List (List Piece) → List Piece
  | [] => []
  | a :: l => .sql s%", " :: a ++ commaTail l

theorem commaSep_cons (a : List Piece) (l : List (List Piece)) :
    commaSep (a :: l) = a ++ commaTail l := by
  induction l generalizing a with
  | nil => simp [commaSep, commaTail]
  | cons b l ih => rw [commaSep, ih]; simp [commaTail]

/-- A space before every clause that is present. -/
def spaceTail (l : List (Option (List Piece))) : List Piece :=
  l.flatMap fun | none => [] | some c => .sql s%" " :: c

theorem spaced_some (a : List Piece) (l : List (Option (List Piece))) :
    spaced (some a :: l) = a ++ spaceTail l := rfl

@[simp] theorem spaceTail_nil : spaceTail [] = [] := rfl
@[simp] theorem spaceTail_some (a : List Piece) (l : List (Option (List Piece))) :
    spaceTail (some a :: l) = .sql s%" " :: a ++ spaceTail l := rfl
@[simp] theorem spaceTail_none (l : List (Option (List Piece))) :
    spaceTail (none :: l) = spaceTail l := rfl
@[simp] theorem spaceTail_append (a b : List (Option (List Piece))) :
    spaceTail (a ++ b) = spaceTail a ++ spaceTail b := by simp [spaceTail]
theorem spaceTail_clause (c : Bool) (a : List Piece) (l : List (Option (List Piece))) :
    spaceTail (clause c a :: l) = (if c then .sql s%" " :: a else []) ++ spaceTail l := by
  cases c <;> rfl

theorem spaced_clause_some (c : Bool) (a b : List Piece) (l : List (Option (List Piece))) :
    spaced (clause c a :: some b :: l) =
      (if c then a ++ [.sql s%" "] else []) ++ spaced (some b :: l) := by
  cases c <;> simp [clause, spaced]

theorem spaced_clause_clause_some (c c' : Bool) (a a' b : List Piece)
    (l : List (Option (List Piece))) :
    spaced (clause c a :: clause c' a' :: some b :: l) =
      (if c then a ++ [.sql s%" "] else []) ++ spaced (clause c' a' :: some b :: l) := by
  cases c <;> cases c' <;> simp [clause, spaced]

section
variable [GoRuntime]

@[simp] theorem evs_ite (c : Prop) [Decidable c] (a b : List Piece) :
    evs (if c then a else b) = if c then evs a else evs b := by split <;> rfl

/-! ## Leaves -/

/-- Discharge `Denotes` goals by following the structure of the writer. -/
macro "denote" : tactic => `(tactic|
  repeat first
    | assumption
    | exact Denotes.skip
    | exact Denotes.text _
    | exact Denotes.bind _
    | exact Denotes.panic _ []
    | apply Denotes.seq
    | apply Denotes.ifThen)

theorem denotes_ident (i : Ident) : Denotes i.write true (evs (identL i)) := by
  cases i <;> simp [Ident.write, identL, Piece.evs, Denotes.text, Denotes.skip]

omit [GoRuntime] in
theorem denotes_op (op : Op) : Denotes op.write (!op.isNil) (chs (opL op)) := by
  cases op
  · exact Denotes.panic _ _
  · exact Denotes.text _
  · exact Denotes.text _

theorem denotes_column (c : Column) : Denotes c.write true (evs (columnL c)) := by
  refine Denotes.congr (by unfold Column.write; denote) ?_ ?_
  · simp
  · simp [columnL, aliased, Piece.evs, Token.As]

theorem denotes_table (t : Table) : Denotes t.write true (evs (tableL t)) := by
  refine Denotes.congr (by unfold Table.write; denote) ?_ ?_
  · simp
  · simp [tableL, aliased, Piece.evs, Token.As, Token.Only]

theorem denotes_order (o : Order) : Denotes o.write true (evs (orderL o)) := by
  refine Denotes.congr (by unfold Order.write; denote) ?_ ?_
  · simp
  · simp [orderL, Piece.evs]

theorem denotes_fromItem (t : FromItem) : Denotes t.write (t ≠ .nil) (evs (fromItemL t)) := by
  cases t
  · exact Denotes.panic _ _
  · exact denotes_table _
  · simp [FromItem.write, fromItemL, Piece.evs, Denotes.text]

/-- Separated lists denote separated lists. -/
theorem denotes_sepBy {α : Type} (f : α → W) (g : α → List Piece) (ok : α → Bool) (l : List α)
    (h : ∀ a ∈ l, Denotes (f a) (ok a) (evs (g a))) :
    Denotes (sepBy f l) (l.all ok) (evs (commaSep (l.map g))) := by
  match l with
  | [] => exact Denotes.skip
  | [a] =>
    refine Denotes.congr (h a (by simp)) (by simp) (by simp [commaSep])
  | a :: b :: l =>
    have ih := denotes_sepBy f g ok (b :: l) (fun x hx => h x (by simp_all))
    have ha := h a (by simp)
    refine Denotes.congr (by unfold sepBy; denote) ?_ ?_
    · simp
    · simp [commaSep, Piece.evs]

theorem denotes_columns (l : List Column) :
    Denotes (sepBy Column.write l) true (evs (commaSep (l.map columnL))) :=
  (denotes_sepBy _ _ (fun _ => true) l (fun c _ => denotes_column c)).congr (by simp) rfl

theorem denotes_tables (l : List Table) :
    Denotes (sepBy Table.write l) true (evs (commaSep (l.map tableL))) :=
  (denotes_sepBy _ _ (fun _ => true) l (fun c _ => denotes_table c)).congr (by simp) rfl

theorem denotes_orders (l : List Order) :
    Denotes (sepBy Order.write l) true (evs (commaSep (l.map orderL))) :=
  (denotes_sepBy _ _ (fun _ => true) l (fun c _ => denotes_order c)).congr (by simp) rfl

theorem denotes_from (l : List FromItem) :
    Denotes (writeFrom l) (l.all (· ≠ .nil)) (evs (fromL l)) := by
  have h := denotes_sepBy FromItem.write fromItemL (fun t => decide (t ≠ .nil)) l
    (fun t _ => denotes_fromItem t)
  refine Denotes.congr (by unfold writeFrom; denote) ?_ ?_
  · simp
  · simp [fromL, Piece.evs, Token.From]

theorem denotes_aggAlias (a : Str) : Denotes (writeAggAlias a) true (evs (aggAliasL a)) := by
  refine Denotes.congr (by unfold writeAggAlias; denote) ?_ ?_
  · simp
  · simp [aggAliasL, Piece.evs, Token.As]

theorem denotes_commentTail (c : Str) :
    Denotes (writeCommentTail c) true (evs (commentL c)) := by
  refine Denotes.congr (by unfold writeCommentTail writeComment; denote) ?_ ?_
  · simp
  · cases c <;> simp [commentL, Piece.evs, Token.Semicolon, Token.Comment]

/-! ## Clauses, with the space before them -/

omit [GoRuntime] in
theorem spaceTail_cons2 (a b : Option (List Piece)) (l : List (Option (List Piece))) :
    spaceTail (a :: b :: l) = spaceTail [a] ++ spaceTail (b :: l) := by
  cases a <;> simp

theorem denotes_prefixClause (t : Str) :
    Denotes (if t.isEmpty then skip else W.text t ;; W.text s%" ") true
      (evs (if (!t.isEmpty) = true then [.raw t] ++ [.sql s%" "] else [])) := by
  refine Denotes.congr (by denote) ?_ ?_
  · simp
  · cases t <;> simp [Piece.evs]

theorem denotes_selectWord : Denotes (W.text Token.Select) true (evs [.sql s%"SELECT"]) :=
  (Denotes.text _).congr rfl rfl

theorem denotes_distinctClause (d : Bool) :
    Denotes (if d then W.text s%" " ;; W.text Token.Distinct else skip) true
      (evs (spaceTail [clause d [.sql s%"DISTINCT"]])) := by
  refine Denotes.congr (by denote) ?_ ?_
  · simp
  · cases d <;> simp [spaceTail, clause, Piece.evs, Token.Distinct]

theorem denotes_columnsClause (l : List SelExpr) {o : Bool}
    (h : Denotes (writeSelExprs l) o (evs (commaSep (selExprsL l)))) :
    Denotes (W.text s%" " ;; writeSelExprs l) o
      (evs (spaceTail [some (commaSep (selExprsL l))])) := by
  refine Denotes.congr (by denote) ?_ ?_
  · simp
  · simp [spaceTail, Piece.evs]

theorem denotes_where (e : Expr) {o : Bool} (h : Denotes e.write o (evs (exprL e))) :
    Denotes (W.ite e.isUnset skip
      (W.text s%" " ;; W.text Token.Where ;; W.text s%" " ;; e.write)) (okIf e.isUnset o)
      (evs (spaceTail [clause (!blank e) (.sql s%"WHERE " :: exprL e)])) := by
  refine Denotes.congr (Denotes.iteSkip (fun b hb => isUnset_ok hb) (by denote)) ?_ ?_
  · simp
  · cases blank e <;> simp [spaceTail, clause, Piece.evs, Token.Where]

theorem denotes_having (e : Expr) {o : Bool} (h : Denotes e.write o (evs (exprL e))) :
    Denotes (W.ite e.isUnset skip
      (W.text s%" " ;; W.text Token.Having ;; W.text s%" " ;; e.write)) (okIf e.isUnset o)
      (evs (spaceTail [clause (!blank e) (.sql s%"HAVING " :: exprL e)])) := by
  refine Denotes.congr (Denotes.iteSkip (fun b hb => isUnset_ok hb) (by denote)) ?_ ?_
  · simp
  · cases blank e <;> simp [spaceTail, clause, Piece.evs, Token.Having]

theorem denotes_withClause (l : List WithQuery) 
    (h : Denotes (writeWiths l) (okWiths l) (evs (commaSep (withsL l)))) :
    Denotes (if l.isEmpty then skip
       else W.text Token.With ;; W.text s%" " ;; writeWiths l ;; W.text s%" ") (okWiths l)
      (evs (if (!l.isEmpty) = true then (.sql s%"WITH " :: commaSep (withsL l)) ++ [.sql s%" "]
        else [])) := by
  refine Denotes.congr (by denote) ?_ ?_
  · cases l <;> simp [okWiths]
  · cases l <;> simp [Piece.evs, Token.With]

theorem denotes_fromClause (l : List FromItem) :
    Denotes (if l.isEmpty then skip else W.text s%" " ;; writeFrom l) (l.all (· ≠ .nil))
      (evs (spaceTail [clause (!l.isEmpty) (fromL l)])) := by
  have h := denotes_from l
  refine Denotes.congr (by denote) ?_ ?_
  · cases l <;> simp
  · cases l <;> simp [spaceTail, clause, Piece.evs]

theorem denotes_distinctOnClause (l : List Column) :
    Denotes (if l.isEmpty then skip else W.text s%" " ;; writeDistinctOn l) true
      (evs (spaceTail [clause (!l.isEmpty)
        (.sql s%"DISTINCT ON (" :: commaSep (l.map columnL) ++ [.sql s%")"])])) := by
  have h := denotes_columns l
  refine Denotes.congr (by unfold writeDistinctOn; denote) ?_ ?_
  · cases l <;> simp
  · cases l <;> simp [spaceTail, clause, Piece.evs, Token.DistinctOn]

theorem denotes_groupByClause (l : List Column) :
    Denotes (if l.isEmpty then skip else W.text s%" " ;; writeGroupBy l) true
      (evs (spaceTail [clause (!l.isEmpty)
        (.sql s%"GROUP BY " :: commaSep (l.map columnL))])) := by
  have h := denotes_columns l
  refine Denotes.congr (by unfold writeGroupBy; denote) ?_ ?_
  · cases l <;> simp
  · cases l <;> simp [spaceTail, clause, Piece.evs, Token.Group, Token.By]

theorem denotes_orderByClause (l : List Order) :
    Denotes (if l.isEmpty then skip else W.text s%" " ;; writeOrderBy l) true
      (evs (spaceTail [clause (!l.isEmpty)
        (.sql s%"ORDER BY " :: commaSep (l.map orderL))])) := by
  have h := denotes_orders l
  refine Denotes.congr (by unfold writeOrderBy; denote) ?_ ?_
  · cases l <;> simp
  · cases l <;> simp [spaceTail, clause, Piece.evs, Token.Order, Token.By]

theorem denotes_limitClause (n : Int) :
    Denotes (if n = 0 then skip else W.text s%" " ;; writeLimit n) true
      (evs (spaceTail [clause (n ≠ 0) [.sql (s%"LIMIT " ++ formatInt n)]])) := by
  refine Denotes.congr (by unfold writeLimit; denote) ?_ ?_
  · simp
  · by_cases h : n = 0 <;> simp [h, spaceTail, clause, Piece.evs, Token.Limit]

theorem denotes_offsetClause (n : Int) :
    Denotes (if n = 0 then skip else W.text s%" " ;; writeOffset n) true
      (evs (spaceTail [clause (n ≠ 0) [.sql (s%"OFFSET " ++ formatInt n)]])) := by
  refine Denotes.congr (by unfold writeOffset; denote) ?_ ?_
  · simp
  · by_cases h : n = 0 <;> simp [h, spaceTail, clause, Piece.evs, Token.Offset]

theorem denotes_suffixClause (t : Str) :
    Denotes (if t.isEmpty then skip else W.text s%" " ;; W.text t) true
      (evs (spaceTail [clause (!t.isEmpty) [.raw t]])) := by
  refine Denotes.congr (by denote) ?_ ?_
  · simp
  · cases t <;> simp [spaceTail, clause, Piece.evs]

/-! ## Expressions -/

mutual

theorem denotes_expr (e : Expr) : Denotes e.write (okE e) (evs (exprL e)) := by
  match e with
  | .nil => exact Denotes.panic _ _
  | .ident i => exact denotes_ident i
  | .value v =>
    cases v <;> simp only [Expr.write, exprL, okE, evs_cons, evs_nil, Piece.evs, List.append_nil]
    case nil => exact Denotes.text _
    all_goals exact Denotes.bind _
  | .arrayList l => exact denotes_rows l
  | .array l => exact denotes_exprs l
  | .raw s =>
    rw [Expr.write]; exact (Denotes.text s).congr rfl (by simp [exprL, Piece.evs])
  | .wrapper e =>
    have h := denotes_expr e
    refine Denotes.congr (by rw [Expr.write]; denote) ?_ ?_
    · simp [okE]
    · simp [exprL, Piece.evs]
  | .call f args =>
    have h := denotes_exprs args
    refine Denotes.congr (by rw [Expr.write]; denote) ?_ ?_
    · simp [okE]
    · simp [exprL, Piece.evs]
  | .infx l op r =>
    have hl := denotes_expr l
    have hr := denotes_expr r
    have ho := denotes_op op
    rw [Expr.write]
    cases hn : op.isNil with
    | true =>
      have : op = .nil := by cases op <;> simp_all [Op.isNil]
      subst this
      have he : ∃ q : Panic, (W.ite (Expr.isEmpty (.infx l .nil r))
          (W.panic (.msg "loukoum: expression is undefined"))
          (W.text s%"(" ;; l.write ;; W.text s%" " ;; (Op.write .nil) ;; W.text s%" " ;; r.write ;;
            W.text s%")")) = W.panic q := by
        rw [Expr.isEmpty]
        cases l.isNil <;> exact ⟨_, rfl⟩
      obtain ⟨q, he⟩ := he
      rw [he]
      have : okE (.infx l .nil r) = false := by simp [okE, blank, opBlank]
      rw [this]
      exact Denotes.panic _ _
    | false =>
      rw [hn] at ho
      have h1 : Denotes (W.text s%"(" ;; l.write ;; W.text s%" " ;; op.write ;; W.text s%" " ;;
          r.write ;; W.text s%")") (okE l && okE r) (evs (exprL (.infx l op r))) := by
        refine Denotes.congr (by denote) ?_ ?_
        · simp
        · simp [exprL, Piece.evs]
      rw [okE]
      refine Denotes.itePanic (fun b hb => isEmpty_ok _ hb) (fun p hp => ?_) h1
      have := isEmpty_error _ hp
      rw [okE] at this
      cases hb : blank (.infx l op r) with
      | false => rw [hb] at this; simpa using this
      | true =>
        rw [Expr.isEmpty] at hp
        rcases Go.or_error hp with h | ⟨_, hp⟩
        · cases h
        rcases Go.or_error hp with h | ⟨_, hp⟩
        · cases h
        rcases Go.or_error hp with h | ⟨_, hp⟩
        · cases h
        rcases Go.or_error hp with h | ⟨_, hp⟩
        · simp [isEmpty_error l h]
        rcases Go.or_error hp with h | ⟨_, hp⟩
        · cases op <;> simp_all [Op.isEmpty, Op.isNil]
        · simp [isEmpty_error r hp]
  | .inx e op v =>
    have he := denotes_expr e
    have hv := denotes_expr v
    rw [Expr.write]
    have hw : Denotes (W.ite v.isEmpty W.skip v.write) (okIf v.isEmpty (okE v))
        (if blank v then [] else evs (exprL v)) :=
      Denotes.iteSkip (fun b hb => isEmpty_ok _ hb) hv
    have h1 : Denotes (W.text s%"(" ;; e.write ;; W.text s%" " ;; W.text op ;; W.text s%" (" ;;
        W.ite v.isEmpty W.skip v.write ;; W.text s%"))")
        (okE e && okIf v.isEmpty (okE v)) (evs (exprL (.inx e op v))) := by
      refine Denotes.congr (by denote) ?_ ?_
      · simp
      · simp [exprL, Piece.evs]
    rw [okE]
    refine Denotes.itePanic (fun b hb => isEmpty_ok _ hb) (fun p hp => ?_) h1
    rw [Expr.isEmpty] at hp
    rcases Go.or_error hp with h | ⟨_, hp⟩
    · simp [isEmpty_error e h]
    rcases Go.or_error hp with h | ⟨_, hp⟩
    · cases h
    · cases hp
  | .between i op lo and hi =>
    have hlo := denotes_expr lo
    have hhi := denotes_expr hi
    have hi' := denotes_ident i
    rw [Expr.write]
    have h1 : Denotes (W.text s%"(" ;; i.write ;; W.text s%" " ;; W.text op ;; W.text s%" " ;;
        lo.write ;; W.text s%" " ;; W.text and ;; W.text s%" " ;; hi.write ;; W.text s%")")
        (okE lo && okE hi) (evs (exprL (.between i op lo and hi))) := by
      refine Denotes.congr (by denote) ?_ ?_
      · simp
      · simp [exprL, Piece.evs]
    rw [okE]
    refine Denotes.itePanic (fun b hb => isEmpty_ok _ hb) (fun p hp => ?_) h1
    rw [Expr.isEmpty] at hp
    rcases Go.or_error hp with h | ⟨_, hp⟩
    · cases h
    rcases Go.or_error hp with h | ⟨_, hp⟩
    · cases h
    rcases Go.or_error hp with h | ⟨_, hp⟩
    · cases h
    rcases Go.or_error hp with h | ⟨_, hp⟩
    · cases h
    rcases Go.or_error hp with h | ⟨_, hp⟩
    · cases h
    rcases Go.or_error hp with h | ⟨_, hp⟩
    · simp [isEmpty_error lo h]
    · simp [isEmpty_error hi hp]
  | .exist e =>
    have h := denotes_expr e
    refine Denotes.congr (by rw [Expr.write]; denote) ?_ ?_
    · simp [okE]
    · simp [exprL, Piece.evs, Token.Exists]
  | .notExist e =>
    have h := denotes_expr e
    refine Denotes.congr (by rw [Expr.write]; denote) ?_ ?_
    · simp [okE]
    · simp [exprL, Piece.evs, Token.Exists, Token.Not]
  | .select s => exact denotes_select s
  | .onClause l r =>
    have hl := denotes_column l
    have hr := denotes_column r
    refine Denotes.congr (by rw [Expr.write]; denote) ?_ ?_
    · simp [okE]
    · simp [exprL, Piece.evs, Token.Equals]
  | .infixOn l op r =>
    have hl := denotes_expr l
    have hr := denotes_expr r
    rw [Expr.write]
    have h1 : Denotes (W.text s%"(" ;; l.write ;; W.text s%" " ;; W.text op ;; W.text s%" " ;;
        r.write ;; W.text s%")") (okE l && okE r) (evs (exprL (.infixOn l op r))) := by
      refine Denotes.congr (by denote) ?_ ?_
      · simp
      · simp [exprL, Piece.evs]
    rw [okE]
    refine Denotes.itePanic (fun b hb => isEmpty_ok _ hb) (fun p hp => ?_) h1
    rw [Expr.isEmpty] at hp
    rcases Go.or_error hp with h | ⟨_, hp⟩
    · cases h
    rcases Go.or_error hp with h | ⟨_, hp⟩
    · cases h
    rcases Go.or_error hp with h | ⟨_, hp⟩
    · simp [isEmpty_error l h]
    rcases Go.or_error hp with h | ⟨_, hp⟩
    · cases h
    · simp [isEmpty_error r hp]

theorem denotes_exprs (l : List Expr) :
    Denotes (writeExprs l) (okEs l) (evs (commaSep (exprsL l))) := by
  match l with
  | [] => exact Denotes.skip
  | e :: l =>
    have he := denotes_expr e
    have hl := denotes_exprsTail l
    refine Denotes.congr (by rw [writeExprs]; denote) ?_ ?_
    · simp [okEs]
    · simp [exprsL, commaSep_cons]

theorem denotes_exprsTail (l : List Expr) :
    Denotes (writeExprsTail l) (okEs l) (evs (commaTail (exprsL l))) := by
  match l with
  | [] => exact Denotes.skip
  | e :: l =>
    have he := denotes_expr e
    have hl := denotes_exprsTail l
    refine Denotes.congr (by rw [writeExprsTail]; denote) ?_ ?_
    · simp [okEs]
    · simp [exprsL, commaTail, Piece.evs]

theorem denotes_rows (l : List Expr) :
    Denotes (writeRows l) (okEs l) (evs (commaSep (rowsL l))) := by
  match l with
  | [] => exact Denotes.skip
  | e :: l =>
    have he := denotes_expr e
    have hl := denotes_rowsTail l
    refine Denotes.congr (by rw [writeRows]; denote) ?_ ?_
    · simp [okEs]
    · simp [rowsL, commaSep_cons, Piece.evs]

theorem denotes_rowsTail (l : List Expr) :
    Denotes (writeRowsTail l) (okEs l) (evs (commaTail (rowsL l))) := by
  match l with
  | [] => exact Denotes.skip
  | e :: l =>
    have he := denotes_expr e
    have hl := denotes_rowsTail l
    refine Denotes.congr (by rw [writeRowsTail]; denote) ?_ ?_
    · simp [okEs]
    · simp [rowsL, commaTail, Piece.evs]

theorem denotes_selExpr (e : SelExpr) : Denotes e.write (okSel e) (evs (selExprL e)) := by
  match e with
  | .nil => exact Denotes.panic _ _
  | .column c => exact denotes_column c
  | .raw s =>
    rw [SelExpr.write]; exact (Denotes.text s).congr rfl (by simp [selExprL, Piece.evs])
  | .count v d a =>
    have h := denotes_aggAlias a
    refine Denotes.congr (by rw [SelExpr.write]; denote) ?_ ?_
    · simp [okSel]
    · cases d <;> simp [selExprL, Piece.evs, Token.Count, Token.Distinct]
  | .max v a =>
    have h := denotes_aggAlias a
    refine Denotes.congr (by rw [SelExpr.write]; denote) ?_ ?_
    · simp [okSel]
    · simp [selExprL, Piece.evs, Token.Max]
  | .min v a =>
    have h := denotes_aggAlias a
    refine Denotes.congr (by rw [SelExpr.write]; denote) ?_ ?_
    · simp [okSel]
    · simp [selExprL, Piece.evs, Token.Min]
  | .sum v a =>
    have h := denotes_aggAlias a
    refine Denotes.congr (by rw [SelExpr.write]; denote) ?_ ?_
    · simp [okSel]
    · simp [selExprL, Piece.evs, Token.Sum]
  | .exist e =>
    have h := denotes_expr e
    refine Denotes.congr (by rw [SelExpr.write]; denote) ?_ ?_
    · simp [okSel]
    · simp [selExprL, Piece.evs, Token.Exists]
  | .notExist e =>
    have h := denotes_expr e
    refine Denotes.congr (by rw [SelExpr.write]; denote) ?_ ?_
    · simp [okSel]
    · simp [selExprL, Piece.evs, Token.Exists, Token.Not]

theorem denotes_selExprs (l : List SelExpr) :
    Denotes (writeSelExprs l) (okSels l) (evs (commaSep (selExprsL l))) := by
  match l with
  | [] => exact Denotes.skip
  | e :: l =>
    have he := denotes_selExpr e
    have hl := denotes_selExprsTail l
    refine Denotes.congr (by rw [writeSelExprs]; denote) ?_ ?_
    · simp [okSels]
    · simp [selExprsL, commaSep_cons]

theorem denotes_selExprsTail (l : List SelExpr) :
    Denotes (writeSelExprsTail l) (okSels l) (evs (commaTail (selExprsL l))) := by
  match l with
  | [] => exact Denotes.skip
  | e :: l =>
    have he := denotes_selExpr e
    have hl := denotes_selExprsTail l
    refine Denotes.congr (by rw [writeSelExprsTail]; denote) ?_ ?_
    · simp [okSels]
    · simp [selExprsL, commaTail, Piece.evs]

theorem denotes_joins (l : List Join) :
    Denotes (writeJoins l) (okJoins l) (evs (spaceTail (joinsL l))) := by
  match l with
  | [] => exact Denotes.skip
  | ⟨ty, t, c⟩ :: l =>
    have he := denotes_expr c
    have ht := denotes_table t
    have hl := denotes_joins l
    refine Denotes.congr (by rw [writeJoins, Join.write]; denote) ?_ ?_
    · simp [okJoins]
    · simp [joinsL, joinL, Piece.evs, Token.On]

theorem denotes_with (n : Str) (e : Expr) : Denotes (WithQuery.write ⟨n, e⟩)
    (okIf (WithQuery.isEmpty ⟨n, e⟩) (okE e)) (evs (withL ⟨n, e⟩)) := by
  have he := denotes_expr e
  rw [WithQuery.write]
  refine Denotes.congr (Denotes.iteSkip (fun b hb => withIsEmpty_ok hb) (by denote)) ?_ ?_
  · simp
  · simp [withL, Piece.evs, Token.As]

theorem denotes_withs (l : List WithQuery) :
    Denotes (writeWiths l) (okWiths l) (evs (commaSep (withsL l))) := by
  match l with
  | [] => exact Denotes.skip
  | ⟨n, e⟩ :: l =>
    have he := denotes_with n e
    have hl := denotes_withsTail l
    refine Denotes.congr (by rw [writeWiths]; denote) ?_ ?_
    · simp [okWiths]
    · simp [withsL, commaSep_cons]

theorem denotes_withsTail (l : List WithQuery) :
    Denotes (writeWithsTail l) (okWiths l) (evs (commaTail (withsL l))) := by
  match l with
  | [] => exact Denotes.skip
  | ⟨n, e⟩ :: l =>
    have he := denotes_with n e
    have hl := denotes_withsTail l
    refine Denotes.congr (by rw [writeWithsTail]; denote) ?_ ?_
    · simp [okWiths]
    · simp [withsL, commaTail, Piece.evs]

theorem denotes_select (s : SelectStmt) : Denotes s.write (okS s) (evs (selectL s)) := by
  match s with
  | ⟨pfx, withs, distinct, distinctOn, exprs, tables, joins, whr, groupBy, having, orderBy,
      limit, offset, sfx, comment⟩ =>
    have hw := denotes_withs withs
    have he := denotes_selExprs exprs
    have hj := denotes_joins joins
    have hwh := denotes_expr whr
    have hha := denotes_expr having
    have hwh := denotes_where whr hwh
    have hha := denotes_having having hha
    have hw := denotes_withClause withs hw
    have hf := denotes_fromClause tables
    have hd := denotes_distinctOnClause distinctOn
    have hg := denotes_groupByClause groupBy
    have hor := denotes_orderByClause orderBy
    have hl := denotes_limitClause limit
    have ho := denotes_offsetClause offset
    have hs := denotes_suffixClause sfx
    have hc := denotes_commentTail comment
    have hp := denotes_prefixClause pfx
    have hsw := denotes_selectWord
    have hdi := denotes_distinctClause distinct
    have hco := denotes_columnsClause exprs he
    rw [SelectStmt.write, okS, selectL]
    cases hx : exprs.isEmpty with
    | true => simp only [if_pos]; exact Denotes.panic _ _
    | false =>
      rw [← writeCommentTail]
      simp only [Bool.false_eq_true, if_false]
      refine Denotes.congr (by denote) ?_ ?_
      · simp
      · simp only [List.cons_append, List.nil_append, spaced_clause_clause_some,
          spaced_clause_some, spaced_some, spaceTail_cons2]
        cases joins with
        | nil => simp only [joinsL, List.nil_append, spaceTail_cons2, evs_append, spaceTail_nil,
            evs_nil, List.append_assoc, evs_cons, List.nil_append]
        | cons j l =>
          simp only [joinsL, List.cons_append, spaceTail_append, spaceTail_cons2,
            spaceTail_some, evs_append, List.append_assoc, evs_cons, evs_nil, List.nil_append]

end

/-! ## SET, INSERT, UPDATE, DELETE -/

/-- Writing the SET clause does not panic. -/
def okSet (p : PairContainer) : Bool :=
  !setBlank p &&
    match p.mode with
    | .unknown => true
    | .associative =>
      match p.values with
      | .error _ => false
      | .ok (columns, expressions) => (columns.zip expressions).all fun ce => okE ce.2
    | .array => okEs p.expressions

/-- Writing the conflict action does not panic. -/
def okAction : ConflictAction → Bool
  | .nil => false
  | .nothing => true
  | .update set => okSet set

/-- Writing the statement does not panic. -/
def okStmt : Stmt → Bool
  | .select s => okS s
  | .insert i =>
    !i.into.name.isEmpty && (okIf i.values.isUnset (okE i.values) &&
      ((actionBlank i.action || okAction i.action) && okSels i.returning))
  | .update u =>
    !u.table.name.isEmpty && (okWiths u.withs && (okSet u.set && (u.tables.all (· ≠ .nil) &&
      (okIf u.whr.isUnset (okE u.whr) && okSels u.returning))))
  | .delete d =>
    !d.tables.isEmpty && (d.tables.all (· ≠ .nil) && (okIf d.whr.isUnset (okE d.whr) &&
      okSels d.returning))

omit [GoRuntime] in
theorem setIsEmpty_eq (p : PairContainer) : p.isEmpty = setBlank p := by
  cases p with
  | mk mode map columns expressions =>
    cases mode <;> simp [PairContainer.isEmpty, setBlank]

omit [GoRuntime] in
theorem actionIsEmpty_eq (a : ConflictAction) : a.isEmpty = actionBlank a := by
  cases a <;> simp [ConflictAction.isEmpty, actionBlank, setIsEmpty_eq]

theorem denotes_pair (ce : Column × Expr) :
    Denotes (writePair ce) (okE ce.2) (evs (assignL ce)) := by
  have h1 := denotes_column ce.1
  have h2 := denotes_expr ce.2
  refine Denotes.congr (by unfold writePair; denote) ?_ ?_
  · simp
  · simp [assignL, Piece.evs]

theorem denotes_set (p : PairContainer) : Denotes p.write (okSet p) (evs (setL p)) := by
  rw [PairContainer.write, setIsEmpty_eq]
  cases hb : setBlank p with
  | true =>
    simp only [if_pos, okSet, hb, Bool.not_true, Bool.false_and]
    refine ⟨fun h => (by cases h), fun _ => ⟨.msg "loukoum: values for SET clause are required",
      chs s%"SET ", fun σ C hC s => ?_⟩⟩
    simp only [C.run_chs hC, W.seq, W.text, W.panic]
  | false =>
    simp only [Bool.false_eq_true, if_false]
    cases hm : p.mode with
    | unknown => simp [setBlank, hm] at hb
    | associative =>
      simp only [if_true, if_neg (show ¬ (PairMode.associative = PairMode.array) by decide)]
      have h : Denotes p.writeAssociative (okSet p)
          (evs (commaSep ((assignments p).map assignL))) := by
        unfold PairContainer.writeAssociative okSet assignments
        simp only [hb, hm, Bool.not_false, Bool.true_and]
        cases p.values with
        | error q => exact Denotes.panic _ _
        | ok r =>
          exact denotes_sepBy writePair assignL (fun ce => okE ce.2) _ (fun ce _ => denotes_pair ce)
      refine Denotes.congr (by denote) ?_ ?_
      · simp
      · simp [setL, hm, Piece.evs, Token.Set]
    | array =>
      simp only [if_true, if_neg (show ¬ (PairMode.array = PairMode.associative) by decide)]
      have h1 := denotes_columns p.columns
      have h2 := denotes_exprs p.expressions
      refine Denotes.congr (by unfold PairContainer.writeArray; denote) ?_ ?_
      · simp [okSet, hb, hm]
      · simp [setL, hm, Piece.evs, Token.Set]

theorem denotes_action (a : ConflictAction) :
    Denotes a.write (okAction a) (evs (actionL a)) := by
  cases a with
  | nil => exact Denotes.panic _ _
  | nothing =>
    refine Denotes.congr (by unfold ConflictAction.write; denote) ?_ ?_
    · simp [okAction]
    · simp [actionL, Piece.evs, Token.Do, Token.Nothing]
  | update s =>
    have h := denotes_set s
    refine Denotes.congr (by unfold ConflictAction.write; denote) ?_ ?_
    · simp [okAction]
    · simp [actionL, Piece.evs, Token.Do, Token.Update]

theorem denotes_conflictClause (t : List Column) (a : ConflictAction) :
    Denotes (if a.isEmpty then skip else W.text s%" " ;; writeOnConflict t a)
      (actionBlank a || okAction a)
      (evs (spaceTail [clause (!actionBlank a) (conflictL t a)])) := by
  have h1 := denotes_columns t
  have h2 := denotes_action a
  unfold writeOnConflict writeTarget
  rw [actionIsEmpty_eq]
  refine Denotes.congr (by denote) ?_ ?_
  · cases actionBlank a <;> simp
  · cases actionBlank a <;> cases t <;>
      simp [spaceTail, clause, conflictL, Piece.evs, Token.On, Token.Conflict]

theorem denotes_returningClause (l : List SelExpr) :
    Denotes (if l.isEmpty then skip else W.text s%" " ;; writeReturning l) (okSels l)
      (evs (spaceTail [clause (!l.isEmpty) (returningL l)])) := by
  have h := denotes_selExprs l
  unfold writeReturning
  refine Denotes.congr (by denote) ?_ ?_
  · cases l <;> simp [okSels]
  · cases l <;> simp [spaceTail, clause, returningL, Piece.evs, Token.Returning]

theorem denotes_where' (e : Expr) :
    Denotes (W.ite e.isUnset skip (W.text s%" " ;; writeWhere e)) (okIf e.isUnset (okE e))
      (evs (spaceTail [clause (!blank e) (.sql s%"WHERE " :: exprL e)])) := by
  have h := denotes_where e (denotes_expr e)
  unfold writeWhere
  cases hu : e.isUnset with
  | error p => rw [hu] at h; exact h
  | ok b => rw [hu] at h; cases b <;> exact h

theorem denotes_valuesClause (e : Expr) :
    Denotes (W.ite e.isUnset skip (W.text s%" " ;; writeValues e)) (okIf e.isUnset (okE e))
      (evs (spaceTail [clause (!blank e) (.sql s%"VALUES " :: exprL e)])) := by
  have h := denotes_expr e
  have h2 : Denotes (writeValues e) (okIf e.isUnset (okE e))
      (if blank e then [] else chs s%"VALUES " ++ evs (exprL e)) := by
    unfold writeValues
    refine Denotes.congr (Denotes.iteSkip (fun b hb => isUnset_ok hb) (by denote)) ?_ ?_
    · simp
    · simp [Token.Values]
  refine Denotes.congr (Denotes.iteSkip (fun b hb => isUnset_ok hb) (by denote)) ?_ ?_
  · cases e.isUnset with
    | error p => rfl
    | ok b => cases b <;> simp [okIf]
  · cases blank e <;> simp [spaceTail, clause, Piece.evs]

theorem denotes_usingClause (l : List Table) :
    Denotes (if l.isEmpty then skip else W.text s%" " ;; writeUsing l) true
      (evs (spaceTail [clause (!l.isEmpty) (.sql s%"USING " :: commaSep (l.map tableL))])) := by
  have h := denotes_tables l
  unfold writeUsing
  refine Denotes.congr (by denote) ?_ ?_
  · cases l <;> simp
  · cases l <;> simp [spaceTail, clause, Piece.evs, Token.Using]

theorem denotes_insert (i : InsertStmt) :
    Denotes i.write (okStmt (.insert i)) (evs (insertL i)) := by
  have h1 := denotes_table i.into
  have h2 := denotes_columns i.columns
  have h2' : Denotes (if i.columns.isEmpty then skip
     else W.text s%" (" ;; sepBy Column.write i.columns ;; W.text s%")") true
     (evs (spaceTail [clause (!i.columns.isEmpty)
       (.sql s%"(" :: commaSep (i.columns.map columnL) ++ [.sql s%")"])])) := by
    refine Denotes.congr (by denote) ?_ ?_
    · cases i.columns <;> simp
    · cases i.columns <;> simp [spaceTail, clause, Piece.evs]
  have h3 := denotes_valuesClause i.values
  have h4 := denotes_conflictClause i.target i.action
  have h5 := denotes_returningClause i.returning
  have h6 := denotes_commentTail i.comment
  rw [InsertStmt.write, okStmt, insertL, Table.isEmpty]
  cases hn : i.into.name.isEmpty with
  | true => simp only [if_pos]; exact Denotes.panic _ _
  | false =>
    simp only [Bool.false_eq_true, if_false]
    refine Denotes.congr (by denote) ?_ ?_
    · simp
    · simp only [spaced_some, spaceTail_cons2, evs_append, evs_cons, Piece.evs,
        List.append_assoc, List.cons_append]
      simp [Token.Insert, Token.Into]

theorem denotes_update (u : UpdateStmt) :
    Denotes u.write (okStmt (.update u)) (evs (updateL u)) := by
  have h0 := denotes_withClause u.withs (denotes_withs u.withs)
  have h0' : Denotes (if u.withs.isEmpty then skip else writeWith u.withs ;; W.text s%" ")
      (okWiths u.withs)
      (evs (if (!u.withs.isEmpty) = true
        then (.sql s%"WITH " :: commaSep (withsL u.withs)) ++ [.sql s%" "] else [])) := by
    have h := denotes_withs u.withs
    unfold writeWith
    refine Denotes.congr (by denote) ?_ ?_
    · cases u.withs <;> simp [okWiths]
    · cases u.withs <;> simp [Piece.evs, Token.With]
  have h1 := denotes_table u.table
  have h2 : Denotes (if u.only then W.text s%" " ;; W.text Token.Only else skip) true
      (evs (spaceTail [clause u.only [.sql s%"ONLY"]])) := by
    refine Denotes.congr (by denote) ?_ ?_
    · simp
    · cases u.only <;> simp [spaceTail, clause, Piece.evs, Token.Only]
  have h3 := denotes_set u.set
  have h4 := denotes_fromClause u.tables
  have h5 := denotes_where' u.whr
  have h6 := denotes_returningClause u.returning
  have h7 := denotes_commentTail u.comment
  rw [UpdateStmt.write, okStmt, updateL, Table.isEmpty, setIsEmpty_eq]
  cases hn : u.table.name.isEmpty with
  | true => simp only [Bool.true_or, if_pos]; exact Denotes.panic _ _
  | false =>
    cases hs : setBlank u.set with
    | true =>
      simp only [Bool.or_true, if_pos]
      have : okSet u.set = false := by simp [okSet, hs]
      simp only [this, Bool.false_and, Bool.and_false]
      exact Denotes.panic _ _
    | false =>
      simp only [Bool.or_false, Bool.false_eq_true, if_false]
      refine Denotes.congr (by denote) ?_ ?_
      · simp
      · simp only [spaced_clause_some, spaced_some, spaceTail_cons2, evs_append, evs_cons,
          List.append_assoc]
        simp [spaceTail_some, Piece.evs, Token.Update]

theorem denotes_delete (d : DeleteStmt) :
    Denotes d.write (okStmt (.delete d)) (evs (deleteL d)) := by
  have h1 := denotes_from d.tables
  have h2 := denotes_usingClause d.usings
  have h3 := denotes_where' d.whr
  have h4 := denotes_returningClause d.returning
  have h5 := denotes_commentTail d.comment
  rw [DeleteStmt.write, okStmt, deleteL]
  cases hn : d.tables.isEmpty with
  | true => simp only [if_pos]; exact Denotes.panic _ _
  | false =>
    simp only [Bool.false_eq_true, if_false]
    refine Denotes.congr (by denote) ?_ ?_
    · simp
    · simp only [spaced_some, spaceTail_cons2, evs_append, evs_cons,
        List.append_assoc]
      simp [spaceTail_some, Piece.evs, Token.Delete]

/-- Every statement writes its layout, or panics, whatever the context. -/
theorem denotes_stmt (s : Stmt) : Denotes s.write (okStmt s) (evs (layout s)) := by
  cases s with
  | select s => exact denotes_select s
  | insert s => exact denotes_insert s
  | update s => exact denotes_update s
  | delete s => exact denotes_delete s

end

end Verif
