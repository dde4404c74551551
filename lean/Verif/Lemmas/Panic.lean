import Verif.Spec.Panic
import Verif.Lemmas.Denote

/-!
# Lemmas about panics
-/

set_option linter.unusedSectionVars false

namespace Verif
open W Spec

/-! ## Emptiness is always answered -/

theorem Go.or_total {a b : Go Bool} (ha : ∀ p, a ≠ .error p) (hb : a = .ok false → ∀ p, b ≠ .error p) :
    ∀ p, Go.or a b ≠ .error p := by
  intro p h
  rcases Go.or_error h with h | ⟨h1, h⟩
  · exact ha p h
  · exact hb h1 p h

theorem ok_total {b : Bool} : ∀ p, (.ok b : Go Bool) ≠ .error p := nofun

theorem opt_present {e : Expr} (h : (absent e || noHole e) = true) (hn : e.isNil = false) :
    noHole e = true := by
  rw [isNil_eq] at hn; simpa [hn] using h

theorem isEmpty_total (e : Expr) (he : noHole e = true) : ∀ p, e.isEmpty ≠ .error p := by
  match e with
  | .nil => cases he
  | .ident _ | .value _ | .arrayList _ | .array _ | .raw _ | .call _ _ | .exist _ | .notExist _
  | .select _ | .onClause _ _ => rw [Expr.isEmpty]; exact ok_total
  | .wrapper e => rw [Expr.isEmpty]; exact isEmpty_total e he
  | .infx l op r =>
    rw [noHole, Bool.and_eq_true] at he
    rw [Expr.isEmpty]
    refine Go.or_total ok_total fun h1 => Go.or_total ok_total fun h2 => Go.or_total ok_total fun h3 => ?_
    refine Go.or_total (isEmpty_total l (opt_present he.1 (Except.ok.inj h1))) fun _ => ?_
    refine Go.or_total ?_ fun _ => isEmpty_total r (opt_present he.2 (Except.ok.inj h3))
    cases op with
    | nil => cases h2
    | logical | comparison => exact ok_total
  | .inx e op v =>
    rw [noHole, Bool.and_eq_true] at he
    rw [Expr.isEmpty]
    exact Go.or_total (isEmpty_total e he.1) fun _ => Go.or_total ok_total fun _ => ok_total
  | .between i op lo and hi =>
    rw [noHole, Bool.and_eq_true] at he
    rw [Expr.isEmpty]
    refine Go.or_total ok_total fun _ => Go.or_total ok_total fun _ => Go.or_total ok_total fun _ => ?_
    refine Go.or_total ok_total fun h1 => Go.or_total ok_total fun h2 => ?_
    exact Go.or_total (isEmpty_total lo (opt_present he.1 (Except.ok.inj h1))) fun _ =>
      isEmpty_total hi (opt_present he.2 (Except.ok.inj h2))
  | .infixOn l op r =>
    rw [noHole, Bool.and_eq_true] at he
    rw [Expr.isEmpty]
    refine Go.or_total ok_total fun h1 => Go.or_total ok_total fun h2 => ?_
    exact Go.or_total (isEmpty_total l (opt_present he.1 (Except.ok.inj h1))) fun _ =>
      Go.or_total ok_total fun _ => isEmpty_total r (opt_present he.2 (Except.ok.inj h2))

theorem isUnset_total {e : Expr} (he : (absent e || noHole e) = true) : ∀ p, e.isUnset ≠ .error p :=
  Go.or_total ok_total fun h => isEmpty_total e (opt_present he (Except.ok.inj h))

theorem withIsEmpty_total {n : Str} {e : Expr} (he : (absent e || noHole e) = true) :
    ∀ p, WithQuery.isEmpty ⟨n, e⟩ ≠ .error p :=
  Go.or_total ok_total fun _ => Go.or_total ok_total fun h =>
    isEmpty_total e (opt_present he (Except.ok.inj h))

/-! ## Writers that only panic on purpose -/

/-- `Bind` only panics on purpose. -/
def BindsOwn {σ : Type} (C : Context σ) : Prop := ∀ v s, Deliberate (fun _ => True) (C.bind v s)

/-- The writer only panics on purpose. -/
def OwnW (w : W) : Prop := ∀ (σ : Type) (C : Context σ) (s : σ), BindsOwn C → Deliberate (fun _ => True) (w σ C s)

theorem own_seq {a b : W} (ha : OwnW a) (hb : OwnW b) : OwnW (a ;; b) := by
  intro σ C s hC
  have h := ha σ C s hC
  show Deliberate _ (match a σ C s with | .error p => .error p | .ok s' => b σ C s')
  cases hx : a σ C s with
  | error p => rw [hx] at h; exact h
  | ok s' => exact hb σ C s' hC

theorem own_text (t : Str) : OwnW (text t) := fun _ _ _ _ => trivial
theorem own_skip : OwnW skip := fun _ _ _ _ => trivial
theorem own_bind (v : Val) : OwnW (bind v) := fun _ _ s hC => hC v s
theorem own_panic (m : String) : OwnW (panic (.msg m)) := fun _ _ _ _ => ⟨m, rfl⟩

theorem own_ite {c : Go Bool} {a b : W} (hc : ∀ p, c ≠ .error p) (ha : c = .ok true → OwnW a)
    (hb : c = .ok false → OwnW b) : OwnW (W.ite c a b) := by
  match c with
  | .error p => exact absurd rfl (hc p)
  | .ok true => exact ha rfl
  | .ok false => exact hb rfl

theorem own_if {P : Prop} [Decidable P] {a b : W} (ha : P → OwnW a) (hb : ¬ P → OwnW b) :
    OwnW (if P then a else b) := by
  split
  · exact ha ‹_›
  · exact hb ‹_›

theorem own_sepBy {α : Type} {f : α → W} : ∀ {l : List α}, (∀ a ∈ l, OwnW (f a)) → OwnW (sepBy f l)
  | [], _ => own_skip
  | [a], h => h a (by simp)
  | a :: b :: l, h =>
    own_seq (h a (by simp)) (own_seq (own_text _) (own_sepBy fun x hx => h x (List.mem_cons_of_mem _ hx)))

/-- Steps through sequences, texts and branches. -/
macro "own" : tactic => `(tactic| repeat' (first
  | exact own_text _ | exact own_skip | exact own_panic _ | exact own_bind _ | assumption
  | refine own_seq ?_ ?_ | refine own_if (fun _ => ?_) (fun _ => ?_)))

section
variable [GoRuntime]

theorem own_ident (i : Ident) : OwnW i.write := by cases i <;> (simp only [Ident.write]; own)
theorem own_column (c : Column) : OwnW c.write := by unfold Column.write; own
theorem own_table (t : Table) : OwnW t.write := by unfold Table.write; own
theorem own_order (o : Order) : OwnW o.write := by unfold Order.write; own
theorem own_columns (l : List Column) : OwnW (sepBy Column.write l) := own_sepBy fun c _ => own_column c
theorem own_aggAlias (a : Str) : OwnW (writeAggAlias a) := by unfold writeAggAlias; own
theorem own_groupBy (l : List Column) : OwnW (writeGroupBy l) := by
  have := own_columns l; unfold writeGroupBy; own
theorem own_distinctOn (l : List Column) : OwnW (writeDistinctOn l) := by
  have := own_columns l; unfold writeDistinctOn; own
theorem own_orderBy (l : List Order) : OwnW (writeOrderBy l) := by
  have : OwnW (sepBy Order.write l) := own_sepBy fun o _ => own_order o
  unfold writeOrderBy; own
theorem own_limit (n : Int) : OwnW (writeLimit n) := by unfold writeLimit; own
theorem own_offset (n : Int) : OwnW (writeOffset n) := by unfold writeOffset; own
theorem own_comment (c : Str) : OwnW (writeComment c) := by unfold writeComment; own

theorem own_op {op : Op} (h : op.isNil = false) : OwnW op.write := by
  cases op with
  | nil => cases h
  | logical s | comparison s => simp only [Op.write]; own

theorem own_from {l : List FromItem} (h : l.all (· ≠ .nil) = true) : OwnW (writeFrom l) := by
  have : OwnW (sepBy FromItem.write l) := by
    refine own_sepBy fun i hi => ?_
    have hn := List.all_eq_true.1 h i hi
    cases i with
    | nil => simp at hn
    | table t => exact own_table t
    | raw s => exact own_text s
  unfold writeFrom; own

mutual

theorem own_expr (e : Expr) (he : noHole e = true) : OwnW e.write := by
  match e with
  | .nil => cases he
  | .ident i => rw [Expr.write]; exact own_ident i
  | .value v =>
    rw [Expr.write.eq_def]
    simp only
    split <;> own
  | .arrayList l => rw [Expr.write]; exact own_rows l he
  | .array l => rw [Expr.write]; exact own_exprs l he
  | .raw s => rw [Expr.write]; own
  | .wrapper e => have := own_expr e he; rw [Expr.write]; own
  | .call f args => have := own_exprs args he; rw [Expr.write]; own
  | .infx l op r =>
    have ht := isEmpty_total _ he
    rw [noHole, Bool.and_eq_true] at he
    rw [Expr.write]
    refine own_ite ht (fun _ => own_panic _) fun hf => ?_
    rw [Expr.isEmpty] at hf
    rcases Go.or_ok hf with ⟨_, h⟩ | ⟨h1, hf⟩
    · cases h
    rcases Go.or_ok hf with ⟨_, h⟩ | ⟨h2, hf⟩
    · cases h
    rcases Go.or_ok hf with ⟨_, h⟩ | ⟨h3, hf⟩
    · cases h
    have := own_expr l (opt_present he.1 (Except.ok.inj h1))
    have := own_expr r (opt_present he.2 (Except.ok.inj h3))
    have := own_op (Except.ok.inj h2)
    own
  | .inx e op v =>
    have ht := isEmpty_total _ he
    rw [noHole, Bool.and_eq_true] at he
    rw [Expr.write]
    refine own_ite ht (fun _ => own_panic _) fun hf => ?_
    rw [Expr.isEmpty] at hf
    rcases Go.or_ok hf with ⟨_, h⟩ | ⟨_, hf⟩
    · cases h
    rcases Go.or_ok hf with ⟨_, h⟩ | ⟨_, hf⟩
    · cases h
    have hv := opt_present he.2 (Except.ok.inj hf)
    have := own_expr e he.1
    have : OwnW (W.ite v.isEmpty skip v.write) :=
      own_ite (isEmpty_total v hv) (fun _ => own_skip) (fun _ => own_expr v hv)
    own
  | .between i op lo and hi =>
    have ht := isEmpty_total _ he
    rw [noHole, Bool.and_eq_true] at he
    rw [Expr.write]
    refine own_ite ht (fun _ => own_panic _) fun hf => ?_
    rw [Expr.isEmpty] at hf
    rcases Go.or_ok hf with ⟨_, h⟩ | ⟨_, hf⟩
    · cases h
    rcases Go.or_ok hf with ⟨_, h⟩ | ⟨_, hf⟩
    · cases h
    rcases Go.or_ok hf with ⟨_, h⟩ | ⟨_, hf⟩
    · cases h
    rcases Go.or_ok hf with ⟨_, h⟩ | ⟨h1, hf⟩
    · cases h
    rcases Go.or_ok hf with ⟨_, h⟩ | ⟨h2, hf⟩
    · cases h
    have := own_ident i
    have := own_expr lo (opt_present he.1 (Except.ok.inj h1))
    have := own_expr hi (opt_present he.2 (Except.ok.inj h2))
    own
  | .exist e => have := own_expr e he; rw [Expr.write]; own
  | .notExist e => have := own_expr e he; rw [Expr.write]; own
  | .select s => rw [Expr.write]; exact own_select s he
  | .onClause l r =>
    have := own_column l
    have := own_column r
    rw [Expr.write]; own
  | .infixOn l op r =>
    have ht := isEmpty_total _ he
    rw [noHole, Bool.and_eq_true] at he
    rw [Expr.write]
    refine own_ite ht (fun _ => own_panic _) fun hf => ?_
    rw [Expr.isEmpty] at hf
    rcases Go.or_ok hf with ⟨_, h⟩ | ⟨h1, hf⟩
    · cases h
    rcases Go.or_ok hf with ⟨_, h⟩ | ⟨h2, hf⟩
    · cases h
    have := own_expr l (opt_present he.1 (Except.ok.inj h1))
    have := own_expr r (opt_present he.2 (Except.ok.inj h2))
    own

theorem own_exprs (l : List Expr) (h : noHoles l = true) : OwnW (writeExprs l) := by
  match l with
  | [] => exact own_skip
  | e :: l =>
    rw [noHoles, Bool.and_eq_true] at h
    have := own_expr e h.1
    have := own_exprsTail l h.2
    rw [writeExprs]; own

theorem own_exprsTail (l : List Expr) (h : noHoles l = true) : OwnW (writeExprsTail l) := by
  match l with
  | [] => exact own_skip
  | e :: l =>
    rw [noHoles, Bool.and_eq_true] at h
    have := own_expr e h.1
    have := own_exprsTail l h.2
    rw [writeExprsTail]; own

theorem own_rows (l : List Expr) (h : noHoles l = true) : OwnW (writeRows l) := by
  match l with
  | [] => exact own_skip
  | e :: l =>
    rw [noHoles, Bool.and_eq_true] at h
    have := own_expr e h.1
    have := own_rowsTail l h.2
    rw [writeRows]; own

theorem own_rowsTail (l : List Expr) (h : noHoles l = true) : OwnW (writeRowsTail l) := by
  match l with
  | [] => exact own_skip
  | e :: l =>
    rw [noHoles, Bool.and_eq_true] at h
    have := own_expr e h.1
    have := own_rowsTail l h.2
    rw [writeRowsTail]; own

theorem own_sel (s : SelExpr) (h : noHoleSel s = true) : OwnW s.write := by
  match s with
  | .nil => cases h
  | .column c => rw [SelExpr.write]; exact own_column c
  | .raw s => rw [SelExpr.write]; own
  | .count v d a => have := own_aggAlias a; rw [SelExpr.write]; own
  | .max v a => have := own_aggAlias a; rw [SelExpr.write]; own
  | .min v a => have := own_aggAlias a; rw [SelExpr.write]; own
  | .sum v a => have := own_aggAlias a; rw [SelExpr.write]; own
  | .exist e => have := own_expr e h; rw [SelExpr.write]; own
  | .notExist e => have := own_expr e h; rw [SelExpr.write]; own

theorem own_sels (l : List SelExpr) (h : noHoleSels l = true) : OwnW (writeSelExprs l) := by
  match l with
  | [] => exact own_skip
  | e :: l =>
    rw [noHoleSels, Bool.and_eq_true] at h
    have := own_sel e h.1
    have := own_selsTail l h.2
    rw [writeSelExprs]; own

theorem own_selsTail (l : List SelExpr) (h : noHoleSels l = true) : OwnW (writeSelExprsTail l) := by
  match l with
  | [] => exact own_skip
  | e :: l =>
    rw [noHoleSels, Bool.and_eq_true] at h
    have := own_sel e h.1
    have := own_selsTail l h.2
    rw [writeSelExprsTail]; own

theorem own_joins (l : List Join) (h : noHoleJoins l = true) : OwnW (writeJoins l) := by
  match l with
  | [] => exact own_skip
  | ⟨type, table, cond⟩ :: l =>
    rw [noHoleJoins, Bool.and_eq_true] at h
    have := own_expr cond h.1
    have := own_joins l h.2
    have := own_table table
    rw [writeJoins, Join.write]; own

theorem own_with (w : WithQuery) (h : noHoleWiths [w] = true) : OwnW w.write := by
  match w with
  | ⟨name, sub⟩ =>
    rw [noHoleWiths, Bool.and_eq_true] at h
    rw [WithQuery.write]
    refine own_ite (withIsEmpty_total h.1) (fun _ => own_skip) fun hf => ?_
    rcases Go.or_ok hf with ⟨_, h⟩ | ⟨_, hf⟩
    · cases h
    rcases Go.or_ok hf with ⟨_, h⟩ | ⟨hn, hf⟩
    · cases h
    have := own_expr sub (opt_present h.1 (Except.ok.inj hn))
    own

theorem own_withs (l : List WithQuery) (h : noHoleWiths l = true) : OwnW (writeWiths l) := by
  match l with
  | [] => exact own_skip
  | ⟨n, e⟩ :: l =>
    rw [noHoleWiths, Bool.and_eq_true] at h
    have := own_with ⟨n, e⟩ (by rw [noHoleWiths, h.1]; rfl)
    have := own_withsTail l h.2
    rw [writeWiths]; own

theorem own_withsTail (l : List WithQuery) (h : noHoleWiths l = true) : OwnW (writeWithsTail l) := by
  match l with
  | [] => exact own_skip
  | ⟨n, e⟩ :: l =>
    rw [noHoleWiths, Bool.and_eq_true] at h
    have := own_with ⟨n, e⟩ (by rw [noHoleWiths, h.1]; rfl)
    have := own_withsTail l h.2
    rw [writeWithsTail]; own

theorem own_select (s : SelectStmt) (h : noHoleSelect s = true) : OwnW s.write := by
  match s with
  | ⟨pfx, withs, distinct, distinctOn, exprs, tables, joins, whr, groupBy, having, orderBy,
      limit, offset, sfx, comment⟩ =>
    simp only [noHoleSelect, Bool.and_eq_true] at h
    obtain ⟨⟨⟨⟨⟨h1, h2⟩, h3⟩, h4⟩, h5⟩, h6⟩ := h
    have := own_withs withs h1
    have := own_sels exprs h2
    have := own_from h3
    have := own_joins joins h4
    have := own_distinctOn distinctOn
    have := own_groupBy groupBy
    have := own_orderBy orderBy
    have := own_limit limit
    have := own_offset offset
    have := own_comment comment
    have : OwnW (W.ite whr.isUnset skip (text s%" " ;; text Token.Where ;; text s%" " ;; whr.write)) := by
      refine own_ite (isUnset_total h5) (fun _ => own_skip) fun hf => ?_
      rcases Go.or_ok hf with ⟨_, h⟩ | ⟨hn, _⟩
      · cases h
      have := own_expr whr (opt_present h5 (Except.ok.inj hn))
      own
    have : OwnW (W.ite having.isUnset skip (text s%" " ;; text Token.Having ;; text s%" " ;; having.write)) := by
      refine own_ite (isUnset_total h6) (fun _ => own_skip) fun hf => ?_
      rcases Go.or_ok hf with ⟨_, h⟩ | ⟨hn, _⟩
      · cases h
      have := own_expr having (opt_present h6 (Except.ok.inj hn))
      own
    rw [SelectStmt.write]
    own

end

omit [GoRuntime] in
theorem noHoles_all {l : List Expr} : noHoles l = true ↔ ∀ e ∈ l, noHole e = true := by
  induction l with
  | nil => simp [noHoles]
  | cons e l ih => simp [noHoles, ih]

theorem own_returning {l : List SelExpr} (h : noHoleSels l = true) : OwnW (writeReturning l) := by
  have := own_sels l h
  unfold writeReturning; own

theorem own_where {e : Expr} (h : (absent e || noHole e) = true) : OwnW (writeWhere e) := by
  unfold writeWhere
  refine own_ite (isUnset_total h) (fun _ => own_panic _) fun hf => ?_
  rcases Go.or_ok hf with ⟨_, h⟩ | ⟨hn, _⟩
  · cases h
  have := own_expr e (opt_present h (Except.ok.inj hn))
  own

theorem own_values {e : Expr} (h : (absent e || noHole e) = true) : OwnW (writeValues e) := by
  unfold writeValues
  refine own_ite (isUnset_total h) (fun _ => own_skip) fun hf => ?_
  rcases Go.or_ok hf with ⟨_, h⟩ | ⟨hn, _⟩
  · cases h
  have := own_expr e (opt_present h (Except.ok.inj hn))
  own

theorem own_commentTail (c : Str) : OwnW (writeCommentTail c) := by
  have := own_comment c
  unfold writeCommentTail; own

omit [GoRuntime] in
theorem lookup_mem {m : List (Column × Expr)} {c : Column} {e : Expr} (h : mapLookup c m = some e) :
    ∃ ce ∈ m, ce.2 = e := by
  induction m with
  | nil => cases h
  | cons ce m ih =>
    obtain ⟨k, v⟩ := ce
    rw [mapLookup] at h
    split at h
    · cases h; exact ⟨_, List.mem_cons_self, rfl⟩
    · obtain ⟨ce, h1, h2⟩ := ih h
      exact ⟨ce, List.mem_cons_of_mem _ h1, h2⟩

theorem lookupAll_deliberate {m : List (Column × Expr)} (hm : ∀ ce ∈ m, noHole ce.2 = true) :
    ∀ (l : List Column), Deliberate (fun r => ∀ ce ∈ r, noHole ce.2 = true) (lookupAll m l)
  | [] => by simp [lookupAll, Deliberate]
  | c :: l => by
    have ih := lookupAll_deliberate hm l
    rw [lookupAll]
    split
    · exact ⟨_, rfl⟩
    · rename_i e he
      cases hx : lookupAll m l with
      | error p => rw [hx] at ih; exact ih
      | ok r =>
        rw [hx] at ih
        obtain ⟨ce, h1, rfl⟩ := lookup_mem he
        intro x hx
        rcases List.mem_cons.1 hx with rfl | hx
        · exact hm ce h1
        · exact ih x hx

omit [GoRuntime] in
theorem noHoleSet_iff {p : PairContainer} :
    noHoleSet p = true ↔ (∀ ce ∈ p.map, noHole ce.2 = true) ∧ noHoles p.expressions = true := by
  simp [noHoleSet]

theorem values_deliberate {p : PairContainer} (h : noHoleSet p = true) :
    Deliberate (fun r => noHoles r.2 = true) p.values := by
  obtain ⟨h1, h2⟩ := noHoleSet_iff.1 h
  unfold PairContainer.values
  split
  · exact h2
  · have := lookupAll_deliberate h1 (GoRuntime.sortSlice columnLess p.columns)
    cases hx : lookupAll p.map (GoRuntime.sortSlice columnLess p.columns) with
    | error e => rw [hx] at this; exact this
    | ok l =>
      rw [hx] at this
      refine noHoles_all.2 fun e he => ?_
      obtain ⟨ce, h1, rfl⟩ := List.mem_map.1 he
      exact this ce h1

theorem own_set {p : PairContainer} (h : noHoleSet p = true) : OwnW p.write := by
  have ha : OwnW p.writeAssociative := by
    have hv := values_deliberate h
    unfold PairContainer.writeAssociative
    cases hx : p.values with
    | error e => rw [hx] at hv; obtain ⟨m, rfl⟩ := hv; exact own_panic m
    | ok r =>
      rw [hx] at hv
      refine own_sepBy fun ce hce => ?_
      have := own_expr ce.2 (noHoles_all.1 hv _ (List.of_mem_zip (a := ce.1) (b := ce.2) hce).2)
      have := own_column ce.1
      unfold writePair; own
  have hb : OwnW p.writeArray := by
    have := own_exprs p.expressions (noHoleSet_iff.1 h).2
    have := own_columns p.columns
    unfold PairContainer.writeArray; own
  unfold PairContainer.write; own

theorem own_conflict {t : List Column} {a : ConflictAction}
    (h : ∀ set, a = .update set → noHoleSet set = true) : OwnW (writeOnConflict t a) := by
  have ht : OwnW (writeTarget t) := by have := own_columns t; unfold writeTarget; own
  have ha : a.isEmpty ≠ true → OwnW a.write := by
    intro hn
    cases a with
    | nil => exact absurd rfl hn
    | nothing => rw [ConflictAction.write]; own
    | update set => have := own_set (h set rfl); rw [ConflictAction.write]; own
  unfold writeOnConflict
  refine own_if (fun _ => own_skip) fun hn => ?_
  have := ha hn
  own

theorem own_stmt (s : Stmt) (h : noHoleStmt s = true) : OwnW s.write := by
  cases s with
  | select s => exact own_select s h
  | insert i =>
    simp only [noHoleStmt, noHoleInsert, Bool.and_eq_true] at h
    obtain ⟨⟨h1, h2⟩, h3⟩ := h
    have := own_table i.into
    have := own_columns i.columns
    have := own_returning h2
    have := own_commentTail i.comment
    have := own_conflict (t := i.target) (a := i.action) fun set hs => by rw [hs] at h3; exact h3
    have : OwnW (W.ite i.values.isUnset skip (text s%" " ;; writeValues i.values)) :=
      own_ite (isUnset_total h1) (fun _ => own_skip) fun _ => own_seq (own_text _) (own_values h1)
    show OwnW i.write
    unfold InsertStmt.write; own
  | update u =>
    simp only [noHoleStmt, noHoleUpdate, Bool.and_eq_true] at h
    obtain ⟨⟨⟨⟨h1, h2⟩, h3⟩, h4⟩, h5⟩ := h
    have : OwnW (writeWith u.withs) := by
      have := own_withs u.withs h1
      unfold writeWith; own
    have := own_table u.table
    have := own_set h2
    have := own_from h3
    have := own_returning h5
    have := own_commentTail u.comment
    have : OwnW (W.ite u.whr.isUnset skip (text s%" " ;; writeWhere u.whr)) :=
      own_ite (isUnset_total h4) (fun _ => own_skip) fun _ => own_seq (own_text _) (own_where h4)
    show OwnW u.write
    unfold UpdateStmt.write; own
  | delete d =>
    simp only [noHoleStmt, noHoleDelete, Bool.and_eq_true] at h
    obtain ⟨⟨h1, h2⟩, h3⟩ := h
    have : OwnW (writeUsing d.usings) := by
      have : OwnW (sepBy Table.write d.usings) := own_sepBy fun t _ => own_table t
      unfold writeUsing; own
    have := own_from h1
    have := own_returning h3
    have := own_commentTail d.comment
    have : OwnW (W.ite d.whr.isUnset skip (text s%" " ;; writeWhere d.whr)) :=
      own_ite (isUnset_total h2) (fun _ => own_skip) fun _ => own_seq (own_text _) (own_where h2)
    show OwnW d.write
    unfold DeleteStmt.write; own

/-! ## The three contexts -/

theorem formatValue_deliberate (v : Val) : Deliberate (fun _ => True) (formatValue v) := by
  match v with
  | .nil | .str _ | .bytes _ | .time _ _ | .valuerNil _ | .bool _ | .float32 _ | .float64 _
  | .slice _ _ | .opaque _ _ => trivial
  | .valuerErr _ => exact ⟨_, rfl⟩
  | .valuerOk _ v => rw [formatValue]; exact formatValue_deliberate v
  | .int k n => cases k <;> trivial
  | .uint k n => cases k <;> trivial

theorem raw_own : BindsOwn rawContext := by
  intro v s
  have h := formatValue_deliberate v
  show Deliberate _ (match formatValue v with | .error p => .error p | .ok t => .ok (s ++ t))
  cases hx : formatValue v with
  | error p => rw [hx] at h; exact h
  | ok t => trivial

theorem named_own : BindsOwn namedContext := fun _ _ => trivial
theorem std_own : BindsOwn stdContext := fun _ _ => trivial

end

end Verif
