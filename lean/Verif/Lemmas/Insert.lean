import Verif.Spec.Insert
import Verif.Lemmas.Pairs
import Verif.Lemmas.Calls

/-!
# Lemmas about INSERT
-/

set_option linter.unusedSectionVars false

namespace Verif
open Spec

/-! ## Expressions made of arguments -/

theorem newExpression_ne_nil {a : Any} {e : Expr} (h : newExpression a = .ok e) : e ≠ .nil := by
  intro he
  subst he
  unfold newExpression at h
  split at h
  · cases h
  · split at h
    · next e he =>
      cases h
      unfold Any.asExpr at he
      split at he
      · cases he
      · next h1 => cases he; exact h1 rfl
      · cases he
      · cases he
      · cases he
      · unfold embedded at he
        split at he
        · cases he
        · next h1 => exact h1 he
      · cases he
    · split at h
      · split at h <;> cases h
      · cases h
      · cases h
      · cases h
      · cases h
      · cases h
      · cases h
      · split at h
        · cases h
        · split at h
          · cases h
          · cases h
          · rename_i hne _; cases h; exact hne rfl
          · split at h
            · cases h
            · split at h
              · cases h
              · split at h
                · cases h
                · split at h <;> cases h
      · cases h

theorem newWrapped_ne_nil {a : Any} {e : Expr} (h : newWrapped a = .ok e) : e ≠ .nil := by
  unfold newWrapped at h
  split at h
  · cases h
  · next e' he =>
    cases h
    have := newExpression_ne_nil he
    intro h0
    unfold newWrapper at h0
    split at h0 <;> first | exact this h0 | cases h0

theorem newExpression_expr {e : Expr} (h : e ≠ .nil) : newExpression (.expr e) = .ok e := by
  cases e <;> first | exact absurd rfl h | rfl

theorem appendAll_exprs {es : List Expr} (h : ∀ e ∈ es, e ≠ .nil) :
    appendAll (es.map .expr) = .ok es := by
  induction es with
  | nil => rfl
  | cons e es ih =>
    rw [List.map_cons, appendAll, newExpression_expr (h e List.mem_cons_self),
      ih fun x hx => h x (List.mem_cons_of_mem _ hx)]

theorem appendAll_iff (l : List Any) (es : List Expr) :
    appendAll l = .ok es ↔ Each (fun a e => newExpression a = .ok e) l es := by
  induction l generalizing es with
  | nil =>
    constructor
    · intro h; cases h; exact .nil
    · intro h; cases h; rfl
  | cons a l ih =>
    rw [appendAll]
    constructor
    · intro h
      split at h
      · cases h
      · next e he =>
        split at h
        · cases h
        · next es' hes =>
          cases h
          exact .cons he ((ih es').1 hes)
    · intro h
      cases h with
      | cons h1 h2 => rw [h1, (ih _).2 h2]

/-- The values of `Insert.Set`. -/
theorem newArrayList_exprs {es : List Expr} (h : ∀ e ∈ es, e ≠ .nil) :
    newArrayListExpression [.exprs es] = .ok (.arrayList [.array es]) := by
  have h1 : newArrayExpression [.exprs es] = .ok (.array es) := by
    show toArray (.exprs es) = _
    unfold toArray
    rw [if_neg (by simp [Any.isNil])]
    simp only
    rw [appendAll_exprs h]
  unfold newArrayListExpression
  simp only [toArrayList]
  rw [h1]

theorem newArrayExpression_plain {row : List Any} (h : PlainRow row) :
    newArrayExpression row = match appendAll row with
      | .error p => .error p
      | .ok es => .ok (.array es) := by
  unfold newArrayExpression
  split
  · next v =>
    have hv := h v rfl
    cases v with
    | val x => cases x <;> first | exact absurd trivial hv | rfl
    | expr e => cases e <;> first | exact absurd trivial hv | rfl
    | selExpr e => cases e <;> first | exact absurd trivial hv | rfl
    | _ => first | exact absurd trivial hv | rfl
  · rfl

theorem arrayRows_plain {rows : List (List Any)} (h : ∀ row ∈ rows, PlainRow row) (es : List Expr) :
    arrayRows rows = .ok es ↔
      ∃ ess, Each (Each fun a e => newExpression a = .ok e) rows ess ∧ es = ess.map .array := by
  induction rows generalizing es with
  | nil =>
    constructor
    · intro h; cases h; exact ⟨[], .nil, rfl⟩
    · rintro ⟨ess, h, rfl⟩; cases h; rfl
  | cons row rows ih =>
    have h1 := newArrayExpression_plain (h row List.mem_cons_self)
    replace ih := ih fun r hr => h r (List.mem_cons_of_mem _ hr)
    rw [arrayRows, h1]
    constructor
    · intro h
      split at h
      · cases h
      · next e he =>
        split at he
        · cases he
        · next es' hes =>
          cases he
          split at h
          · cases h
          · next es'' hes'' =>
            cases h
            obtain ⟨ess, h2, rfl⟩ := (ih es'').1 hes''
            exact ⟨es' :: ess, .cons ((appendAll_iff _ _).1 hes) h2, rfl⟩
    · rintro ⟨ess, h2, rfl⟩
      cases h2 with
      | cons h3 h4 =>
        rw [(appendAll_iff _ _).2 h3]
        simp only
        rw [(ih _).2 ⟨_, h4, rfl⟩]
        rfl

theorem toArrayList_rows {a : Any} {rows : List (List Any)} (h : TableArgRows a rows) :
    toArrayList a = arrayRows rows := by
  unfold TableArgRows at h
  split at h <;> first | (subst h; rfl) | exact h.elim

theorem toArrayList_other {a : Any} (h : ¬ SliceOfSlices a) : toArrayList a = .ok [] := by
  unfold toArrayList
  split <;> first | exact absurd trivial h | rfl

theorem newArrayExpression_cells (row : List Any) :
    newArrayExpression row = match appendAll (rowCells row) with
      | .error p => .error p
      | .ok es => .ok (.array es) := by
  unfold newArrayExpression
  split
  · next v =>
    cases v with
    | val x => cases x <;> rfl
    | expr e => cases e <;> rfl
    | selExpr e => cases e <;> rfl
    | _ => rfl
  · next h =>
    cases row with
    | nil => rfl
    | cons a l =>
      cases l with
      | nil => exact absurd rfl (h a)
      | cons b l =>
        have : rowCells (a :: b :: l) = a :: b :: l := by
          unfold rowCells
          split <;> first | rfl | (rename_i h'; cases h')
        rw [this]
        rfl

theorem arrayRows_cells (rows : List (List Any)) (es : List Expr) :
    arrayRows rows = .ok es ↔ ∃ ess, Each (Each fun a e => newExpression a = .ok e)
      (rows.map rowCells) ess ∧ es = ess.map .array := by
  induction rows generalizing es with
  | nil =>
    constructor
    · intro h; cases h; exact ⟨[], .nil, rfl⟩
    · rintro ⟨ess, h, rfl⟩; cases h; rfl
  | cons row rows ih =>
    have h1 := newArrayExpression_cells row
    rw [arrayRows, h1]
    constructor
    · intro h
      split at h
      · cases h
      · next e he =>
        split at he
        · cases he
        · next es' hes =>
          cases he
          split at h
          · cases h
          · next es'' hes'' =>
            cases h
            obtain ⟨ess, h2, rfl⟩ := (ih es'').1 hes''
            exact ⟨es' :: ess, .cons ((appendAll_iff _ _).1 hes) h2, rfl⟩
    · rintro ⟨ess, h2, rfl⟩
      cases h2 with
      | cons h3 h4 =>
        rw [(appendAll_iff _ _).2 h3]
        simp only
        rw [(ih _).2 ⟨_, h4, rfl⟩]
        rfl

theorem newExpression_table {v : Any} (h : SliceOfSlices v) : newExpression v = cannotUse := by
  cases v <;> first | exact h.elim | rfl

theorem rowCells_table {v : Any} {l : List Any} (h : SliceOfSlices v) :
    rowCells (v :: l) = v :: l := by
  cases v <;> first | exact h.elim | rfl

/-- What `NewArrayListExpression` makes of the arguments of `Values`. -/
theorem newArrayList_exact (args : List Any) (e : Expr) : newArrayListExpression args = .ok e ↔
    ∃ rows ess, ValuesRows args rows ∧ Each (Each fun a e => newExpression a = .ok e) rows ess ∧
      e = .arrayList (ess.map .array) := by
  cases args with
  | nil =>
    constructor
    · intro h; cases h
    · rintro ⟨rows, ess, ⟨v, l, h, -⟩, -⟩; cases h
  | cons v l =>
    by_cases hv : SliceOfSlices v
    · have hfail : ∃ p, newArrayExpression (v :: l) = .error p := by
        rw [newArrayExpression_cells, rowCells_table hv, appendAll, newExpression_table hv]
        exact ⟨_, rfl⟩
      obtain ⟨p, hfail⟩ := hfail
      by_cases ht : ∃ table, TableArgRows v table
      · obtain ⟨table, ht⟩ := ht
        have htu : ∀ table', TableArgRows v table' → table' = table := by
          intro table' ht'
          unfold TableArgRows at ht ht'
          split at ht <;> first | (subst ht; exact ht') | exact ht.elim
        unfold newArrayListExpression
        simp only [toArrayList_rows ht]
        cases table with
        | nil =>
          simp only [arrayRows, hfail]
          constructor
          · intro h; cases h
          · rintro ⟨rows, ess, ⟨v', l', h, h'⟩, -⟩
            cases h
            rcases h' with ⟨table, h1, h2, -⟩ | ⟨h1, -⟩
            · exact absurd (htu _ h1) h2
            · exact absurd hv h1
        | cons row table =>
          have key := fun es => arrayRows_cells (row :: table) es
          constructor
          · intro h
            split at h
            · cases h
            · next h0 =>
              obtain ⟨ess, h1, h2⟩ := (key _).1 h0
              cases h1 with
              | cons _ _ => cases h2
            · next es _ h0 =>
              cases h
              obtain ⟨ess, h1, rfl⟩ := (key _).1 h0
              exact ⟨_, ess, ⟨v, l, rfl, .inl ⟨_, ht, by simp, rfl⟩⟩, h1, rfl⟩
          · rintro ⟨rows, ess, ⟨v', l', h, h'⟩, h1, rfl⟩
            cases h
            rcases h' with ⟨table', h2, -, rfl⟩ | ⟨h2, -⟩
            · rw [htu _ h2] at h1
              rw [(key _).2 ⟨ess, h1, rfl⟩]
              cases h1 with
              | cons _ _ => rfl
            · exact absurd hv h2
      · have h0 : toArrayList v = .ok [] := by
          unfold toArrayList
          split <;> first | rfl | exact absurd ⟨_, rfl⟩ ht
        unfold newArrayListExpression
        simp only [h0, hfail]
        constructor
        · intro h; cases h
        · rintro ⟨rows, ess, ⟨v', l', h, h'⟩, -⟩
          cases h
          rcases h' with ⟨table, h1, -⟩ | ⟨h1, -⟩
          · exact absurd ⟨_, h1⟩ ht
          · exact absurd hv h1
    · unfold newArrayListExpression
      simp only [toArrayList_other hv, newArrayExpression_cells]
      constructor
      · intro h
        split at h
        · cases h
        · next e' he =>
          cases h
          split at he
          · cases he
          · next es hes =>
            cases he
            exact ⟨_, [es], ⟨v, l, rfl, .inr ⟨hv, rfl⟩⟩,
              .cons ((appendAll_iff _ _).1 hes) .nil, rfl⟩
      · rintro ⟨rows, ess, ⟨v', l', h, h'⟩, h1, rfl⟩
        cases h
        rcases h' with ⟨table, h2, -⟩ | ⟨-, rfl⟩
        · unfold TableArgRows at h2
          split at h2 <;> first | exact h2.elim | exact absurd trivial hv
        · cases h1 with
          | cons h3 h4 =>
            cases h4
            rw [(appendAll_iff _ _).2 h3]
            rfl

section
variable [GoRuntime]

/-! ## Texts -/

theorem texts_each {l : List Expr} {ts : List Str} (h : Texts (fun e : Expr => e.write.string) l ts) :
    Each (fun (e : Expr) t => e.write.string = .ok t) l ts := by
  induction l generalizing ts with
  | nil =>
    cases ts with
    | nil => exact .nil
    | cons _ _ => cases h
  | cons e l ih =>
    cases ts with
    | nil => cases h
    | cons t ts =>
      simp only [Texts, List.map_cons, List.cons.injEq] at h
      exact .cons h.1 (ih h.2)

theorem each_comp {α β γ : Type} {R : α → β → Prop} {S : β → γ → Prop} {l : List α} {m : List β}
    {n : List γ} (h : Each R l m) (h' : Each S m n) : Each (fun a c => ∃ b, R a b ∧ S b c) l n := by
  induction h generalizing n with
  | nil => cases h'; exact .nil
  | cons h1 _ ih =>
    cases h' with
    | cons h2 h3 => exact .cons ⟨_, h1, h2⟩ (ih h3)

theorem each_mono {α β : Type} {R S : α → β → Prop} (hRS : ∀ a b, R a b → S a b) {l : List α}
    {m : List β} (h : Each R l m) : Each S l m := by
  induction h with
  | nil => exact .nil
  | cons h1 _ ih => exact .cons (hRS _ _ h1) ih

theorem array_text {es : List Expr} {t : Str} (h : (Expr.array es).write.string = .ok t) :
    ∃ ts, Each (fun (e : Expr) t => e.write.string = .ok t) es ts ∧ t = commaText ts := by
  obtain ⟨hok, ht⟩ := (expr_string _ _).1 h
  rw [exprL, exprsL_map] at ht
  rw [okE] at hok
  obtain ⟨ts, h1, rfl⟩ := commaSep_texts denotes_expr ((okEs_all _).1 hok) ht
  exact ⟨ts, texts_each h1, rfl⟩

/-- The text of rows. -/
theorem arrayList_text {ess : List (List Expr)} {t : Str}
    (h : (Expr.arrayList (ess.map .array)).write.string = .ok t) :
    ∃ rows, Each (Each fun (e : Expr) t => e.write.string = .ok t) ess rows ∧ t = rowsText rows := by
  obtain ⟨hok, ht⟩ := (expr_string _ _).1 h
  rw [exprL] at ht
  rw [okE] at hok
  obtain ⟨ts, h1, rfl⟩ := (rawText_commaSep _ _).1 ht
  unfold rowsText
  suffices hs : ∃ rows, Each (Each fun (e : Expr) t => e.write.string = .ok t) ess rows ∧
      ts = rows.map fun cells => s%"(" ++ commaText cells ++ s%")" by
    obtain ⟨rows, h2, rfl⟩ := hs
    exact ⟨rows, h2, rfl⟩
  clear ht h
  induction ess generalizing ts with
  | nil =>
    cases ts with
    | nil => exact ⟨[], .nil, rfl⟩
    | cons _ _ => cases h1
  | cons es ess ih =>
    cases ts with
    | nil => cases h1
    | cons t ts =>
      simp only [List.map_cons, rowsL, List.cons.injEq] at h1
      simp only [List.map_cons, okEs, Bool.and_eq_true] at hok
      obtain ⟨rows, h2, rfl⟩ := ih hok.2 ts h1.2
      obtain ⟨t1, t2, e1, e2, rfl⟩ := rawText_append_inv h1.1
      obtain ⟨t3, e3, rfl⟩ := rawText_sql_inv e1
      obtain ⟨t4, e4, rfl⟩ := rawText_sql_inv e2
      cases e4
      obtain ⟨cells, h3, rfl⟩ := array_text ((expr_string (.array es) t3).2 ⟨hok.1, e3⟩)
      exact ⟨cells :: rows, .cons h3 h2, by simp⟩

theorem oneSpace_merge (l r : List (Option Str)) (x y : Str) :
    oneSpace (l ++ some x :: some y :: r) = oneSpace (l ++ some (x ++ s%" " ++ y) :: r) := by
  have key : ∀ l r : List Str, List.intercalate s%" " (l ++ x :: y :: r) =
      List.intercalate s%" " (l ++ (x ++ s%" " ++ y) :: r) := by
    intro l r
    induction l with
    | nil =>
      rw [List.nil_append, List.nil_append, intercalate_cons2]
      cases r with
      | nil => simp [List.intercalate]
      | cons z r => rw [intercalate_cons2, intercalate_cons2]; simp
    | cons z l ih =>
      cases l with
      | nil =>
        simp only [List.cons_append, List.nil_append] at ih ⊢
        rw [intercalate_cons2 _ z x, ih]
        exact (intercalate_cons2 ..).symm
      | cons w l =>
        simp only [List.cons_append] at ih ⊢
        rw [intercalate_cons2 _ z w, ih]
        exact (intercalate_cons2 ..).symm
  unfold oneSpace
  simpa using key (l.filterMap id) (r.filterMap id)

theorem denotes_onConflict (target : List Column) (action : ConflictAction)
    (hb : actionBlank action = false) :
    Denotes (writeOnConflict target action) (okAction action) (evs (conflictL target action)) := by
  have hda := denotes_action action
  unfold writeOnConflict
  rw [actionIsEmpty_eq, hb, if_neg (by simp)]
  have hdt : Denotes (if target.isEmpty then W.skip else writeTarget target ;; W.text s%" ")
      true (evs (if target.isEmpty then []
        else .sql s%"(" :: commaSep (target.map columnL) ++ [.sql s%") "])) := by
    unfold writeTarget
    cases hh : target with
    | nil => exact Denotes.skip
    | cons c l =>
      refine ((((Denotes.text s%"(").seq ((denotes_columns (c :: l)).seq
        (Denotes.text s%")"))).seq (Denotes.text s%" "))).congr rfl ?_
      simp [evs, Piece.evs, chs]
  refine ((Denotes.text Token.On).seq ((Denotes.text s%" ").seq ((Denotes.text Token.Conflict).seq
    ((Denotes.text s%" ").seq (hdt.seq hda))))).congr ?_ ?_
  · simp
  · simp [conflictL, evs, Piece.evs, chs, Token.On, Token.Conflict]

theorem onConflict_text {target : List Column} {action : ConflictAction} {t : Str}
    (hb : actionBlank action = false) (h : (writeOnConflict target action).string = .ok t) :
    ∃ ts a, Texts (fun c : Column => c.write.string) target ts ∧ action.write.string = .ok a ∧
      t = s%"ON CONFLICT " ++ targetText ts ++ a := by
  obtain ⟨hok, ht⟩ := (string_denotes (denotes_onConflict target action hb) t).1 h
  unfold conflictL at ht
  obtain ⟨t1, t2, e1, e2, rfl⟩ := rawText_append_inv ht
  obtain ⟨t3, e3, rfl⟩ := rawText_sql_inv e1
  have ha := (string_denotes (denotes_action action) t2).2 ⟨hok, e2⟩
  cases hc : target with
  | nil =>
    rw [hc] at e3
    cases e3
    exact ⟨[], t2, rfl, ha, by simp [targetText]⟩
  | cons c l =>
    rw [hc, if_neg (by simp)] at e3
    obtain ⟨t4, t5, e4, e5, rfl⟩ := rawText_append_inv e3
    obtain ⟨t6, e6, rfl⟩ := rawText_sql_inv e4
    obtain ⟨t7, e7, rfl⟩ := rawText_sql_inv e5
    cases e7
    obtain ⟨ts, h1, rfl⟩ := commaSep_texts denotes_column (fun _ _ => rfl) e6
    refine ⟨ts, t2, h1, ha, ?_⟩
    have : ts.isEmpty = false := by
      cases ts with
      | nil => cases h1
      | cons _ _ => rfl
    simp [targetText, this]

theorem doUpdate_text {set : PairContainer} {t : Str}
    (h : (ConflictAction.update set).write.string = .ok t) :
    ∃ u, set.write.string = .ok u ∧ t = s%"DO UPDATE " ++ u := by
  obtain ⟨hok, ht⟩ := (string_denotes (denotes_action (.update set)) t).1 h
  rw [actionL] at ht
  obtain ⟨u, hu, rfl⟩ := rawText_sql_inv ht
  exact ⟨u, (string_denotes (denotes_set set) u).2 ⟨hok, hu⟩, rfl⟩

/-! ## ON CONFLICT -/

theorem loop_target {a : Any} {c : Column} (h : KeyArg a c) (b : InsertStmt) (l : List Any) :
    b.onConflictLoop (a :: l) = InsertStmt.onConflictLoop { b with target := b.target ++ [c] } l := by
  have hc := (toColumn_iff a c).2 h
  unfold KeyArg at h
  split at h
  · rw [InsertStmt.onConflictLoop, hc]
  · rw [InsertStmt.onConflictLoop, hc]
  · exact h.elim

/-- What a clause of ON CONFLICT does to a statement with targets `ts`. -/
theorem onConflictLoop_ok {args : List Any} : ∀ {b b' : InsertStmt},
    b.onConflictLoop args = .ok b' → ∃ targets rest cs, Each KeyArg targets cs ∧
      (args = targets ++ .conflictNothing :: rest ∧
        b' = { b with target := b.target ++ cs, action := .nothing } ∨
      ∃ set, args = targets ++ .conflictUpdate set :: rest ∧ b.target ++ cs ≠ [] ∧
        b' = { b with target := b.target ++ cs, action := .update set }) := by
  induction args with
  | nil => intro b b' h; cases h
  | cons a l ih =>
    intro b b' h
    have target : ∀ c, KeyArg a c →
        InsertStmt.onConflictLoop { b with target := b.target ++ [c] } l = .ok b' →
        ∃ targets rest cs, Each KeyArg targets cs ∧
      (a :: l = targets ++ .conflictNothing :: rest ∧
        b' = { b with target := b.target ++ cs, action := .nothing } ∨
      ∃ set, a :: l = targets ++ .conflictUpdate set :: rest ∧ b.target ++ cs ≠ [] ∧
        b' = { b with target := b.target ++ cs, action := .update set }) := by
      intro c hc h
      obtain ⟨targets, rest, cs, h1, h2⟩ := ih h
      refine ⟨a :: targets, rest, c :: cs, .cons hc h1, ?_⟩
      rcases h2 with ⟨h2, rfl⟩ | ⟨set, h2, h3, rfl⟩
      · exact .inl ⟨by rw [h2]; rfl, by simp⟩
      · exact .inr ⟨set, by rw [h2]; rfl, by simp, by simp⟩
    unfold InsertStmt.onConflictLoop at h
    split at h
    · cases h
      exact ⟨[], l, [], .nil, .inl ⟨rfl, by simp⟩⟩
    · next set =>
      split at h
      · cases h
      · next hne =>
        cases h
        exact ⟨[], l, [], .nil, .inr ⟨set, rfl, by simpa using hne, by simp⟩⟩
    · split at h
      · cases h
      · next hc => exact target _ ((toColumn_iff _ _).1 hc) h
    · split at h
      · cases h
      · next hc => exact target _ ((toColumn_iff _ _).1 hc) h
    · cases h

theorem onConflictLoop_targets {targets : List Any} {cs : List Column} (h : Each KeyArg targets cs) :
    ∀ (b : InsertStmt) (l : List Any), b.onConflictLoop (targets ++ l) =
      InsertStmt.onConflictLoop { b with target := b.target ++ cs } l := by
  induction h with
  | nil => intro b l; simp
  | cons h1 _ ih =>
    intro b l
    rw [List.cons_append, loop_target h1, ih]
    simp

theorem onConflictLoop_iff (args : List Any) (b b' : InsertStmt) :
    b.onConflictLoop args = .ok b' ↔ ∃ targets rest cs, Each KeyArg targets cs ∧
      (args = targets ++ .conflictNothing :: rest ∧
        b' = { b with target := b.target ++ cs, action := .nothing } ∨
      ∃ set, args = targets ++ .conflictUpdate set :: rest ∧ b.target ++ cs ≠ [] ∧
        b' = { b with target := b.target ++ cs, action := .update set }) := by
  constructor
  · exact onConflictLoop_ok
  · rintro ⟨targets, rest, cs, h1, ⟨rfl, rfl⟩ | ⟨set, rfl, h2, rfl⟩⟩
    · rw [onConflictLoop_targets h1]; rfl
    · rw [onConflictLoop_targets h1, InsertStmt.onConflictLoop, if_neg (by simpa using h2)]

end

end Verif
