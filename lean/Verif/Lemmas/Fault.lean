import Verif.Spec.Fault
import Verif.Lemmas.Panic

/-!
# Lemmas about faults
-/

set_option linter.unusedSectionVars false

namespace Verif
open W Spec

/-! ## Emptiness -/

theorem Go.or_decided (a b : Bool) (x : Go Bool) : Go.or (if a then .error .nilDeref else .ok b) x =
    if a then .error .nilDeref else if b then .ok true else x := by
  cases a <;> cases b <;> rfl

theorem unclear_of_absent {e : Expr} (h : absent e = true) : unclear e = true := by
  cases e <;> first | rfl | cases h

theorem isEmpty_exact (e : Expr) :
    e.isEmpty = if unclear e then .error .nilDeref else .ok (blank e) := by
  match e with
  | .nil => rfl
  | .ident i => cases i <;> rfl
  | .value _ | .arrayList _ | .array _ | .raw _ | .call _ _ | .exist _ | .notExist _ => rfl
  | .select s => cases s; rfl
  | .onClause l r => rfl
  | .wrapper e => rw [Expr.isEmpty, unclear, blank]; exact isEmpty_exact e
  | .infx l op r =>
    have hl := isEmpty_exact l
    have hr := isEmpty_exact r
    rw [Expr.isEmpty, hl, hr, unclear, blank, isNil_eq, isNil_eq]
    have hla : absent l = true → blank l = true := fun h => blank_of_isNil (by rw [isNil_eq, h])
    have hra : absent r = true → blank r = true := fun h => blank_of_isNil (by rw [isNil_eq, h])
    generalize absent l = la, absent r = ra, unclear l = lu, unclear r = ru, blank l = lb,
      blank r = rb at *
    cases op with
    | nil => cases la <;> cases ra <;> cases lu <;> cases ru <;> cases lb <;> cases rb <;>
        simp_all [Go.or, Op.isNil, opBlank]
    | logical s | comparison s =>
      cases la <;> cases ra <;> cases lu <;> cases ru <;> cases lb <;> cases rb <;> cases s <;>
        simp_all [Go.or, Op.isNil, Op.isEmpty, opBlank]
  | .inx e op v =>
    have he := isEmpty_exact e
    rw [Expr.isEmpty, he, unclear, blank, isNil_eq]
    generalize unclear e = eu, blank e = eb, op.isEmpty = oe, absent v = va
    cases eu <;> cases eb <;> cases oe <;> cases va <;> rfl
  | .between i op lo and hi =>
    have hl := isEmpty_exact lo
    have hr := isEmpty_exact hi
    have hi' : i.isEmpty = identBlank i := by cases i <;> rfl
    rw [Expr.isEmpty, hl, hr, unclear, blank, isNil_eq, isNil_eq, hi']
    have hla : absent lo = true → blank lo = true := fun h => blank_of_isNil (by rw [isNil_eq, h])
    have hra : absent hi = true → blank hi = true := fun h => blank_of_isNil (by rw [isNil_eq, h])
    generalize absent lo = la, absent hi = ra, unclear lo = lu, unclear hi = ru, blank lo = lb,
      blank hi = rb, identBlank i = ib, op.isEmpty = oe, and.isEmpty = ae at *
    cases ib
    · cases oe
      · cases ae
        · cases la <;> cases ra <;> cases lu <;> cases ru <;> cases lb <;> cases rb <;>
            simp_all [Go.or]
        · rfl
      · rfl
    · rfl
  | .infixOn l op r =>
    have hl := isEmpty_exact l
    have hr := isEmpty_exact r
    rw [Expr.isEmpty, hl, hr, unclear, blank, isNil_eq, isNil_eq]
    have hla : absent l = true → blank l = true := fun h => blank_of_isNil (by rw [isNil_eq, h])
    have hra : absent r = true → blank r = true := fun h => blank_of_isNil (by rw [isNil_eq, h])
    generalize absent l = la, absent r = ra, unclear l = lu, unclear r = ru, blank l = lb,
      blank r = rb, op.isEmpty = oe at *
    cases la <;> cases ra <;> cases lu <;> cases ru <;> cases lb <;> cases rb <;> cases oe <;>
      simp_all [Go.or]

theorem isUnset_exact (e : Expr) : e.isUnset =
    if absent e then .ok true else if unclear e then .error .nilDeref else .ok (blank e) := by
  rw [Expr.isUnset, isNil_eq, isEmpty_exact]
  cases absent e <;> rfl

theorem withIsEmpty_exact (n : Str) (e : Expr) : WithQuery.isEmpty ⟨n, e⟩ =
    if n.isEmpty then .ok true else if absent e then .ok true
    else if unclear e then .error .nilDeref else .ok (blank e) := by
  rw [WithQuery.isEmpty, isNil_eq, isEmpty_exact]
  simp only
  cases n.isEmpty <;> cases absent e <;> rfl

/-! ## Writers and their faults -/

section
variable [GoRuntime]

/-- In the context, the writer ends in the first of the faults, and is done if there is none. -/
def Faulty {σ : Type} (C : Context σ) (w : W) (fs : List Panic) : Prop :=
  ∀ s, match fs with
    | [] => ∃ s', w σ C s = .ok s'
    | p :: _ => w σ C s = .error p

/-- `Bind` ends in the first of the faults of the value. -/
def BindFaulty {σ : Type} (C : Context σ) (vf : Val → List Panic) : Prop := ∀ v, Faulty C (bind v) (vf v)

variable {σ : Type} {C : Context σ} {vf : Val → List Panic}

theorem faulty_seq {a b : W} {fs gs : List Panic} (ha : Faulty C a fs) (hb : Faulty C b gs) :
    Faulty C (a ;; b) (fs ++ gs) := by
  intro s
  have h := ha s
  cases fs with
  | cons p l =>
    show (match a σ C s with | .error p => .error p | .ok s' => b σ C s' : Go σ) = .error p
    rw [show a σ C s = .error p from h]
  | nil =>
    obtain ⟨s', hs⟩ := h
    have hseq : (a ;; b) σ C s = b σ C s' := by
      show (match a σ C s with | .error p => .error p | .ok s' => b σ C s' : Go σ) = _
      rw [hs]
    have := hb s'
    cases gs with
    | nil => obtain ⟨t, ht⟩ := this; exact ⟨t, hseq.trans ht⟩
    | cons p l => exact hseq.trans this

theorem faulty_text (t : Str) : Faulty C (text t) [] := fun _ => ⟨_, rfl⟩
theorem faulty_skip : Faulty C skip [] := fun _ => ⟨_, rfl⟩
theorem faulty_panic (p : Panic) : Faulty C (panic p) [p] := fun _ => rfl

theorem Faulty.cast {w : W} {fs gs : List Panic} (h : Faulty C w fs) (e : fs = gs) : Faulty C w gs := e ▸ h

theorem faulty_if {P : Prop} [Decidable P] {a b : W} {fs gs : List Panic} (ha : P → Faulty C a fs)
    (hb : ¬ P → Faulty C b gs) : Faulty C (if P then a else b) (if P then fs else gs) := by
  split
  · exact ha ‹_›
  · exact hb ‹_›

theorem faulty_ifNone {P : Prop} [Decidable P] {a b : W} (ha : Faulty C a [])
    (hb : Faulty C b []) : Faulty C (if P then a else b) [] := by
  split
  · exact ha
  · exact hb

theorem faulty_isEmpty {e : Expr} {a b : W} {fs gs : List Panic} (ha : Faulty C a fs)
    (hb : unclear e = false → blank e = false → Faulty C b gs) :
    Faulty C (W.ite e.isEmpty a b) (unlessEmpty e fs gs) := by
  rw [isEmpty_exact, unlessEmpty]
  cases hu : unclear e with
  | true => exact faulty_panic _
  | false =>
    cases hbl : blank e with
    | true => exact ha
    | false => exact hb hu hbl

theorem faulty_isUnset {e : Expr} {b : W} {gs : List Panic}
    (hb : absent e = false → unclear e = false → blank e = false → Faulty C b gs) :
    Faulty C (W.ite e.isUnset skip b) (unlessUnset e gs) := by
  rw [isUnset_exact, unlessUnset, unlessEmpty]
  cases ha : absent e with
  | true => exact faulty_skip
  | false =>
    cases hu : unclear e with
    | true => exact faulty_panic _
    | false =>
      cases hbl : blank e with
      | true => exact faulty_skip
      | false => exact hb ha hu hbl

theorem faulty_sepBy {α : Type} {f : α → W} {g : α → List Panic} :
    ∀ {l : List α}, (∀ a ∈ l, Faulty C (f a) (g a)) → Faulty C (sepBy f l) (l.flatMap g)
  | [], _ => faulty_skip
  | [a], h => (h a (by simp)).cast (by simp)
  | a :: b :: l, h =>
    (faulty_seq (h a (by simp)) (faulty_seq (faulty_text _)
      (faulty_sepBy fun x hx => h x (List.mem_cons_of_mem _ hx)))).cast (by simp)

/-- Steps through sequences, texts and branches. -/
macro "flt" : tactic => `(tactic| repeat' (first
  | assumption | exact faulty_text _ | exact faulty_skip | exact faulty_panic _
  | apply faulty_seq))

/-- The same, up to the way of writing the list. -/
macro "fltc" : tactic => `(tactic| exact Faulty.cast (by flt) (by simp))

/-- The same where there are no faults. -/
macro "flt0" : tactic => `(tactic| repeat' (first
  | assumption | exact faulty_text _ | exact faulty_skip | (refine faulty_ifNone ?_ ?_)
  | (refine (faulty_seq (fs := []) (gs := []) ?_ ?_).cast rfl)))

theorem faulty_ident (i : Ident) : Faulty C i.write [] := by cases i <;> (simp only [Ident.write]; flt0)
theorem faulty_column (c : Column) : Faulty C c.write [] := by unfold Column.write; flt0
theorem faulty_table (t : Table) : Faulty C t.write [] := by unfold Table.write; flt0
theorem faulty_order (o : Order) : Faulty C o.write [] := by unfold Order.write; flt0
theorem faulty_columns (l : List Column) : Faulty C (sepBy Column.write l) [] :=
  (faulty_sepBy (g := fun _ => []) fun c _ => faulty_column c).cast (by simp)
theorem faulty_aggAlias (a : Str) : Faulty C (writeAggAlias a) [] := by unfold writeAggAlias; flt0
theorem faulty_groupBy (l : List Column) : Faulty C (writeGroupBy l) [] := by
  have := faulty_columns (C := C) l; unfold writeGroupBy; flt0
theorem faulty_distinctOn (l : List Column) : Faulty C (writeDistinctOn l) [] := by
  have := faulty_columns (C := C) l; unfold writeDistinctOn; flt0
theorem faulty_orderBy (l : List Order) : Faulty C (writeOrderBy l) [] := by
  have : Faulty C (sepBy Order.write l) [] :=
    (faulty_sepBy (g := fun _ => []) fun o _ => faulty_order o).cast (by simp)
  unfold writeOrderBy; flt0
theorem faulty_limit (n : Int) : Faulty C (writeLimit n) [] := by unfold writeLimit; flt0
theorem faulty_offset (n : Int) : Faulty C (writeOffset n) [] := by unfold writeOffset; flt0
theorem faulty_comment (c : Str) : Faulty C (writeComment c) [] := by unfold writeComment; flt0

theorem faulty_op {op : Op} (h : op ≠ .nil) : Faulty C op.write [] := by
  cases op with
  | nil => exact absurd rfl h
  | logical s | comparison s => simp only [Op.write]; flt0

theorem faulty_from (l : List FromItem) : Faulty C (writeFrom l) (tableFaults l) := by
  have : Faulty C (sepBy FromItem.write l) (tableFaults l) := by
    refine faulty_sepBy fun i _ => ?_
    cases i with
    | nil => exact faulty_panic _
    | table t => exact (faulty_table t).cast (by simp)
    | raw s => exact (faulty_text s).cast (by simp)
  unfold writeFrom; fltc

mutual

theorem faulty_expr (hC : BindFaulty C vf) (e : Expr) : Faulty C e.write (faults vf e) := by
  match e with
  | .nil => exact faulty_panic _
  | .ident i => rw [Expr.write, faults]; exact faulty_ident i
  | .value v =>
    rw [Expr.write.eq_def]
    simp only
    cases v with
    | nil => rw [faults]; exact faulty_text _
    | _ => rw [faults]; exact hC _; simp
  | .arrayList l => rw [Expr.write, faults]; exact faulty_rows hC l
  | .array l => rw [Expr.write, faults]; exact faulty_exprs hC l
  | .raw s => rw [Expr.write, faults]; exact faulty_text s
  | .wrapper e =>
    have := faulty_expr hC e; rw [Expr.write, faults]
    fltc
  | .call f args =>
    have := faulty_exprs hC args; rw [Expr.write, faults]
    fltc
  | .infx l op r =>
    have := faulty_expr hC l
    have := faulty_expr hC r
    rw [Expr.write, faults]
    refine faulty_isEmpty (faulty_panic _) fun _ hb => ?_
    have := faulty_op (C := C) (op := op) (by rintro rfl; simp [blank, opBlank] at hb)
    fltc
  | .inx e op v =>
    have := faulty_expr hC e
    have := faulty_expr hC v
    rw [Expr.write, faults]
    refine faulty_isEmpty (faulty_panic _) fun _ hb => ?_
    have := faulty_isEmpty (e := v) faulty_skip (fun _ _ => this)
    fltc
  | .between i op lo and hi =>
    have := faulty_expr hC lo
    have := faulty_expr hC hi
    have := faulty_ident (C := C) i
    rw [Expr.write, faults]
    refine faulty_isEmpty (faulty_panic _) fun _ hb => ?_
    fltc
  | .exist e =>
    have := faulty_expr hC e; rw [Expr.write, faults]
    fltc
  | .notExist e =>
    have := faulty_expr hC e; rw [Expr.write, faults]
    fltc
  | .select s => rw [Expr.write, faults]; exact faulty_select hC s
  | .onClause l r =>
    have := faulty_column (C := C) l
    have := faulty_column (C := C) r
    rw [Expr.write, faults]; flt0
  | .infixOn l op r =>
    have := faulty_expr hC l
    have := faulty_expr hC r
    rw [Expr.write, faults]
    refine faulty_isEmpty (faulty_panic _) fun _ hb => ?_
    fltc

theorem faulty_exprs (hC : BindFaulty C vf) (l : List Expr) : Faulty C (writeExprs l) (faultsAll vf l) := by
  match l with
  | [] => exact faulty_skip
  | e :: l =>
    rw [writeExprs, faultsAll]
    exact faulty_seq (faulty_expr hC e) (faulty_exprsTail hC l)

theorem faulty_exprsTail (hC : BindFaulty C vf) (l : List Expr) :
    Faulty C (writeExprsTail l) (faultsAll vf l) := by
  match l with
  | [] => exact faulty_skip
  | e :: l =>
    rw [writeExprsTail, faultsAll]
    exact faulty_seq (fs := []) (faulty_text _) (faulty_seq (faulty_expr hC e) (faulty_exprsTail hC l))

theorem faulty_rows (hC : BindFaulty C vf) (l : List Expr) : Faulty C (writeRows l) (faultsAll vf l) := by
  match l with
  | [] => exact faulty_skip
  | e :: l =>
    rw [writeRows, faultsAll]
    exact faulty_seq (fs := []) (faulty_text _) (faulty_seq (faulty_expr hC e)
      (faulty_seq (fs := []) (faulty_text _) (faulty_rowsTail hC l)))

theorem faulty_rowsTail (hC : BindFaulty C vf) (l : List Expr) :
    Faulty C (writeRowsTail l) (faultsAll vf l) := by
  match l with
  | [] => exact faulty_skip
  | e :: l =>
    rw [writeRowsTail, faultsAll]
    exact faulty_seq (fs := []) (faulty_text _) (faulty_seq (fs := []) (faulty_text _)
      (faulty_seq (faulty_expr hC e) (faulty_seq (fs := []) (faulty_text _) (faulty_rowsTail hC l))))

theorem faulty_sel (hC : BindFaulty C vf) (s : SelExpr) : Faulty C s.write (faultsSel vf s) := by
  match s with
  | .nil => exact faulty_panic _
  | .column c => rw [SelExpr.write, faultsSel]; exact faulty_column c; all_goals simp
  | .raw s => rw [SelExpr.write, faultsSel]; exact faulty_text s; all_goals simp
  | .count v d a =>
    have := faulty_aggAlias (C := C) a; rw [SelExpr.write, faultsSel]; flt0; all_goals simp
  | .max v a => have := faulty_aggAlias (C := C) a; rw [SelExpr.write, faultsSel]; flt0; all_goals simp
  | .min v a => have := faulty_aggAlias (C := C) a; rw [SelExpr.write, faultsSel]; flt0; all_goals simp
  | .sum v a => have := faulty_aggAlias (C := C) a; rw [SelExpr.write, faultsSel]; flt0; all_goals simp
  | .exist e =>
    have := faulty_expr hC e; rw [SelExpr.write, faultsSel]
    fltc
  | .notExist e =>
    have := faulty_expr hC e; rw [SelExpr.write, faultsSel]
    fltc

theorem faulty_sels (hC : BindFaulty C vf) (l : List SelExpr) :
    Faulty C (writeSelExprs l) (faultsSels vf l) := by
  match l with
  | [] => exact faulty_skip
  | e :: l =>
    rw [writeSelExprs, faultsSels]
    exact faulty_seq (faulty_sel hC e) (faulty_selsTail hC l)

theorem faulty_selsTail (hC : BindFaulty C vf) (l : List SelExpr) :
    Faulty C (writeSelExprsTail l) (faultsSels vf l) := by
  match l with
  | [] => exact faulty_skip
  | e :: l =>
    rw [writeSelExprsTail, faultsSels]
    exact faulty_seq (fs := []) (faulty_text _) (faulty_seq (faulty_sel hC e) (faulty_selsTail hC l))

theorem faulty_joins (hC : BindFaulty C vf) (l : List Join) : Faulty C (writeJoins l) (faultsJoins vf l) := by
  match l with
  | [] => exact faulty_skip
  | ⟨type, table, cond⟩ :: l =>
    have := faulty_expr hC cond
    have := faulty_joins hC l
    have := faulty_table (C := C) table
    rw [writeJoins, Join.write, faultsJoins]
    fltc

theorem faulty_with (hC : BindFaulty C vf) (n : Str) (e : Expr) : Faulty C (WithQuery.write ⟨n, e⟩)
    (if n.isEmpty then [] else unlessUnset e (faults vf e)) := by
  have := faulty_expr hC e
  rw [WithQuery.write, withIsEmpty_exact, unlessUnset, unlessEmpty]
  cases n.isEmpty with
  | true => exact faulty_skip
  | false =>
    cases absent e with
    | true => exact faulty_skip
    | false =>
      cases unclear e with
      | true => exact faulty_panic _
      | false =>
        cases blank e with
        | true => exact faulty_skip
        | false =>
          show Faulty C (text n ;; text s%" " ;; text Token.As ;; text s%" (" ;; e.write ;; text s%")") _
          fltc

theorem faulty_withs (hC : BindFaulty C vf) (l : List WithQuery) :
    Faulty C (writeWiths l) (faultsWiths vf l) := by
  match l with
  | [] => exact faulty_skip
  | ⟨n, e⟩ :: l =>
    rw [writeWiths, faultsWiths]
    exact faulty_seq (faulty_with hC n e) (faulty_withsTail hC l)

theorem faulty_withsTail (hC : BindFaulty C vf) (l : List WithQuery) :
    Faulty C (writeWithsTail l) (faultsWiths vf l) := by
  match l with
  | [] => exact faulty_skip
  | ⟨n, e⟩ :: l =>
    rw [writeWithsTail, faultsWiths]
    exact faulty_seq (fs := []) (faulty_text _) (faulty_seq (faulty_with hC n e) (faulty_withsTail hC l))

theorem faulty_select (hC : BindFaulty C vf) (s : SelectStmt) :
    Faulty C s.write (faultsSelect vf s) := by
  match s with
  | ⟨pfx, withs, distinct, distinctOn, exprs, tables, joins, whr, groupBy, having, orderBy,
      limit, offset, sfx, comment⟩ =>
    have h1 : Faulty C (if pfx.isEmpty then skip else text pfx ;; text s%" ") [] := by flt0
    have h2 : Faulty C (if withs.isEmpty then skip
       else text Token.With ;; text s%" " ;; writeWiths withs ;; text s%" ") (faultsWiths vf withs) := by
      cases withs with
      | nil => exact faulty_skip
      | cons w ws =>
        have := faulty_withs hC (w :: ws)
        show Faulty C (text Token.With ;; text s%" " ;; writeWiths (w :: ws) ;; text s%" ") _
        fltc
    have h3 : Faulty C (if distinctOn.isEmpty then skip else text s%" " ;; writeDistinctOn distinctOn) [] := by
      have := faulty_distinctOn (C := C) distinctOn; flt0
    have h4 : Faulty C (if distinct then text s%" " ;; text Token.Distinct else skip) [] := by flt0
    have h5 := faulty_sels hC exprs
    have h6 : Faulty C (if tables.isEmpty then skip else text s%" " ;; writeFrom tables) (tableFaults tables) := by
      cases tables with
      | nil => exact faulty_skip
      | cons t ts => exact faulty_seq (fs := []) (faulty_text _) (faulty_from _)
    have h7 := faulty_joins hC joins
    have h8 : Faulty C (W.ite whr.isUnset skip (text s%" " ;; text Token.Where ;; text s%" " ;; whr.write))
        (unlessUnset whr (faults vf whr)) :=
      faulty_isUnset fun _ _ _ => faulty_seq (fs := []) (faulty_text _) (faulty_seq (fs := []) (faulty_text _)
        (faulty_seq (fs := []) (faulty_text _) (faulty_expr hC whr)))
    have h9 : Faulty C (if groupBy.isEmpty then skip else text s%" " ;; writeGroupBy groupBy) [] := by
      have := faulty_groupBy (C := C) groupBy; flt0
    have h10 : Faulty C (W.ite having.isUnset skip (text s%" " ;; text Token.Having ;; text s%" " ;; having.write))
        (unlessUnset having (faults vf having)) :=
      faulty_isUnset fun _ _ _ => faulty_seq (fs := []) (faulty_text _) (faulty_seq (fs := []) (faulty_text _)
        (faulty_seq (fs := []) (faulty_text _) (faulty_expr hC having)))
    have h11 : Faulty C (if orderBy.isEmpty then skip else text s%" " ;; writeOrderBy orderBy) [] := by
      have := faulty_orderBy (C := C) orderBy; flt0
    have h12 : Faulty C (if limit = 0 then skip else text s%" " ;; writeLimit limit) [] := by
      have := faulty_limit (C := C) limit; flt0
    have h13 : Faulty C (if offset = 0 then skip else text s%" " ;; writeOffset offset) [] := by
      have := faulty_offset (C := C) offset; flt0
    have h14 : Faulty C (if sfx.isEmpty then skip else text s%" " ;; text sfx) [] := by flt0
    have h15 : Faulty C (if comment.isEmpty then skip else text Token.Semicolon ;; text s%" " ;;
        writeComment comment) [] := by
      have := faulty_comment (C := C) comment; flt0
    rw [SelectStmt.write, faultsSelect]
    refine faulty_if (fun _ => faulty_panic _) fun _ => ?_
    fltc

end

theorem faulty_returning (hC : BindFaulty C vf) (l : List SelExpr) :
    Faulty C (writeReturning l) (faultsSels vf l) :=
  faulty_seq (fs := []) (faulty_text _) (faulty_seq (fs := []) (faulty_text _) (faulty_sels hC l))

theorem faulty_returningTail (hC : BindFaulty C vf) (l : List SelExpr) :
    Faulty C (if l.isEmpty then skip else text s%" " ;; writeReturning l) (faultsSels vf l) := by
  cases l with
  | nil => exact faulty_skip
  | cons e l =>
    have := faulty_returning hC (e :: l)
    show Faulty C (text s%" " ;; writeReturning (e :: l)) _
    fltc

theorem faulty_commentTail (c : Str) : Faulty C (writeCommentTail c) [] := by
  have := faulty_comment (C := C) c
  unfold writeCommentTail; flt0

theorem faulty_whereTail (hC : BindFaulty C vf) (e : Expr) :
    Faulty C (W.ite e.isUnset skip (text s%" " ;; writeWhere e)) (unlessUnset e (faults vf e)) := by
  refine faulty_isUnset fun ha hu hb => faulty_seq (fs := []) (faulty_text _) ?_
  unfold writeWhere
  rw [isUnset_exact, ha, hu, hb]
  exact faulty_seq (fs := []) (faulty_text _) (faulty_seq (fs := []) (faulty_text _) (faulty_expr hC e))

theorem faulty_valuesTail (hC : BindFaulty C vf) (e : Expr) :
    Faulty C (W.ite e.isUnset skip (text s%" " ;; writeValues e)) (unlessUnset e (faults vf e)) := by
  refine faulty_isUnset fun ha hu hb => faulty_seq (fs := []) (faulty_text _) ?_
  unfold writeValues
  rw [isUnset_exact, ha, hu, hb]
  exact faulty_seq (fs := []) (faulty_text _) (faulty_seq (fs := []) (faulty_text _) (faulty_expr hC e))

theorem mapLookup_find (c : Column) (m : List (Column × Expr)) :
    mapLookup c m = (m.find? (·.1 = c)).map (·.2) := by
  induction m with
  | nil => rfl
  | cons ce m ih =>
    obtain ⟨k, v⟩ := ce
    rw [mapLookup]
    by_cases h : k = c
    · simp [h]
    · simp [h, ih]

theorem lookupAll_exact (m : List (Column × Expr)) : ∀ (l : List Column),
    ((∀ c ∈ l, m.any (·.1 = c) = true) → ∃ r, lookupAll m l = .ok r ∧ r.map (·.1) = l ∧
      r.flatMap (fun ce => faults vf ce.2) =
        l.flatMap fun c => ((m.find? (·.1 = c)).map fun ce => faults vf ce.2).getD []) ∧
    (¬ (∀ c ∈ l, m.any (·.1 = c) = true) →
      lookupAll m l = .error (.msg "loukoum: invalid state for stmt.PairContainer"))
  | [] => ⟨fun _ => ⟨[], rfl, rfl, rfl⟩, fun h => absurd (by simp) h⟩
  | c :: l => by
    obtain ⟨h1, h2⟩ := lookupAll_exact m l
    rw [lookupAll, mapLookup_find]
    cases hf : m.find? (·.1 = c) with
    | none =>
      refine ⟨fun h => ?_, fun _ => rfl⟩
      have hc := h c (by simp)
      rw [List.any_eq_true] at hc
      obtain ⟨x, hx, hxc⟩ := hc
      exact absurd hxc (List.find?_eq_none.1 hf x hx)
    | some ce =>
      have hc : m.any (·.1 = c) = true := by
        rw [List.any_eq_true]
        exact ⟨ce, List.mem_of_find?_eq_some hf, List.find?_some (p := fun x : Column × Expr => decide (x.1 = c)) hf⟩
      refine ⟨fun h => ?_, fun h => ?_⟩
      · obtain ⟨r, hr, hm, hfl⟩ := h1 fun x hx => h x (List.mem_cons_of_mem _ hx)
        refine ⟨(c, ce.2) :: r, ?_, ?_, ?_⟩
        · rw [hr]; rfl
        · simp [hm]
        · simp [hf, hfl]
      · have := h2 fun h' => h fun x hx => by
          rcases List.mem_cons.1 hx with rfl | hx
          · exact hc
          · exact h' x hx
        rw [this]; rfl

theorem faulty_assoc (hC : BindFaulty C vf) (p : PairContainer) (hm : p.mode = .associative) :
    Faulty C p.writeAssociative (faultsSet vf p) := by
  have hperm := GoRuntime.sortSlice_perm columnLess p.columns
  obtain ⟨h1, h2⟩ := lookupAll_exact (vf := vf) p.map (GoRuntime.sortSlice columnLess p.columns)
  unfold PairContainer.writeAssociative PairContainer.values faultsSet
  rw [if_neg (by rw [hm]; simp), hm]
  simp only
  by_cases hall : ∀ c ∈ p.columns, p.map.any (·.1 = c) = true
  · obtain ⟨r, hr, hm', hf⟩ := h1 fun c hc => hall c (hperm.mem_iff.1 hc)
    rw [hr, if_pos (List.all_eq_true.2 hall), ← hf]
    show Faulty C (sepBy writePair ((r.map (·.1)).zip (r.map (·.2)))) _
    have hz : (r.map (·.1)).zip (r.map (·.2)) = r := by
      clear hr hf hm'
      induction r with
      | nil => rfl
      | cons a r ih => simp [ih]
    rw [hz]
    refine faulty_sepBy fun ce _ => ?_
    have := faulty_expr hC ce.2
    have := faulty_column (C := C) ce.1
    unfold writePair; fltc
  · rw [h2 fun h => hall fun c hc => h c (hperm.mem_iff.2 hc),
      if_neg fun h => hall (List.all_eq_true.1 h)]
    exact faulty_panic _

theorem setBlank_eq' (p : PairContainer) : p.isEmpty = setBlank p := by
  unfold PairContainer.isEmpty setBlank
  cases p.mode <;> simp

theorem faulty_set (hC : BindFaulty C vf) (p : PairContainer) (h : setBlank p = false) :
    Faulty C p.write (faultsSet vf p) := by
  unfold PairContainer.write
  rw [setBlank_eq', h]
  refine faulty_seq (fs := []) (gs := faultsSet vf p) (faulty_text _)
    (faulty_seq (fs := []) (gs := faultsSet vf p) (faulty_text _) ?_)
  rw [if_neg (by simp)]
  by_cases hm : p.mode = .associative
  · have := faulty_assoc hC p hm
    rw [if_pos hm, if_neg (by rw [hm]; simp)]
    fltc
  · have hr : p.mode = .array := by
      cases hm' : p.mode with
      | unknown => simp [setBlank, hm'] at h
      | associative => exact absurd hm' hm
      | array => rfl
    have h1 := faulty_exprs hC p.expressions
    have h2 := faulty_columns (C := C) p.columns
    have hf : faultsSet vf p = faultsAll vf p.expressions := by unfold faultsSet; rw [hr]
    rw [hf, if_neg hm, if_pos hr]
    unfold PairContainer.writeArray
    fltc

theorem faulty_conflict (hC : BindFaulty C vf) (t : List Column) (a : ConflictAction) :
    Faulty C (if a.isEmpty then skip else text s%" " ;; writeOnConflict t a)
      (match a with
       | .update set => if setBlank set then [] else faultsSet vf set
       | _ => []) := by
  have ht : Faulty C (if t.isEmpty then skip else writeTarget t ;; text s%" ") [] := by
    have : Faulty C (writeTarget t) [] := by
      have := faulty_columns (C := C) t; unfold writeTarget; flt0
    flt0
  cases a with
  | nil => exact faulty_skip
  | nothing =>
    show Faulty C (text s%" " ;; writeOnConflict t .nothing) []
    have : Faulty C (ConflictAction.write .nothing) [] := by rw [ConflictAction.write]; flt0
    unfold writeOnConflict
    flt0
  | update set =>
    rw [show ConflictAction.isEmpty (.update set) = setBlank set from setBlank_eq' set]
    refine faulty_if (fun _ => faulty_skip) fun h => ?_
    have hb : setBlank set = false := by simpa using h
    have hs := faulty_set hC set hb
    have : Faulty C (ConflictAction.write (.update set)) (faultsSet vf set) := by
      rw [ConflictAction.write]; fltc
    unfold writeOnConflict
    rw [show ConflictAction.isEmpty (.update set) = setBlank set from setBlank_eq' set, if_neg h]
    fltc

theorem faulty_fromTail (l : List FromItem) :
    Faulty C (if l.isEmpty then skip else text s%" " ;; writeFrom l) (tableFaults l) := by
  cases l with
  | nil => exact faulty_skip
  | cons t ts =>
    have := faulty_from (C := C) (t :: ts)
    show Faulty C (text s%" " ;; writeFrom (t :: ts)) _
    fltc

theorem faulty_stmt (hC : BindFaulty C vf) (s : Stmt) : Faulty C s.write (faultsStmt vf s) := by
  cases s with
  | select s => exact faulty_select hC s
  | insert i =>
    have := faulty_table (C := C) i.into
    have : Faulty C (if i.columns.isEmpty then skip
        else text s%" (" ;; sepBy Column.write i.columns ;; text s%")") [] := by
      have := faulty_columns (C := C) i.columns
      flt0
    have := faulty_returningTail hC i.returning
    have := faulty_commentTail (C := C) i.comment
    have := faulty_conflict hC i.target i.action
    have := faulty_valuesTail hC i.values
    show Faulty C i.write (faultsInsert vf i)
    unfold InsertStmt.write faultsInsert
    refine faulty_if (fun _ => faulty_panic _) fun _ => ?_
    exact Faulty.cast (by flt) (by simp only [List.nil_append, List.append_nil, List.append_assoc]; rfl)
  | update u =>
    show Faulty C u.write (faultsUpdate vf u)
    unfold UpdateStmt.write faultsUpdate
    rw [setBlank_eq']
    refine faulty_if (fun _ => faulty_panic _) fun h => ?_
    have hb : setBlank u.set = false := by
      rw [Bool.or_eq_true, not_or] at h; simpa using h.2
    have : Faulty C (if u.withs.isEmpty then skip else writeWith u.withs ;; text s%" ")
        (faultsWiths vf u.withs) := by
      cases hw : u.withs with
      | nil => exact faulty_skip
      | cons w ws =>
        have := faulty_withs hC (w :: ws)
        show Faulty C ((text Token.With ;; text s%" " ;; writeWiths (w :: ws)) ;; text s%" ") _
        fltc
    have : Faulty C (if u.only then text s%" " ;; text Token.Only else skip) [] := by flt0
    have := faulty_table (C := C) u.table
    have := faulty_set hC u.set hb
    have := faulty_fromTail (C := C) u.tables
    have := faulty_whereTail hC u.whr
    have := faulty_returningTail hC u.returning
    have := faulty_commentTail (C := C) u.comment
    fltc
  | delete d =>
    show Faulty C d.write (faultsDelete vf d)
    unfold DeleteStmt.write faultsDelete
    refine faulty_if (fun _ => faulty_panic _) fun h => ?_
    have : Faulty C (if d.usings.isEmpty then skip else text s%" " ;; writeUsing d.usings) [] := by
      have : Faulty C (writeUsing d.usings) [] := by
        have : Faulty C (sepBy Table.write d.usings) [] :=
          (faulty_sepBy (g := fun _ => []) fun t _ => faulty_table t).cast (by simp)
        unfold writeUsing; flt0
      flt0
    have := faulty_from (C := C) d.tables
    have := faulty_whereTail hC d.whr
    have := faulty_returningTail hC d.returning
    have := faulty_commentTail (C := C) d.comment
    fltc

/-! ## The three contexts -/

theorem formatValue_exact (v : Val) : match valueFaults v with
    | [] => ∃ t, formatValue v = .ok t
    | p :: _ => formatValue v = .error p := by
  match v with
  | .nil | .str _ | .bytes _ | .time _ _ | .valuerNil _ | .bool _ | .float32 _ | .float64 _
  | .slice _ _ | .opaque _ _ => exact ⟨_, rfl⟩
  | .valuerErr _ => rfl
  | .valuerOk _ v =>
    have := formatValue_exact v
    rw [formatValue, valueFaults]; exact this
  | .int k n => cases k <;> exact ⟨_, rfl⟩
  | .uint k n => cases k <;> exact ⟨_, rfl⟩

theorem raw_faulty : BindFaulty rawContext valueFaults := by
  intro v s
  have h := formatValue_exact v
  have hb : bind v RawState rawContext s =
    (match formatValue v with | .error p => .error p | .ok t => .ok (s ++ t)) := rfl
  cases hv : valueFaults v with
  | nil => rw [hv] at h; obtain ⟨t, ht⟩ := h; exact ⟨_, by rw [hb, ht]⟩
  | cons p l => rw [hv] at h; exact hb.trans (by rw [show formatValue v = .error p from h])

theorem named_faulty : BindFaulty namedContext (fun _ => []) := fun _ _ => ⟨_, rfl⟩
theorem std_faulty : BindFaulty stdContext (fun _ => []) := fun _ _ => ⟨_, rfl⟩

/-! ## Faults are calls of nil or refusals -/

/-- No fault is an index out of range. -/
def NoIndex (l : List Panic) : Prop := .index ∉ l

theorem NoIndex.append {a b : List Panic} (ha : NoIndex a) (hb : NoIndex b) : NoIndex (a ++ b) :=
  fun h => (List.mem_append.1 h).elim ha hb

theorem noIndex_nil : NoIndex [] := nofun
theorem noIndex_hole : NoIndex hole := by simp [NoIndex, hole]
theorem noIndex_refusal (m : String) : NoIndex (refusal m) := by simp [NoIndex, refusal]

theorem NoIndex.flatMap {α : Type} {l : List α} {f : α → List Panic} (h : ∀ a ∈ l, NoIndex (f a)) :
    NoIndex (l.flatMap f) := by
  intro hm
  obtain ⟨a, ha, hm⟩ := List.mem_flatMap.1 hm
  exact h a ha hm

theorem noIndex_unlessEmpty {e : Expr} {a b : List Panic} (ha : NoIndex a) (hb : NoIndex b) :
    NoIndex (unlessEmpty e a b) := by
  unfold unlessEmpty
  split
  · exact noIndex_hole
  · split
    · exact ha
    · exact hb

theorem noIndex_unlessUnset {e : Expr} {b : List Panic} (hb : NoIndex b) : NoIndex (unlessUnset e b) := by
  unfold unlessUnset
  split
  · exact noIndex_nil
  · exact noIndex_unlessEmpty noIndex_nil hb

theorem noIndex_tables (l : List FromItem) : NoIndex (tableFaults l) := by
  refine NoIndex.flatMap fun i _ => ?_
  split
  · exact noIndex_hole
  · exact noIndex_nil

theorem noIndex_value (v : Val) : NoIndex (valueFaults v) := by
  match v with
  | .nil | .str _ | .bytes _ | .time _ _ | .valuerNil _ | .bool _ | .float32 _ | .float64 _
  | .slice _ _ | .opaque _ _ | .int _ _ | .uint _ _ => exact noIndex_nil
  | .valuerErr _ => exact noIndex_refusal _
  | .valuerOk _ v => rw [valueFaults]; exact noIndex_value v

mutual

theorem noIndex_expr (hv : ∀ v, NoIndex (vf v)) (e : Expr) : NoIndex (faults vf e) := by
  match e with
  | .nil => exact noIndex_hole
  | .ident i => exact noIndex_nil
  | .value v =>
    cases v with
    | nil => rw [faults]; exact noIndex_nil
    | _ => rw [faults]; exact hv _; simp
  | .arrayList l => rw [faults]; exact noIndex_exprs hv l
  | .array l => rw [faults]; exact noIndex_exprs hv l
  | .raw s => exact noIndex_nil
  | .wrapper e => rw [faults]; exact noIndex_expr hv e
  | .call f args => rw [faults]; exact noIndex_exprs hv args
  | .infx l op r =>
    rw [faults]
    exact noIndex_unlessEmpty (noIndex_refusal _) ((noIndex_expr hv l).append (noIndex_expr hv r))
  | .inx e op v =>
    rw [faults]
    exact noIndex_unlessEmpty (noIndex_refusal _)
      ((noIndex_expr hv e).append (noIndex_unlessEmpty noIndex_nil (noIndex_expr hv v)))
  | .between i op lo and hi =>
    rw [faults]
    exact noIndex_unlessEmpty (noIndex_refusal _) ((noIndex_expr hv lo).append (noIndex_expr hv hi))
  | .exist e => rw [faults]; exact noIndex_expr hv e
  | .notExist e => rw [faults]; exact noIndex_expr hv e
  | .select s => rw [faults]; exact noIndex_select hv s
  | .onClause l r => exact noIndex_nil
  | .infixOn l op r =>
    rw [faults]
    exact noIndex_unlessEmpty (noIndex_refusal _) ((noIndex_expr hv l).append (noIndex_expr hv r))

theorem noIndex_exprs (hv : ∀ v, NoIndex (vf v)) (l : List Expr) : NoIndex (faultsAll vf l) := by
  match l with
  | [] => exact noIndex_nil
  | e :: l => rw [faultsAll]; exact (noIndex_expr hv e).append (noIndex_exprs hv l)

theorem noIndex_sel (hv : ∀ v, NoIndex (vf v)) (s : SelExpr) : NoIndex (faultsSel vf s) := by
  match s with
  | .nil => exact noIndex_hole
  | .column c => rw [faultsSel]; exact noIndex_nil; all_goals simp
  | .raw s => rw [faultsSel]; exact noIndex_nil; all_goals simp
  | .count v d a => rw [faultsSel]; exact noIndex_nil; all_goals simp
  | .max v a => rw [faultsSel]; exact noIndex_nil; all_goals simp
  | .min v a => rw [faultsSel]; exact noIndex_nil; all_goals simp
  | .sum v a => rw [faultsSel]; exact noIndex_nil; all_goals simp
  | .exist e => rw [faultsSel]; exact noIndex_expr hv e
  | .notExist e => rw [faultsSel]; exact noIndex_expr hv e

theorem noIndex_sels (hv : ∀ v, NoIndex (vf v)) (l : List SelExpr) : NoIndex (faultsSels vf l) := by
  match l with
  | [] => exact noIndex_nil
  | e :: l => rw [faultsSels]; exact (noIndex_sel hv e).append (noIndex_sels hv l)

theorem noIndex_joins (hv : ∀ v, NoIndex (vf v)) (l : List Join) : NoIndex (faultsJoins vf l) := by
  match l with
  | [] => exact noIndex_nil
  | ⟨_, _, cond⟩ :: l => rw [faultsJoins]; exact (noIndex_expr hv cond).append (noIndex_joins hv l)

theorem noIndex_withs (hv : ∀ v, NoIndex (vf v)) (l : List WithQuery) : NoIndex (faultsWiths vf l) := by
  match l with
  | [] => exact noIndex_nil
  | ⟨n, e⟩ :: l =>
    rw [faultsWiths]
    refine NoIndex.append ?_ (noIndex_withs hv l)
    have := noIndex_expr hv e
    split
    · exact noIndex_nil
    · exact noIndex_unlessUnset this

theorem noIndex_select (hv : ∀ v, NoIndex (vf v)) (s : SelectStmt) : NoIndex (faultsSelect vf s) := by
  match s with
  | ⟨_, withs, _, _, exprs, tables, joins, whr, _, having, _, _, _, _, _⟩ =>
    have h1 := noIndex_withs hv withs
    have h2 := noIndex_sels hv exprs
    have h3 := noIndex_joins hv joins
    have h4 := noIndex_expr hv whr
    have h5 := noIndex_expr hv having
    rw [faultsSelect]
    split
    · exact noIndex_refusal _
    · exact ((((h1.append h2).append (noIndex_tables _)).append h3).append
        (noIndex_unlessUnset h4)).append (noIndex_unlessUnset h5)

end

theorem noIndex_set (hv : ∀ v, NoIndex (vf v)) (p : PairContainer) : NoIndex (faultsSet vf p) := by
  unfold faultsSet
  split
  · exact noIndex_nil
  · split
    · refine NoIndex.flatMap fun c _ => ?_
      cases p.map.find? (·.1 = c) with
      | none => exact noIndex_nil
      | some ce => exact noIndex_expr hv ce.2
    · exact noIndex_refusal _
  · exact noIndex_exprs hv _

theorem noIndex_stmt (hv : ∀ v, NoIndex (vf v)) (s : Stmt) : NoIndex (faultsStmt vf s) := by
  cases s with
  | select s => exact noIndex_select hv s
  | insert i =>
    rw [faultsStmt, faultsInsert]
    split
    · exact noIndex_refusal _
    · refine ((noIndex_unlessUnset (noIndex_expr hv _)).append ?_).append (noIndex_sels hv _)
      split
      · split
        · exact noIndex_nil
        · exact noIndex_set hv _
      · exact noIndex_nil
  | update u =>
    rw [faultsStmt, faultsUpdate]
    split
    · exact noIndex_refusal _
    · exact ((((noIndex_withs hv _).append (noIndex_set hv _)).append (noIndex_tables _)).append
        (noIndex_unlessUnset (noIndex_expr hv _))).append (noIndex_sels hv _)
  | delete d =>
    rw [faultsStmt, faultsDelete]
    split
    · exact noIndex_refusal _
    · exact ((noIndex_tables _).append (noIndex_unlessUnset (noIndex_expr hv _))).append
        (noIndex_sels hv _)

theorem noIndex_head {l : List Panic} (h : NoIndex l) :
    (∀ p, l.head? = some p → ∃ m, p = .msg m) ↔ l.head? ≠ some .nilDeref := by
  cases l with
  | nil => simp
  | cons p l =>
    cases p with
    | msg m => simp
    | nilDeref => simp
    | index => exact absurd List.mem_cons_self h

end

end Verif
