import Verif.Lemmas.ProgramStmt
import Verif.Spec.Machine

/-!
# The calls do what the machine says
-/

set_option linter.unusedSectionVars false

namespace Verif
open Spec

section
variable [GoRuntime]

/-- The condition of a clause that may be unset. -/
def IsWhere (x : Expr) : Option Sql → Prop
  | none => x = .nil
  | some e => IsExpr true x e

theorem isWhere_ok {x : Expr} {o : Option Sql} (h : IsWhere x o) :
    (blank x || plainExpr true x) = true ∧
      (if blank x then none else some (meanExpr x)) = o ∧ okIf x.isUnset (okE x) = true := by
  cases o with
  | none =>
    cases h
    exact ⟨rfl, rfl, rfl⟩
  | some e => exact condField_ok (wrap := id) (fun _ _ h => h) (o := some x) (e := some e) h

theorem isWhere_unset {x : Expr} {o : Option Sql} (h : IsWhere x o) :
    x.isUnset = .ok o.isNone := by
  cases o with
  | none => cases h; rfl
  | some e => exact (isEmpty_good h).2

theorem isWhere_add {w x : Expr} {o : Option Sql} {e : Sql} {op : Str} (h : IsWhere w o)
    (hx : IsExpr true x e) (hop : op ∈ connectives) :
    IsWhere (if o.isNone then newWrapper x else .infx w (.logical op) (newWrapper x))
      (some (addCond op o e)) := by
  cases o with
  | none => exact good_wrapper hx
  | some w' => exact (good_connective h (good_wrapper hx) hop).loosen

theorem isNil_of {loose : Bool} {x : Expr} {e : Sql} (h : IsExpr loose x e) : x.isNil = false := by
  have := h.plain
  cases x <;> first | rfl | cases this

theorem buildExpr_ok {e : Sql} (h : fitsCond (some e) = true) :
    ∃ x, buildExpr e = .ok x ∧ IsExpr true x e := by
  rw [fitsCond] at h
  simp only [Bool.and_eq_true] at h
  obtain ⟨a, x, h1, h2⟩ := build_ok e h.1
  exact ⟨x, by rw [buildExpr, h1, go_bind, (h2.free h.2).1], (h2.free h.2).2⟩

/-! ## SELECT -/

/-- The builder holds the query. -/
structure SelState (b : SelectStmt) (ws : List SqlWith) (d : SqlDistinct) (is : List SqlItem)
    (ts : List SqlTable) (js : List SqlJoin) (w : Option Sql) (g : List Ref) (h : Option Sql)
    (o : List SqlOrder) (li off : Option Nat) : Prop where
  withs : AreWiths b.withs ws
  distinct : b.distinct = decide (d = .yes)
  distinctOn : b.distinctOn = distinctField d
  distinctFits : fitsDistinct d = true
  items : plainItems b.exprs = true ∧ meanItems b.exprs = is ∧ okSels b.exprs = true
  itemsNe : is ≠ []
  tables : b.tables = ts.map fromItem
  tablesFit : ts.all fitsFrom = true
  joins : plainJoins b.joins = true ∧ meanJoins b.joins = js ∧ okJoins b.joins = true
  whr : IsWhere b.whr w
  groupBy : b.groupBy = g.map fun r => Api.Column (refText r)
  groupByFits : g.all fitsQuoted = true
  having : IsWhere b.having h
  orderBy : b.orderBy = o.map buildOrder
  orderByFits : (o.all fun o => fitsBare o.name) = true
  limit : b.limit = countField li
  limitFits : fitsCount li = true
  offset : b.offset = countField off
  offsetFits : fitsCount off = true
  comment : OneLine b.comment
  pfx : b.pfx = []
  sfx : b.sfx = []

/-- The builder holds the query. -/
def Holds (b : SelectStmt) : SqlSelect → Prop
  | .mk withs distinct items tables joins whr groupBy having orderBy limit offset =>
    SelState b withs distinct items tables joins whr groupBy having orderBy limit offset

theorem holds_select {b : SelectStmt} {q : SqlSelect} (h : Holds b q) :
    OneLine b.comment ∧ plainStmt (uncommented (.select b)) = true ∧
      meanStmt (.select b) = .select q ∧ okStmt (.select b) = true := by
  obtain ⟨withs, distinct, items, tables, joins, whr, groupBy, having, orderBy, limit, offset⟩ := q
  obtain ⟨pfx, ws, d, dn, xs, ts, js, w, g, hv, o, li, off, sfx, c⟩ := b
  obtain ⟨hw, rfl, rfl, hd, ⟨x1, x2, x3⟩, hne, rfl, ht, ⟨j1, j2, j3⟩, how, rfl, hg, hoh, rfl, ho,
    rfl, hl, rfl, hof, hc, rfl, rfl⟩ := h
  simp only at hw x1 x2 x3 j1 j2 j3 how hoh hc
  obtain ⟨d1, d2, d3⟩ := distinctField_ok hd
  obtain ⟨-, t2, t3, t4⟩ := toFromItems_build ht
  obtain ⟨-, g2, g3⟩ := columns_build hg
  obtain ⟨o1, o2⟩ := orders_build ho
  obtain ⟨l1, l2⟩ := countField_ok hl
  obtain ⟨f1, f2⟩ := countField_ok hof
  obtain ⟨w1, w2, w3⟩ := isWhere_ok how
  obtain ⟨h1, h2, h3⟩ := isWhere_ok hoh
  have hxs : xs.isEmpty = false := by
    cases xs with
    | nil => exact absurd x2.symm hne
    | cons x xs => rfl
  refine ⟨hc, ?_, ?_, ?_⟩
  · simp only [uncommented, plainStmt]
    rw [plainSelect, hw.plain, d1, d2, hxs, x1, t2, j1, w1, g2, h1, o1]
    simp [l1, f1]
  · rw [meanStmt, meanSelect, hw.mean, d3, x2, t3, j2, w2, g3, h2, o2, l2, f2]
  · rw [okStmt, okS, hxs, hw.ok, x3, t4, j3, w3, h3]
    rfl

/-- The DISTINCT of the query. -/
def distinctOf : SqlSelect → SqlDistinct
  | .mk _ d _ _ _ _ _ _ _ _ _ => d

/-- The remaining calls go with the DISTINCT there is. -/
def distinctGoes (l : List SelStep) : SqlDistinct → Bool
  | .no => oneDistinct l
  | .yes => !l.any SelStep.isDistinctOn
  | .on _ => !l.any SelStep.isDistinct

theorem distinctGoes_cons {c : SelStep} {l : List SelStep} {q q' : SqlSelect}
    (h : distinctGoes (c :: l) (distinctOf q) = true) (hq : c.on q = some q') :
    distinctGoes l (distinctOf q') = true := by
  obtain ⟨withs, distinct, items, tables, joins, whr, groupBy, having, orderBy, limit, offset⟩ := q
  cases c <;> simp only [SelStep.on, Option.ite_none_right_eq_some, Option.some.injEq] at hq
  case distinct =>
    cases hq
    cases distinct <;>
      simp_all [distinctGoes, distinctOf, oneDistinct, SelStep.isDistinct, SelStep.isDistinctOn]
  case distinctOn =>
    obtain ⟨-, rfl⟩ := hq
    cases distinct <;>
      simp_all [distinctGoes, distinctOf, oneDistinct, SelStep.isDistinct, SelStep.isDistinctOn]
  all_goals
    first
    | obtain ⟨-, rfl⟩ := hq
    | cases hq
    cases distinct <;>
      simp_all [distinctGoes, distinctOf, oneDistinct, SelStep.isDistinct, SelStep.isDistinctOn]

theorem plainWiths_append (xs ys : List WithQuery) :
    plainWiths (xs ++ ys) = (plainWiths xs && plainWiths ys) := by
  induction xs with
  | nil => simp [plainWiths]
  | cons x xs ih => simp [plainWiths, ih, Bool.and_assoc]

theorem meanWiths_append (xs ys : List WithQuery) :
    meanWiths (xs ++ ys) = meanWiths xs ++ meanWiths ys := by
  induction xs with
  | nil => simp [meanWiths]
  | cons x xs ih => simp [meanWiths, ih]

theorem okWiths_append (xs ys : List WithQuery) :
    okWiths (xs ++ ys) = (okWiths xs && okWiths ys) := by
  induction xs with
  | nil => simp [okWiths]
  | cons x xs ih =>
    obtain ⟨n, e⟩ := x
    simp [okWiths, ih, Bool.and_assoc]

theorem areWiths_append {xs ys : List WithQuery} {l l' : List SqlWith} (h : AreWiths xs l)
    (h' : AreWiths ys l') : AreWiths (xs ++ ys) (l ++ l') :=
  ⟨by rw [plainWiths_append, h.plain, h'.plain]; rfl, by rw [meanWiths_append, h.mean, h'.mean],
    by rw [okWiths_append, h.ok, h'.ok]; rfl⟩

theorem joins_append {xs ys : List Join} {l l' : List SqlJoin}
    (h : plainJoins xs = true ∧ meanJoins xs = l ∧ okJoins xs = true)
    (h' : plainJoins ys = true ∧ meanJoins ys = l' ∧ okJoins ys = true) :
    plainJoins (xs ++ ys) = true ∧ meanJoins (xs ++ ys) = l ++ l' ∧ okJoins (xs ++ ys) = true := by
  induction xs generalizing l with
  | nil =>
    obtain ⟨-, rfl, -⟩ := h
    simpa [meanJoins] using h'
  | cons x xs ih =>
    obtain ⟨h1, rfl, h3⟩ := h
    obtain ⟨k, t, c⟩ := x
    simp only [plainJoins, Bool.and_eq_true, okJoins] at h1 h3
    obtain ⟨a, b, c⟩ := ih ⟨h1.2, rfl, h3.2⟩
    refine ⟨?_, ?_, ?_⟩
    · simp only [List.cons_append, plainJoins, a, h1.1]; rfl
    · simp only [List.cons_append, meanJoins, b]
    · simp only [List.cons_append, okJoins, c, h3.1]; rfl

/-- The call panics if the machine refuses it; otherwise the builder then holds the machine's
query. -/
def StepOk (c : SelStep) (b : SelectStmt) (q : SqlSelect) : Prop :=
  match c.on q with
  | some q' => ∃ b', c.apply b = .ok b' ∧ Holds b' q'
  | none => ∃ p, c.apply b = .error p

theorem stepOk_of {c : SelStep} {b b' : SelectStmt} {q q' : SqlSelect} (h : c.on q = some q')
    (hb : c.apply b = .ok b') (hh : Holds b' q') : StepOk c b q := by
  rw [StepOk, h]
  exact ⟨b', hb, hh⟩

theorem stepOk_none {c : SelStep} {b : SelectStmt} {q : SqlSelect} {p : Panic} (h : c.on q = none)
    (hb : c.apply b = .error p) : StepOk c b q := by
  rw [StepOk, h]
  exact ⟨p, hb⟩

theorem selStep_ok (c : SelStep) (l : List SelStep) {b : SelectStmt} {q : SqlSelect}
    (hc : c.fits = true) (hb : Holds b q) (hd : distinctGoes (c :: l) (distinctOf q) = true) :
    StepOk c b q := by
  obtain ⟨ws, d, is, ts, js, w, g, h, o, li, off⟩ := q
  obtain ⟨pfx, ws', d', dn, xs, ts', js', w', g', hv, o', li', off', sfx, cm⟩ := b
  have hb : SelState _ ws d is ts js w g h o li off := hb
  have e1 := hb.groupBy
  have e2 := hb.tables
  have e3 := hb.limit
  have e4 := hb.offset
  simp only at e1 e2 e3 e4
  cases c with
  | distinct =>
    refine stepOk_of rfl rfl ?_
    exact { hb with
      distinct := rfl
      distinctFits := rfl
      distinctOn := by
        have := hb.distinctOn
        simp only at this
        rw [this]
        cases d with
        | on cs => simp [distinctGoes, distinctOf, SelStep.isDistinct] at hd
        | _ => rfl }
  | distinctOn cs =>
    have hc : cs.all fitsQuoted = true := hc
    obtain ⟨c1, c2, c3⟩ := columns_build hc
    by_cases hg : cs ≠ [] ∧ g = []
    · obtain ⟨hne, rfl⟩ := hg
      cases e1
      refine stepOk_of (b' := ⟨pfx, ws', d', distinctField (.on cs), xs, ts', js', w', [], hv, o', li',
        off', sfx, cm⟩) (by rw [SelStep.on, if_pos ⟨hne, rfl⟩]) ?_ ?_
      · simp [SelStep.apply, SelStep.call, go_bind, SelCall.apply, SelectStmt.DistinctOn, c1, hne,
          distinctField]
      · exact { hb with
          distinct := by
            have := hb.distinct
            simp only at this ⊢
            rw [this]
            cases d with
            | yes => simp [distinctGoes, distinctOf, SelStep.isDistinctOn] at hd
            | _ => rfl
          distinctOn := rfl
          distinctFits := by simp [fitsDistinct, hne]; simpa using hc }
    · by_cases hg' : g = []
      · have : cs = [] := by
          by_cases hcs : cs = []
          · exact hcs
          · exact absurd ⟨hcs, hg'⟩ hg
        subst this hg' e1
        exact stepOk_none (by rw [SelStep.on, if_neg hg]) rfl
      · refine stepOk_none (by rw [SelStep.on, if_neg hg])
          (p := .msg "loukoum: select builder has distinct on clause already defined") ?_
        simp [SelStep.apply, SelStep.call, go_bind, SelCall.apply, SelectStmt.DistinctOn, e1, hg',
          Go.panic]
  | columns is' =>
    simp only [SelStep.fits, Bool.and_eq_true, Bool.not_eq_true', List.isEmpty_eq_false_iff] at hc
    obtain ⟨as, ys, h1, h2⟩ := buildItems_ok is' hc.2
    have hs := areItems_select h2
    have hne : as ≠ [] := by
      rintro rfl
      cases h2.sel
      exact hc.1 h2.mean.symm
    refine stepOk_of (b' := ⟨pfx, ws', d', dn, ys, ts', js', w', g', hv, o', li', off', sfx, cm⟩) rfl
      ?_ { hb with items := ⟨h2.plain, h2.mean, h2.ok⟩, itemsNe := hc.1 }
    simp [SelStep.apply, SelStep.call, go_bind, SelCall.apply, h1, SelectStmt.Columns, hne, hs]
  | «from» l =>
    have hc : l.all fitsFrom = true := hc
    obtain ⟨c1, -⟩ := toFromItems_build hc
    by_cases hg : l ≠ [] ∧ ts = []
    · obtain ⟨hne, rfl⟩ := hg
      cases e2
      refine stepOk_of (b' := ⟨pfx, ws', d', dn, xs, l.map fromItem, js', w', g', hv, o', li',
        off', sfx, cm⟩) (by rw [SelStep.on, if_pos ⟨hne, rfl⟩]) ?_ ?_
      rotate_left
      · exact { hb with tables := rfl, tablesFit := hc }
      simp [SelStep.apply, SelStep.call, go_bind, SelCall.apply, SelectStmt.From, toFrom, c1, hne]
    · by_cases hg' : ts = []
      · have : l = [] := by
          by_cases hcs : l = []
          · exact hcs
          · exact absurd ⟨hcs, hg'⟩ hg
        subst this hg' e2
        exact stepOk_none (by rw [SelStep.on, if_neg hg]) rfl
      · refine stepOk_none (by rw [SelStep.on, if_neg hg])
          (p := .msg "loukoum: select builder has from clause already defined") ?_
        simp [SelStep.apply, SelStep.call, go_bind, SelCall.apply, SelectStmt.From, e2, hg', Go.panic]
  | join j =>
    obtain ⟨kind, table, cond⟩ := j
    have hc : fitsJoins [.mk kind table cond] = true := hc
    obtain ⟨ys, h1, h2⟩ := buildJoins_ok hc pfx ws' d' dn xs ts' js' w' g' hv o' li' off' sfx cm
    refine stepOk_of (b' := ⟨pfx, ws', d', dn, xs, ts', js' ++ ys, w', g', hv, o', li', off', sfx,
      cm⟩) rfl ?_ { hb with joins := joins_append hb.joins h2 }
    simp only [buildJoins] at h1
    rw [SelStep.apply, SelStep.call, ← h1]
    cases buildOn cond with
    | error p => rfl
    | ok e =>
      simp only [go_bind, SelCall.apply]
      cases SelectStmt.Join _ _ <;> rfl
  | «with» l =>
    obtain ⟨ys, h1, h2⟩ := buildWiths_ok l hc
    refine stepOk_of (b' := ⟨pfx, ws' ++ ys, d', dn, xs, ts', js', w', g', hv, o', li', off', sfx,
      cm⟩) rfl ?_ { hb with withs := areWiths_append hb.withs h2 }
    rw [SelStep.apply, SelStep.call, h1]
    simp only [go_bind, SelCall.apply, SelectStmt.With]
    cases ws' <;> rfl
  | «where» e =>
    obtain ⟨x, h1, h2⟩ := buildExpr_ok hc
    have hu := isWhere_unset hb.whr
    simp only at hu
    refine stepOk_of (b' := ⟨pfx, ws', d', dn, xs, ts', js',
      if w.isNone then newWrapper x else .infx w' (.logical s%"AND") (newWrapper x), g', hv, o', li',
      off', sfx, cm⟩) rfl ?_ { hb with whr := isWhere_add hb.whr h2 (by decide) }
    rw [SelStep.apply, SelStep.call, h1]
    simp only [go_bind, SelCall.apply, SelectStmt.Where, isNil_of h2, hu]
    cases w <;> simp [SelectStmt.And, isNil_of h2, whereAnd, hu, newWhere, Types.And]
  | and e =>
    obtain ⟨x, h1, h2⟩ := buildExpr_ok hc
    have hu := isWhere_unset hb.whr
    simp only at hu
    cases w with
    | none =>
      refine stepOk_none rfl (p := .msg "loukoum: two conditions are required for AND statement") ?_
      rw [SelStep.apply, SelStep.call, h1]
      simp [go_bind, SelCall.apply, SelectStmt.And, isNil_of h2, hu, whereAnd, Go.panic]
    | some w0 =>
      refine stepOk_of (b' := ⟨pfx, ws', d', dn, xs, ts', js',
        .infx w' (.logical s%"AND") (newWrapper x), g', hv, o', li', off', sfx, cm⟩) rfl ?_
        { hb with whr := isWhere_add hb.whr h2 (by decide) }
      rw [SelStep.apply, SelStep.call, h1]
      simp [go_bind, SelCall.apply, SelectStmt.And, isNil_of h2, whereAnd, hu, Types.And]
  | or e =>
    obtain ⟨x, h1, h2⟩ := buildExpr_ok hc
    have hu := isWhere_unset hb.whr
    simp only at hu
    cases w with
    | none =>
      refine stepOk_none rfl (p := .msg "loukoum: two conditions are required for OR statement") ?_
      rw [SelStep.apply, SelStep.call, h1]
      simp [go_bind, SelCall.apply, SelectStmt.Or, hu, whereOr, Go.panic]
    | some w0 =>
      refine stepOk_of (b' := ⟨pfx, ws', d', dn, xs, ts', js',
        .infx w' (.logical s%"OR") (newWrapper x), g', hv, o', li', off', sfx, cm⟩) rfl ?_
        { hb with whr := isWhere_add hb.whr h2 (by decide) }
      rw [SelStep.apply, SelStep.call, h1]
      simp [go_bind, SelCall.apply, SelectStmt.Or, whereOr, hu, Types.Or]
  | groupBy cs =>
    have hc : cs.all fitsQuoted = true := hc
    obtain ⟨c1, c2, c3⟩ := columns_build hc
    by_cases hg : cs ≠ [] ∧ g = []
    · obtain ⟨hne, rfl⟩ := hg
      cases e1
      refine stepOk_of (b' := ⟨pfx, ws', d', dn, xs, ts', js', w', cs.map fun r => Api.Column (refText r),
        hv, o', li', off', sfx, cm⟩) (by rw [SelStep.on, if_pos ⟨hne, rfl⟩]) ?_ ?_
      rotate_left
      · exact { hb with groupBy := rfl, groupByFits := hc }
      simp [SelStep.apply, SelStep.call, go_bind, SelCall.apply, SelectStmt.GroupBy, c1, hne]
    · by_cases hg' : g = []
      · have : cs = [] := by
          by_cases hcs : cs = []
          · exact hcs
          · exact absurd ⟨hcs, hg'⟩ hg
        subst this hg' e1
        exact stepOk_none (by rw [SelStep.on, if_neg hg]) rfl
      · refine stepOk_none (by rw [SelStep.on, if_neg hg])
          (p := .msg "loukoum: select builder has group by clause already defined") ?_
        simp [SelStep.apply, SelStep.call, go_bind, SelCall.apply, SelectStmt.GroupBy, e1, hg',
          Go.panic]
  | having e =>
    obtain ⟨x, h1, h2⟩ := buildExpr_ok hc
    have hu := isWhere_unset hb.having
    simp only at hu
    cases h with
    | none =>
      refine stepOk_of (b' := ⟨pfx, ws', d', dn, xs, ts', js', w', g', x, o', li', off', sfx, cm⟩) rfl
        ?_ { hb with having := h2 }
      rw [SelStep.apply, SelStep.call, h1]
      simp [go_bind, SelCall.apply, SelectStmt.Having, hu]
    | some w0 =>
      refine stepOk_none rfl
        (p := .msg "loukoum: select builder has having clause already defined") ?_
      rw [SelStep.apply, SelStep.call, h1]
      simp [go_bind, SelCall.apply, SelectStmt.Having, hu, Go.panic]
  | orderBy l =>
    refine stepOk_of rfl rfl ?_
    exact { hb with
      orderBy := by
        have := hb.orderBy
        simp only at this ⊢
        rw [this, List.map_append]
      orderByFits := by
        have hc : (l.all fun o => fitsBare o.name) = true := hc
        rw [List.all_append, hb.orderByFits, hc]
        rfl }
  | limit n =>
    have hn : fitsCount (some n) = true := hc
    have hp := hn
    simp only [fitsCount, Bool.and_eq_true, decide_eq_true_eq] at hp
    cases li with
    | none =>
      have e3 : li' = 0 := e3
      refine stepOk_of (b' := ⟨pfx, ws', d', dn, xs, ts', js', w', g', hv, o', n, off', sfx, cm⟩) rfl
        ?_ { hb with limit := rfl, limitFits := hn }
      have : n ≠ 0 := by omega
      simp [SelStep.apply, SelStep.call, go_bind, SelCall.apply, SelectStmt.Limit, e3, toLimit,
        buildCount, toInt64, this]
    | some m =>
      have hm := hb.limitFits
      simp only [fitsCount, Bool.and_eq_true, decide_eq_true_eq] at hm
      have e3 : li' = m := e3
      have : m ≠ 0 := by omega
      refine stepOk_none rfl (p := .msg "loukoum: select builder has limit clause already defined") ?_
      simp [SelStep.apply, SelStep.call, go_bind, SelCall.apply, SelectStmt.Limit, e3, this, Go.panic]
  | offset n =>
    have hn : fitsCount (some n) = true := hc
    cases off with
    | none =>
      have e4 : off' = 0 := e4
      refine stepOk_of (b' := ⟨pfx, ws', d', dn, xs, ts', js', w', g', hv, o', li', n, sfx, cm⟩) rfl
        ?_ { hb with offset := rfl, offsetFits := hn }
      have : ¬ ((n : Int) < 0) := by omega
      simp [SelStep.apply, SelStep.call, go_bind, SelCall.apply, SelectStmt.Offset, e4, toOffset,
        buildCount, toInt64, this]
    | some m =>
      have hm := hb.offsetFits
      simp only [fitsCount, Bool.and_eq_true, decide_eq_true_eq] at hm
      have e4 : off' = m := e4
      have : m ≠ 0 := by omega
      refine stepOk_none rfl (p := .msg "loukoum: select builder has offset clause already defined") ?_
      simp [SelStep.apply, SelStep.call, go_bind, SelCall.apply, SelectStmt.Offset, e4, this, Go.panic]
  | comment t =>
    have hc : '\n' ∉ t ∧ '\r' ∉ t := by simpa [SelStep.fits] using hc
    exact stepOk_of rfl rfl { hb with comment := hc }

theorem selSteps_ok (l : List SelStep) {b : SelectStmt} {q : SqlSelect} (hl : l.all SelStep.fits = true)
    (hb : Holds b q) (hd : distinctGoes l (distinctOf q) = true) :
    match runSteps SelStep.on l q with
    | some q' => ∃ b', runAll SelStep.apply l b = .ok b' ∧ Holds b' q'
    | none => ∃ p, runAll SelStep.apply l b = .error p := by
  induction l generalizing b q with
  | nil => exact ⟨b, rfl, hb⟩
  | cons c l ih =>
    simp only [List.all_cons, Bool.and_eq_true] at hl
    have hs := selStep_ok c l hl.1 hb hd
    rw [StepOk] at hs
    rw [runSteps, runAll]
    cases hq : c.on q with
    | none =>
      rw [hq] at hs
      obtain ⟨p, hp⟩ := hs
      rw [hp]
      exact ⟨p, rfl⟩
    | some q' =>
      rw [hq] at hs
      obtain ⟨b', hb', hh⟩ := hs
      rw [hb']
      exact ih hl.2 hh (distinctGoes_cons hd hq)

theorem selectOf_ok {items : List SqlItem} (h : fitsItems items = true) (hne : items ≠ []) :
    ∃ b, selectOf items = .ok b ∧ Holds b (selectStart items) := by
  obtain ⟨as, xs, h1, h2⟩ := buildItems_ok items h
  refine ⟨_, by rw [selectOf, h1, go_bind, select_ok h2 hne], ?_⟩
  exact ⟨⟨rfl, rfl, rfl⟩, rfl, rfl, rfl, ⟨h2.plain, h2.mean, h2.ok⟩, hne, rfl, rfl, ⟨rfl, rfl, rfl⟩,
    rfl, rfl, rfl, rfl, rfl, rfl, rfl, rfl, rfl, rfl,
    ⟨fun h => absurd h List.not_mem_nil, fun h => absurd h List.not_mem_nil⟩, rfl, rfl⟩

end

end Verif
