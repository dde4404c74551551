import Verif.Lemmas.Program

/-!
# Queries written with the functions of loukoum
-/

set_option linter.unusedSectionVars false

namespace Verif
open Spec

section
variable [GoRuntime]

theorem IsSelect.comment {s : SelectStmt} {q : SqlSelect} (h : IsSelect s q) : s.comment = [] := by
  have := h.plain
  cases s
  simp only [plainSelect, Bool.and_eq_true, List.isEmpty_iff] at this
  simp [this]

/-- From the parts of a query to the query. -/
theorem isSelect_build {withs : List SqlWith} {distinct : SqlDistinct} {items : List SqlItem}
    {tables : List SqlTable} {joins : List SqlJoin} {whr having : Option Sql} {groupBy : List Ref}
    {orderBy : List SqlOrder} {limit offset : Option Nat} {ws : List WithQuery}
    {xs : List SelExpr} {js : List Join} {ow oh : Option Expr} (hw : AreWiths ws withs)
    (hd : fitsDistinct distinct = true) (hx : plainItems xs = true ∧ meanItems xs = items ∧
      okSels xs = true) (hne : items ≠ [])
    (ht : tables.all fitsFrom = true)
    (hj : plainJoins js = true ∧ meanJoins js = joins ∧ okJoins js = true)
    (how : IsCond ow whr) (hg : groupBy.all fitsQuoted = true) (hoh : IsCond oh having)
    (ho : (orderBy.all fun o => fitsBare o.name) = true) (hl : fitsCount limit = true)
    (hof : fitsCount offset = true) :
    IsSelect ⟨[], ws, distinct = .yes, distinctField distinct, xs, tables.map fromItem, js,
        condField newWrapper ow, groupBy.map fun r => Api.Column (refText r), condField id oh,
        orderBy.map buildOrder, countField limit, countField offset, [], []⟩
      (.mk withs distinct items tables joins whr groupBy having orderBy limit offset) := by
  obtain ⟨d1, d2, d3⟩ := distinctField_ok hd
  obtain ⟨-, t2, t3, t4⟩ := toFromItems_build ht
  obtain ⟨-, g2, g3⟩ := columns_build hg
  obtain ⟨o1, o2⟩ := orders_build ho
  obtain ⟨l1, l2⟩ := countField_ok hl
  obtain ⟨f1, f2⟩ := countField_ok hof
  obtain ⟨w1, w2, w3⟩ := condField_ok (fun _ _ => good_wrapper) how
  obtain ⟨h1, h2, h3⟩ := condField_ok (wrap := id) (fun _ _ h => h) hoh
  obtain ⟨x1, x2, x3⟩ := hx
  obtain ⟨j1, j2, j3⟩ := hj
  have hxs : xs.isEmpty = false := by
    cases xs with
    | nil => exact absurd x2.symm hne
    | cons x xs => rfl
  refine ⟨?_, ?_, ?_⟩
  · rw [plainSelect, hw.plain, d1, d2, hxs, x1, t2, j1, w1, g2, h1, o1]
    simp [l1, f1]
  · rw [meanSelect, hw.mean, d3, x2, t3, j2, w2, g3, h2, o2, l2, f2]
  · rw [okS, hxs, hw.ok, x3, t4, j3, w3, h3]
    rfl

mutual

theorem build_ok (e : Sql) (h : fits e = true) : ∃ a x, build e = .ok a ∧ IsArg a e x := by
  match e with
  | .ref r =>
    obtain ⟨h1, h2⟩ := fitsRef_ident (by simpa [fits] using h)
    refine ⟨_, .ident (buildIdent r), by rw [build],
      IsArg.of rfl rfl ⟨by rw [plainExpr, h1], by rw [meanExpr, h2], rfl⟩ ⟨_, rfl⟩⟩
  | .star => cases h
  | .null => exact ⟨_, _, by rw [build], isArg_null⟩
  | .value v =>
    refine ⟨_, _, by rw [build], isArg_value ?_⟩
    rintro rfl
    cases h
  | .binary op l r =>
    rw [fits] at h
    simp only [Bool.and_eq_true] at h
    obtain ⟨al, xl, h1, h2⟩ := build_ok l h.1.1
    obtain ⟨ar, xr, h3, h4⟩ := build_ok r h.1.2
    obtain ⟨x, h5, h6⟩ := isArg_binary (op := op) h2 h4 h.2
    exact ⟨_, x, by rw [build, h1, h3, go_bind, go_bind, h5, go_bind], h6⟩
  | .not e =>
    rw [fits] at h
    simp only [Bool.and_eq_true] at h
    obtain ⟨a, x, h1, h2⟩ := build_ok e h.1
    cases e with
    | exist q =>
      obtain ⟨s, rfl, hs⟩ := h2.shape
      exact ⟨_, _, by rw [build, h1, go_bind]; rfl, isArg_not hs⟩
    | _ => cases h.2
  | .isIn negated e set =>
    rw [fits] at h
    simp only [Bool.and_eq_true] at h
    obtain ⟨a, x, h1, h2⟩ := build_ok e h.1.1
    obtain ⟨as, xs, h3, h4⟩ := buildSet_ok set h.1.2
    obtain ⟨y, h5, h6⟩ := isArg_in (negated := negated) h2 h4 h.2
    exact ⟨_, y, by rw [build, h1, h3, go_bind, go_bind, h5, go_bind], h6⟩
  | .between negated e lo hi =>
    rw [fits] at h
    simp only [Bool.and_eq_true] at h
    obtain ⟨⟨⟨⟨⟨he, hlo⟩, hhi⟩, t1⟩, t2⟩, hr⟩ := h
    obtain ⟨a, x, h1, h2⟩ := build_ok e he
    obtain ⟨al, xl, h3, h4⟩ := build_ok lo hlo
    obtain ⟨ah, xh, h5, h6⟩ := build_ok hi hhi
    obtain ⟨y, h7, h8⟩ := isArg_between (negated := negated) h2 h4 h6 t1 t2 hr
    exact ⟨_, y, by rw [build, h1, h3, h5, go_bind, go_bind, go_bind, h7, go_bind], h8⟩
  | .exist q =>
    rw [fits] at h
    obtain ⟨s, h1, h2⟩ := buildSelect_ok q h
    exact ⟨_, _, by rw [build, h1, go_bind]; rfl, isArg_exist h2⟩
  | .list _ => cases h
  | .call f d args =>
    rw [fits] at h
    simp only [Bool.and_eq_true, Bool.not_eq_true'] at h
    obtain ⟨⟨rfl, hf⟩, ha⟩ := h
    obtain ⟨as, xs, h1, h2⟩ := buildList_ok args ha
    refine ⟨_, newCall f xs, by rw [build, h1, go_bind, h2.exprs, go_bind],
      IsArg.of rfl rfl ⟨?_, ?_, ?_⟩ ⟨_, rfl⟩⟩
    · rw [newCall, plainExpr, hf, h2.plain]; rfl
    · rw [newCall, meanExpr, h2.mean]
    · rw [newCall, okE, h2.ok]
  | .query q =>
    rw [fits] at h
    obtain ⟨s, h1, h2⟩ := buildSelect_ok q h
    exact ⟨_, _, by rw [build, h1, go_bind], isArg_query h2⟩

theorem buildList_ok (l : List Sql) (h : fitsList l = true) :
    ∃ as xs, buildList l = .ok as ∧ AreArgs as l xs := by
  match l with
  | [] => exact ⟨_, _, by rw [buildList], areArgs_nil⟩
  | e :: l =>
    rw [fitsList] at h
    simp only [Bool.and_eq_true] at h
    obtain ⟨a, x, h1, h2⟩ := build_ok e h.1.1
    obtain ⟨as, xs, h3, h4⟩ := buildList_ok l h.2
    exact ⟨_, _, by rw [buildList, h1, h3, go_bind, go_bind], areArgs_cons h2 h.1.2 h4⟩

theorem buildSet_ok (e : Sql) (h : fitsSet e = true) :
    ∃ as xs, buildSet e = .ok as ∧ IsSet as e xs := by
  match e with
  | .list es =>
    rw [fitsSet] at h
    simp only [Bool.and_eq_true, Bool.not_eq_true', List.isEmpty_eq_false_iff] at h
    obtain ⟨as, xs, h1, h2⟩ := buildList_ok es h.2
    exact ⟨_, _, by rw [buildSet, h1, go_bind], isSet_list h2 h.1⟩
  | .query q =>
    rw [fitsSet] at h
    obtain ⟨s, h1, h2⟩ := buildSelect_ok q h
    exact ⟨_, _, by rw [buildSet, h1, go_bind], isSet_query h2⟩
  | .ref _ | .star | .null | .value _ | .binary _ _ _ | .not _ | .isIn _ _ _ | .between _ _ _ _
  | .exist _ | .call _ _ _ => cases h

theorem buildCond_ok (o : Option Sql) (h : fitsCond o = true) :
    ∃ x, buildCond o = .ok x ∧ IsCond x o := by
  match o with
  | none => exact ⟨none, by rw [buildCond], trivial⟩
  | some e =>
    rw [fitsCond] at h
    simp only [Bool.and_eq_true] at h
    obtain ⟨a, x, h1, h2⟩ := build_ok e h.1
    exact ⟨some x, by rw [buildCond, h1, go_bind, (h2.free h.2).1, go_bind], (h2.free h.2).2⟩

theorem buildItem_ok (i : SqlItem) (h : fitsItem i = true) :
    ∃ a x, buildItem i = .ok a ∧ IsItem a i x := by
  match i with
  | .mk (.ref r) alias =>
    simp only [fitsItem] at h
    obtain ⟨x, hx⟩ := isItem_named h
    exact ⟨_, x, by simp only [buildItem], hx⟩
  | .mk (.call f d args) alias =>
    simp only [fitsItem] at h
    obtain ⟨e, a, x, rfl, h1, h2⟩ := isItem_aggregate h
    exact ⟨a, x, by simp only [buildItem, h1], h2⟩
  | .mk (.exist q) alias =>
    simp only [fitsItem, Bool.and_eq_true, Option.isNone_iff_eq_none] at h
    obtain ⟨s, h1, h2⟩ := buildSelect_ok q h.1
    obtain ⟨-, rfl⟩ := h
    exact ⟨_, _, by simp only [buildItem, h1, go_bind]; rfl, isItem_exist h2⟩
  | .mk (.not (.exist q)) alias =>
    simp only [fitsItem, Bool.and_eq_true, Option.isNone_iff_eq_none] at h
    obtain ⟨s, h1, h2⟩ := buildSelect_ok q h.1
    obtain ⟨-, rfl⟩ := h
    exact ⟨_, _, by simp only [buildItem, h1, go_bind]; rfl, isItem_not h2⟩
  | .mk (.not .star) _ | .mk (.not .null) _ | .mk (.not (.value _)) _
  | .mk (.not (.binary _ _ _)) _ | .mk (.not (.isIn _ _ _)) _ | .mk (.not (.between _ _ _ _)) _
  | .mk (.not (.list _)) _ | .mk (.not (.query _)) _ | .mk (.not (.ref _)) _
  | .mk (.not (.not _)) _ | .mk (.not (.call _ _ _)) _
  | .mk .star _ | .mk .null _ | .mk (.value _) _ | .mk (.binary _ _ _) _
  | .mk (.isIn _ _ _) _ | .mk (.between _ _ _ _) _ | .mk (.list _) _ | .mk (.query _) _ =>
    simp [fitsItem] at h

theorem buildItems_ok (l : List SqlItem) (h : fitsItems l = true) :
    ∃ as xs, buildItems l = .ok as ∧ AreItems as l xs := by
  match l with
  | [] => exact ⟨_, _, by rw [buildItems], areItems_nil⟩
  | i :: l =>
    rw [fitsItems] at h
    simp only [Bool.and_eq_true] at h
    obtain ⟨a, x, h1, h2⟩ := buildItem_ok i h.1
    obtain ⟨as, xs, h3, h4⟩ := buildItems_ok l h.2
    exact ⟨_, _, by rw [buildItems, h1, h3, go_bind, go_bind], areItems_cons h2 h4⟩

theorem buildWiths_ok (l : List SqlWith) (h : fitsWiths l = true) :
    ∃ xs, buildWiths l = .ok xs ∧ AreWiths xs l := by
  match l with
  | [] => exact ⟨_, by rw [buildWiths], rfl, rfl, rfl⟩
  | .mk name q :: l =>
    rw [fitsWiths, fitsWith] at h
    simp only [Bool.and_eq_true] at h
    obtain ⟨s, h1, h2⟩ := buildSelect_ok q h.1.2
    obtain ⟨xs, h3, h4⟩ := buildWiths_ok l h.2
    exact ⟨_, by rw [buildWiths, buildWith, h1, go_bind, h3]; rfl, areWiths_cons h.1.1 h2 h4⟩

theorem buildSelect_ok (q : SqlSelect) (h : fitsSelect q = true) :
    ∃ s, buildSelect q = .ok s ∧ IsSelect s q := by
  match q with
  | .mk withs distinct items tables joins whr groupBy having orderBy limit offset =>
    rw [fitsSelect] at h
    simp only [Bool.and_eq_true, Bool.not_eq_true', List.isEmpty_eq_false_iff] at h
    obtain ⟨⟨⟨⟨⟨⟨⟨⟨⟨⟨⟨hw, hd⟩, hne⟩, hi⟩, ht⟩, hj⟩, hwh⟩, hg⟩, hh⟩, ho⟩, hl⟩, hof⟩ := h
    obtain ⟨ws, h1, h2⟩ := buildWiths_ok withs hw
    obtain ⟨as, xs, h3, h4⟩ := buildItems_ok items hi
    obtain ⟨ow, h5, h6⟩ := buildCond_ok whr hwh
    obtain ⟨oh, h7, h8⟩ := buildCond_ok having hh
    obtain ⟨js, h9, h10⟩ := buildJoins_ok hj [] ws (distinct = .yes) (distinctField distinct) xs
      (tables.map fromItem) [] .nil [] .nil [] 0 0 [] []
    refine ⟨_, ?_, isSelect_build h2 hd ⟨h4.plain, h4.mean, h4.ok⟩ hne ht h10 h6 hg h8 ho hl hof⟩
    rw [buildSelect, h1, go_bind, h3, go_bind, h5, go_bind, h7, go_bind, select_ok h4 hne, go_bind,
      with_ok, go_bind, distinct_ok hd, go_bind, from_ok ht, go_bind, h9, go_bind,
      where_ok h6, go_bind, groupBy_ok hg, go_bind, having_ok, go_bind, orderBy_ok, go_bind,
      limit_ok hl, go_bind, offset_ok hof]
    rfl

end

end

end Verif
