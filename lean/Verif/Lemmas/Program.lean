import Verif.Spec.Program
import Verif.Lemmas.SqlTame
import Verif.Lemmas.Where

/-!
# The calls that write a query build a statement that means the query
-/

set_option linter.unusedSectionVars false
set_option linter.unusedSimpArgs false

namespace Verif
open Spec

section
variable [GoRuntime]

/-! ## Names -/

theorem ordinary_ne_dot {c : Char} (h : ordinary c) : c ≠ '.' := h.2.2.2.2

theorem nameText_quoted {ps : List Str} (h : fitsQuoted (.quoted ps) = true) :
    plainName (nameText ps) = true ∧ quotedRef (nameText ps) = .quoted ps := by
  simp only [fitsQuoted, Bool.and_eq_true, Bool.not_eq_true', List.all_eq_true,
    decide_eq_true_eq] at h
  have hne : ps ≠ [] := by
    rintro rfl
    cases h.1
  constructor
  · rw [plainName, h.1]
    simp only [Bool.not_false, Bool.true_and, List.all_eq_true]
    intro c hc
    rcases mem_intercalate hc with rfl | ⟨p, hp, hcp⟩
    · simp
    · simp [h.2 p hp c hcp]
  · rw [quotedRef, nameText]
    congr 1
    exact splitOn_intercalate hne fun p hp hd => ordinary_ne_dot (h.2 p hp _ hd) rfl

theorem bareWord_no_dot {w : Str} (h : bareWord w = true) : '.' ∉ w := by
  simp only [bareWord, Bool.and_eq_true, List.all_eq_true] at h
  exact fun hd => by have := h.2 _ hd; revert this; decide

theorem nameText_bare {ps : List Str} (h : fitsBare (.bare ps) = true) :
    bareName (nameText ps) = true ∧ bareRef (nameText ps) = .bare ps := by
  simp only [fitsBare, Bool.and_eq_true, Bool.not_eq_true', List.isEmpty_eq_false_iff,
    List.all_eq_true] at h
  have hs : splitOn '.' (nameText ps) = ps :=
    splitOn_intercalate h.1 fun p hp => bareWord_no_dot (h.2 p hp)
  exact ⟨by rw [bareName, hs, List.all_eq_true]; exact h.2, by rw [bareRef, hs]⟩

theorem plainName_nonempty {t : Str} (h : plainName t = true) : t ≠ [] := by
  rintro rfl
  revert h
  decide

theorem fitsQuoted_text {r : Ref} (h : fitsQuoted r = true) :
    plainName (refText r) = true ∧ quotedRef (refText r) = r := by
  cases r with
  | quoted ps => exact nameText_quoted h
  | bare ps => cases h

theorem fitsBare_text {r : Ref} (h : fitsBare r = true) :
    bareName (refText r) = true ∧ bareRef (refText r) = r := by
  cases r with
  | quoted ps => cases h
  | bare ps => exact nameText_bare h

theorem fitsRef_ident {r : Ref} (h : fitsRef r = true) :
    plainIdent (buildIdent r) = true ∧ meanIdent (buildIdent r) = r := by
  cases r with
  | quoted ps => exact nameText_quoted (by simpa [fitsRef, fitsBare] using h)
  | bare ps => exact nameText_bare (by simpa [fitsRef, fitsQuoted] using h)

theorem fitsTable_build {t : SqlTable} (h : fitsTable t = true) :
    plainTable (buildTable t) = true ∧ meanTable (buildTable t) = t ∧ (buildTable t).name ≠ [] := by
  obtain ⟨only, name, alias⟩ := t
  simp only [fitsTable, Bool.and_eq_true] at h
  obtain ⟨h1, h2⟩ := fitsQuoted_text h.1
  have hne := plainName_nonempty h1
  cases alias with
  | none =>
    cases only <;>
      exact ⟨by simp [buildTable, Table.withOnly, Api.Table, plainTable, h1, plainAlias],
        by simp [buildTable, Table.withOnly, Api.Table, meanTable, h2, aliasRef],
        by simpa [buildTable, Table.withOnly, Api.Table] using hne⟩
  | some a =>
    obtain ⟨h3, h4⟩ := fitsQuoted_text h.2
    have hne' := plainName_nonempty h3
    cases only <;>
      exact ⟨by simp [buildTable, Table.withOnly, Table.as, Api.Table, plainTable, h1, plainAlias, h3],
        by simp [buildTable, Table.withOnly, Table.as, Api.Table, meanTable, h2, aliasRef, hne', h4],
        by simpa [buildTable, Table.withOnly, Table.as, Api.Table] using hne⟩

/-- The entry of FROM that is built. -/
def fromItem (t : SqlTable) : FromItem :=
  match t.name with
  | .quoted _ => .table (buildTable t)
  | .bare ps => .raw (nameText ps)

theorem fitsFrom_build {t : SqlTable} (h : fitsFrom t = true) :
    fromItemOf (buildFrom t) = .ok (fromItem t) ∧ plainFrom (fromItem t) = true ∧
      meanFrom (fromItem t) = t := by
  obtain ⟨only, name, alias⟩ := t
  cases name with
  | quoted ps =>
    have h : fitsTable ⟨only, .quoted ps, alias⟩ = true := by
      simpa [fitsFrom, fitsBare] using h
    obtain ⟨h1, h2, -⟩ := fitsTable_build h
    exact ⟨rfl, h1, h2⟩
  | bare ps =>
    simp only [fitsFrom, fitsTable, fitsQuoted, Bool.false_and, Bool.false_or, Bool.and_eq_true,
      Bool.not_eq_true', Option.isNone_iff_eq_none] at h
    obtain ⟨⟨h, rfl⟩, rfl⟩ := h
    obtain ⟨h1, h2⟩ := nameText_bare h
    exact ⟨rfl, h1, by simp [fromItem, meanFrom, h2]⟩

theorem toFromItems_build {l : List SqlTable} (h : l.all fitsFrom = true) :
    toFromItems (l.map buildFrom) = .ok (l.map fromItem) ∧
      (l.map fromItem).all plainFrom = true ∧ (l.map fromItem).map meanFrom = l ∧
      (l.map fromItem).all (· ≠ .nil) = true := by
  induction l with
  | nil => exact ⟨rfl, rfl, rfl, rfl⟩
  | cons t l ih =>
    simp only [List.all_cons, Bool.and_eq_true] at h
    obtain ⟨h1, h2, h3⟩ := fitsFrom_build h.1
    obtain ⟨h4, h5, h6, h7⟩ := ih h.2
    have hn : fromItem t ≠ .nil := by
      intro hn
      rw [hn] at h2
      cases h2
    refine ⟨by simp [toFromItems, h1, h4], by simp [h2, h5], by simp [h3, h6], ?_⟩
    rw [List.map_cons, List.all_cons, h7]
    simp [hn]

theorem columns_build {l : List Ref} (h : l.all fitsQuoted = true) :
    toColumns (l.map buildColumn) = .ok (l.map fun r => Api.Column (refText r)) ∧
      (l.map fun r => Api.Column (refText r)).all plainColumn = true ∧
      (l.map fun r => Api.Column (refText r)).map columnRef = l := by
  have hloop : ∀ l : List Ref, toColumns (l.map buildColumn) = toColumnsLoop (l.map buildColumn) := by
    intro l
    match l with
    | [] => rfl
    | [r] => rfl
    | r :: r' :: l => rfl
  rw [hloop]
  induction l with
  | nil => exact ⟨rfl, rfl, rfl⟩
  | cons r l ih =>
    simp only [List.all_cons, Bool.and_eq_true] at h
    obtain ⟨h1, h2⟩ := fitsQuoted_text h.1
    obtain ⟨h4, h5, h6⟩ := ih h.2
    have hne := plainName_nonempty h1
    refine ⟨?_, ?_, ?_⟩
    · simp [toColumnsLoop, buildColumn, columnsOfArg, Api.Column, Column.isEmpty, hne] at h4 ⊢
      simp [h4]
    · simpa [plainColumn, Api.Column, h1] using h5
    · simpa [columnRef, Api.Column, h2] using h6

theorem orders_build {l : List SqlOrder} (h : (l.all fun o => fitsBare o.name) = true) :
    (l.map buildOrder).all plainOrder = true ∧ (l.map buildOrder).map meanOrder = l := by
  induction l with
  | nil => exact ⟨rfl, rfl⟩
  | cons o l ih =>
    simp only [List.all_cons, Bool.and_eq_true] at h
    obtain ⟨h1, h2⟩ := fitsBare_text h.1
    obtain ⟨h4, h5⟩ := ih h.2
    obtain ⟨name, desc⟩ := o
    simp only [List.map_cons, List.all_cons, h4, h5, Bool.and_true]
    cases desc
    · exact ⟨by rw [plainOrder]; exact Bool.and_eq_true_iff.2 ⟨h1, rfl⟩,
        by simp only [buildOrder, newOrder, meanOrder, h2]; rfl⟩
    · exact ⟨by rw [plainOrder]; exact Bool.and_eq_true_iff.2 ⟨h1, rfl⟩,
        by simp only [buildOrder, newOrder, meanOrder, h2]; rfl⟩

/-! ## Expressions -/

theorem plain_loose {e : Expr} (h : plainExpr false e = true) : plainExpr true e = true := by
  match e with
  | .wrapper e =>
    unfold plainExpr at h ⊢
    exact h
  | .inx e op v =>
    unfold plainExpr at h ⊢
    exact h
  | .notExist e => exact absurd (plainExpr_notExist h).1 (by decide)
  | .onClause l r => simp [plainExpr] at h
  | .nil | .ident _ | .value _ | .arrayList _ | .array _ | .raw _ | .call _ _ | .infx _ _ _
  | .between _ _ _ _ _ | .select _ | .infixOn _ _ _ => simp only [plainExpr] at h ⊢ <;> exact h
  | .exist e =>
    obtain ⟨s, rfl, hs⟩ := plainExpr_exist h
    simp only [plainExpr, hs]

theorem identBlank_of_plain {i : Ident} (h : plainIdent i = true) : identBlank i = false := by
  cases i with
  | str s => exact List.isEmpty_eq_false_iff.2 (plainName_nonempty h)
  | raw s => rfl
  | other => cases h

theorem plainExpr_cond {loose : Bool} {l r : Expr} {op : Op}
    (h : plainExpr loose (.infx l op r) = true) :
    opL op ≠ [] ∧ plainExpr true l = true ∧ plainExpr true r = true := by
  have hne : ∀ ops : List Str, [] ∉ ops → opL op ∈ ops → opL op ≠ [] := by
    intro ops h1 h2 h3
    rw [h3] at h2
    exact h1 h2
  rw [plainExpr] at h
  split at h
  · next hop =>
    simp only [Bool.and_eq_true] at h
    exact ⟨hne _ (by decide) hop, h⟩
  · simp only [Bool.and_eq_true, decide_eq_true_eq] at h
    exact ⟨hne _ (by decide) h.1.1, plain_loose h.1.2, plain_loose h.2⟩

theorem blank_of_plainSelect {s : SelectStmt} (h : plainSelect s = true) :
    blank (.select s) = false := by
  obtain ⟨⟩ := s
  simp only [plainSelect, Bool.and_eq_true, Bool.not_eq_true'] at h
  simp [blank, h]

theorem blank_of_plain (e : Expr) {loose : Bool} (h : plainExpr loose e = true) :
    blank e = false := by
  match e with
  | .nil => cases h
  | .ident i => rw [blank]; exact identBlank_of_plain (by simpa [plainExpr] using h)
  | .value _ => rfl
  | .arrayList _ => cases h
  | .array _ => cases h
  | .raw s => rw [blank]; exact bareName_ne_nil (by simpa [plainExpr] using h)
  | .wrapper e =>
    rw [blank]
    rcases plainExpr_wrapper h with ⟨s, rfl, hs⟩ | h
    · exact blank_of_plainSelect hs
    · exact blank_of_plain e h
  | .call _ _ => rfl
  | .infx l op r =>
    obtain ⟨h1, h2, h3⟩ := plainExpr_cond h
    have : opBlank op = false := by
      cases op <;> simp_all [opL, opBlank]
    rw [blank, blank_of_plain l h2, blank_of_plain r h3, this]
    rfl
  | .inx e op v =>
    obtain ⟨hop, he, l, rfl, -⟩ := plainExpr_inx h
    rw [blank, blank_of_plain e he]
    rcases hop with rfl | rfl <;> rfl
  | .between i op lo and hi =>
    simp only [plainExpr, Bool.and_eq_true, Bool.or_eq_true, decide_eq_true_eq] at h
    obtain ⟨⟨⟨⟨h1, h2⟩, h3⟩, rfl⟩, h5⟩ := h
    rw [blank, blank_of_plain lo h3, blank_of_plain hi h5, identBlank_of_plain h1]
    rcases h2 with rfl | rfl <;> rfl
  | .exist _ => rfl
  | .notExist _ => rfl
  | .select _ => simp [plainExpr] at h
  | .onClause l r =>
    simp only [plainExpr, plainColumn, Bool.and_eq_true] at h
    simp [blank, plainName_nonempty h.1.2.1, plainName_nonempty h.2.1]
  | .infixOn l op r =>
    simp only [plainExpr, Bool.and_eq_true, decide_eq_true_eq] at h
    rw [blank, blank_of_plain l h.1.2, blank_of_plain r h.2]
    have := h.1.1
    simp only [connectives, List.mem_cons, List.not_mem_nil, or_false] at this
    rcases this with rfl | rfl <;> rfl

/-- The expression can be written and means `e`. -/
structure IsExpr (loose : Bool) (x : Expr) (e : Sql) : Prop where
  plain : plainExpr loose x = true
  mean : meanExpr x = e
  ok : okE x = true

/-- The statement can be written and means `q`. -/
structure IsSelect (s : SelectStmt) (q : SqlSelect) : Prop where
  plain : plainSelect s = true
  mean : meanSelect s = q
  ok : okS s = true

theorem IsExpr.loosen {x : Expr} {e : Sql} (h : IsExpr false x e) : IsExpr true x e :=
  ⟨plain_loose h.plain, h.mean, h.ok⟩

theorem IsExpr.blank {loose : Bool} {x : Expr} {e : Sql} (h : IsExpr loose x e) : blank x = false :=
  blank_of_plain x h.plain

/-- What kind of argument is built. -/
def Shape (a : Any) : Sql → Prop
  | .ref _ => ∃ i, a = .expr (.ident i)
  | .null => ∃ v, a = .val v ∨ a = .expr (.value v)
  | .value _ => ∃ v, a = .val v ∨ a = .expr (.value v)
  | .call f _ _ => ∃ xs, a = .expr (.call f xs)
  | .exist q => ∃ s, a = .expr (.exist (.select s)) ∧ IsSelect s q
  | .query q => ∃ s, a = .selectB s ∧ IsSelect s q
  | _ => True

/-- The argument is an expression that means `e`. -/
structure IsArg (a : Any) (e : Sql) (x : Expr) : Prop where
  expr : newExpression a = .ok x
  wrapped : IsExpr false (newWrapper x) e
  free : notQuery e = true → asExpression a = .ok x ∧ IsExpr true x e
  bound : tight e = true → IsExpr false x e
  shape : Shape a e

/-- An expression that needs no parentheses. -/
theorem IsArg.of {x : Expr} {e : Sql} (hx : x.isNil = false) (hw : newWrapper x = x)
    (h : IsExpr false x e) (hs : Shape (.expr x) e) : IsArg (.expr x) e x where
  expr := by cases x <;> first | rfl | cases hx
  wrapped := by rw [hw]; exact h
  free := fun _ => ⟨rfl, h.loosen⟩
  bound := fun _ => h
  shape := hs

theorem good_infix {l r : Expr} {el er : Sql} {op : Str} (hl : IsExpr false l el) (hr : IsExpr false r er)
    (h1 : op ∈ comparators) (h2 : op ∉ connectives) :
    IsExpr false (.infx l (.comparison op) r) (.binary op el er) where
  plain := by rw [plainExpr, opL, if_neg h2]; simp [h1, hl.plain, hr.plain]
  mean := by rw [meanExpr, hl.mean, hr.mean]; rfl
  ok := by
    have : blank (.infx l (.comparison op) r) = false :=
      blank_of_plain (loose := true) _ (by rw [plainExpr, opL, if_neg h2]; simp [h1, hl.plain, hr.plain])
    simp [okE, this, hl.ok, hr.ok]

theorem good_connective {l r : Expr} {el er : Sql} {op : Str} (hl : IsExpr true l el)
    (hr : IsExpr true r er) (h1 : op ∈ connectives) :
    IsExpr false (.infx l (.logical op) r) (.binary op el er) where
  plain := by rw [plainExpr, opL, if_pos h1]; simp [h1, hl.plain, hr.plain]
  mean := by rw [meanExpr, hl.mean, hr.mean]; rfl
  ok := by
    have : blank (.infx l (.logical op) r) = false :=
      blank_of_plain (loose := true) _ (by rw [plainExpr, opL, if_pos h1]; simp [h1, hl.plain, hr.plain])
    simp [okE, this, hl.ok, hr.ok]

/-- The method for an operator compares with it, and wraps sub-selects if the operator is one of
those. -/
def Compares (l : Expr) (ops : List Str) (ms : List (Str × (Any → Go Expr))) : Prop :=
  ∀ op ∈ ops, op ∈ comparators ∧ op ∉ connectives ∧ ∃ m, ms.lookup op = some m ∧
    ((op ∈ wrappingOps ∧ ∀ r, m r = compareWrapped l op r) ∨
      (op ∉ wrappingOps ∧ ∀ r, m r = comparePlain l op r))

theorem compares_ident (i : Ident) : Compares (.ident i) comparators (identMethods i) := by
  intro op h
  simp only [comparators, operatorTable, List.map_cons, List.map_nil, List.mem_cons,
    List.not_mem_nil, or_false] at h
  refine ⟨by simpa [comparators, operatorTable] using h, ?_⟩
  rcases h with rfl | rfl | rfl | rfl | rfl | rfl | rfl | rfl | rfl | rfl | rfl | rfl | rfl | rfl |
    rfl | rfl | rfl
  all_goals first
    | exact ⟨by decide, _, rfl, .inl ⟨by decide, fun _ => rfl⟩⟩
    | exact ⟨by decide, _, rfl, .inr ⟨by decide, fun _ => rfl⟩⟩

theorem compares_value (v : Val) :
    Compares (.value v) [s%"=", s%"!=", s%"@>", s%"<@", s%"&&"] (valueMethods v) := by
  intro op h
  simp only [List.mem_cons, List.not_mem_nil, or_false] at h
  rcases h with rfl | rfl | rfl | rfl | rfl
  all_goals exact ⟨by decide, by decide, _, rfl, .inl ⟨by decide, fun _ => rfl⟩⟩

theorem compares_call (f : Str) (args : List Expr) :
    Compares (.call f args) [s%"=", s%">", s%"<", s%"LIKE", s%"ILIKE", s%"&&"]
      (callMethods f args) := by
  intro op h
  simp only [List.mem_cons, List.not_mem_nil, or_false] at h
  rcases h with rfl | rfl | rfl | rfl | rfl | rfl
  all_goals first
    | exact ⟨by decide, by decide, _, rfl, .inl ⟨by decide, fun _ => rfl⟩⟩
    | exact ⟨by decide, by decide, _, rfl, .inr ⟨by decide, fun _ => rfl⟩⟩

theorem go_bind {α β : Type} (a : α) (f : α → Go β) : (Except.ok a >>= f : Go β) = f a := rfl

/-- What stands on the left of a comparison has the methods. -/
theorem left_compares {l : Any} {el : Sql} {xl : Expr} (hl : IsArg l el xl) {op : Str}
    (hop : op ∈ opsOf el) : IsExpr false xl el ∧ Compares xl (opsOf el) (methods l) := by
  cases el with
  | ref r =>
    obtain ⟨i, rfl⟩ := hl.shape
    cases hl.expr
    exact ⟨hl.bound rfl, compares_ident i⟩
  | null =>
    obtain ⟨v, rfl | rfl⟩ := hl.shape
    · have h := (hl.free rfl).1
      cases h
      exact ⟨hl.bound rfl, compares_value v⟩
    · cases hl.expr
      exact ⟨hl.bound rfl, compares_value v⟩
  | value _ =>
    obtain ⟨v, rfl | rfl⟩ := hl.shape
    · have h := (hl.free rfl).1
      cases h
      exact ⟨hl.bound rfl, compares_value v⟩
    · cases hl.expr
      exact ⟨hl.bound rfl, compares_value v⟩
  | call f d args =>
    obtain ⟨xs, rfl⟩ := hl.shape
    cases hl.expr
    exact ⟨hl.bound rfl, compares_call f xs⟩
  | _ => simp [opsOf] at hop

theorem isArg_binary {op : Str} {l r : Any} {el er : Sql} {xl xr : Expr} (hl : IsArg l el xl)
    (hr : IsArg r er xr)
    (h : (if op ∈ connectives then notQuery el && notQuery er
      else op ∈ opsOf el && (op ∈ wrappingOps || tight er)) = true) :
    ∃ x, buildBinary op l r = .ok x ∧ IsArg (.expr x) (.binary op el er) x := by
  split at h
  · next hop =>
    simp only [Bool.and_eq_true] at h
    obtain ⟨h1, h2⟩ := hl.free h.1
    obtain ⟨h3, h4⟩ := hr.free h.2
    have hg := good_connective h2 h4 hop
    refine ⟨.infx xl (.logical op) xr, ?_, IsArg.of rfl rfl hg trivial⟩
    simp only [connectives, List.mem_cons, List.not_mem_nil, or_false] at hop
    rcases hop with rfl | rfl
    · rw [buildBinary, if_pos rfl, h1, h3]; rfl
    · rw [buildBinary, if_neg (by decide), if_pos rfl, h1, h3]; rfl
  · next hop =>
    simp only [Bool.and_eq_true, decide_eq_true_eq, Bool.or_eq_true] at h
    obtain ⟨hx, hc⟩ := left_compares hl h.1
    obtain ⟨h1, -, m, h3, h4⟩ := hc op h.1
    have hb : buildBinary op l r = m r := by
      rw [buildBinary, if_neg, if_neg, buildCompare, h3]
      · rintro rfl; exact hop (by decide)
      · rintro rfl; exact hop (by decide)
    rw [hb]
    rcases h4 with ⟨-, h4⟩ | ⟨hnw, h4⟩
    · refine ⟨_, by rw [h4, compareWrapped, newWrapped, hr.expr], ?_⟩
      exact IsArg.of rfl rfl (good_infix hx hr.wrapped h1 hop) trivial
    · refine ⟨_, by rw [h4, comparePlain, hr.expr], ?_⟩
      exact IsArg.of rfl rfl (good_infix hx (hr.bound (h.2.resolve_left hnw)) h1 hop) trivial

theorem isArg_exist {s : SelectStmt} {q : SqlSelect} (h : IsSelect s q) :
    IsArg (.expr (.exist (.select s))) (.exist q) (.exist (.select s)) where
  expr := rfl
  wrapped := ⟨by simp [newWrapper, plainExpr, h.plain], by simp [newWrapper, meanExpr, h.mean],
    by simp [newWrapper, okE, h.ok]⟩
  free := fun _ => ⟨rfl, by simp [plainExpr, h.plain], by simp [meanExpr, h.mean], by simp [okE, h.ok]⟩
  bound := fun _ => ⟨by simp [plainExpr, h.plain], by simp [meanExpr, h.mean], by simp [okE, h.ok]⟩
  shape := ⟨s, rfl, h⟩

theorem isArg_not {s : SelectStmt} {q : SqlSelect} (h : IsSelect s q) :
    IsArg (.expr (.notExist (.select s))) (.not (.exist q)) (.notExist (.select s)) where
  expr := rfl
  wrapped := ⟨by simp [newWrapper, plainExpr, h.plain], by simp [newWrapper, meanExpr, h.mean],
    by simp [newWrapper, okE, h.ok]⟩
  free := fun _ => ⟨rfl, by simp [plainExpr, h.plain], by simp [meanExpr, h.mean], by simp [okE, h.ok]⟩
  bound := fun h => by cases h
  shape := trivial

theorem isArg_query {s : SelectStmt} {q : SqlSelect} (h : IsSelect s q) :
    IsArg (.selectB s) (.query q) (.select s) where
  expr := rfl
  wrapped := ⟨by simp [newWrapper, plainExpr, h.plain], by simp [newWrapper, meanExpr, h.mean],
    by simp [newWrapper, okE, h.ok]⟩
  free := fun h => by cases h
  bound := fun h => by cases h
  shape := ⟨s, rfl, h⟩

theorem isArg_value {v : Val} (h : v ≠ .nil) :
    IsArg (if basic v then .val v else .expr (Api.Value v)) (.value v) (.value v) := by
  have hg : IsExpr false (.value v) (.value v) :=
    ⟨by simp [plainExpr], by cases v <;> first | rfl | exact absurd rfl h, by simp [okE]⟩
  cases hb : basic v with
  | false => exact IsArg.of rfl rfl hg ⟨v, .inr rfl⟩
  | true =>
    refine ⟨?_, hg, fun _ => ⟨rfl, hg.loosen⟩, fun _ => hg, ⟨v, .inl rfl⟩⟩
    cases v <;> first | rfl | exact absurd rfl h | cases hb

theorem isArg_null : IsArg (.val .nil) .null (.value .nil) := by
  have hg : IsExpr false (.value .nil) .null := ⟨by simp [plainExpr], rfl, by simp [okE]⟩
  exact ⟨rfl, hg, fun _ => ⟨rfl, hg.loosen⟩, fun _ => hg, ⟨.nil, .inl rfl⟩⟩

/-- The arguments are expressions that mean `es`. -/
structure AreArgs (as : List Any) (es : List Sql) (xs : List Expr) : Prop where
  append : appendAll as = .ok xs
  exprs : asExpressions as = .ok xs
  plain : plainExprs xs = true
  mean : meanExprs xs = es
  ok : okEs xs = true

theorem areArgs_nil : AreArgs [] [] [] := ⟨rfl, rfl, rfl, rfl, rfl⟩

theorem areArgs_cons {a : Any} {as : List Any} {e : Sql} {es : List Sql} {x : Expr} {xs : List Expr}
    (h : IsArg a e x) (he : notQuery e = true) (hs : AreArgs as es xs) :
    AreArgs (a :: as) (e :: es) (x :: xs) where
  append := by simp only [appendAll, h.expr, hs.append]
  exprs := by rw [asExpressions, (h.free he).1, hs.exprs]; rfl
  plain := by rw [plainExprs, (h.free he).2.plain, hs.plain]; rfl
  mean := by rw [meanExprs, (h.free he).2.mean, hs.mean]
  ok := by rw [okEs, (h.free he).2.ok, hs.ok]; rfl

/-- The arguments of IN give a set that means `e`. -/
structure IsSet (as : List Any) (e : Sql) (xs : List Expr) : Prop where
  array : newArrayExpression as = .ok (.array xs)
  plain : plainSet xs = true
  mean : meanExpr (.array xs) = e
  ok : okEs xs = true
  ne : xs ≠ []

theorem plainSet_of {xs : List Expr} (h : plainExprs xs = true) (hne : xs ≠ []) :
    plainSet xs = true := by
  unfold plainSet
  split
  · simp [plainExprs, plainExpr] at h
  · simp [h, hne]

theorem isSet_list {as : List Any} {es : List Sql} {xs : List Expr} (h : AreArgs as es xs)
    (hne : es ≠ []) : IsSet [.anys as] (.list es) xs := by
  have hx : xs ≠ [] := by
    rintro rfl
    exact hne h.mean.symm
  have hp := plainSet_of h.plain hx
  refine ⟨?_, hp, ?_, h.ok, hx⟩
  · simp only [newArrayExpression, toArray, Any.isNil, h.append]
    rfl
  · rcases plainSet_cases hp with ⟨s, rfl, -⟩ | ⟨-, -, hm⟩
    · have := h.plain
      simp [plainExprs, plainExpr] at this
    · rw [meanExpr, hm, h.mean]

theorem isSet_query {s : SelectStmt} {q : SqlSelect} (h : IsSelect s q) :
    IsSet [.selectB s] (.query q) [.select s] :=
  ⟨rfl, by simp [plainSet, h.plain], by simp [meanExpr, meanExprs, meanSet, h.mean],
    by simp [okEs, okE, h.ok], by simp⟩

theorem plainExpr_in {loose : Bool} {e : Expr} {op : Str} {xs : List Expr}
    (hop : op = s%"IN" ∨ op = s%"NOT IN") (he : plainExpr false e = true) (h : plainSet xs = true)
    (hne : xs ≠ []) : plainExpr loose (.inx e op (.array xs)) = true := by
  rcases plainSet_cases h with ⟨s, rfl, hs⟩ | ⟨-, hp, -⟩
  · unfold plainExpr
    simp [hop, he, hs]
  · unfold plainExpr
    simp only [he, Bool.and_true, Bool.and_eq_true, Bool.or_eq_true, decide_eq_true_eq]
    refine ⟨hop, ?_⟩
    split
    · next heq =>
      cases heq
      simp [plainExprs, plainExpr] at hp
    · next heq => cases heq; simp [hp, hne]
    · next h1 h2 => exact absurd rfl (h2 _)

theorem good_in {x : Expr} {e set : Sql} {as : List Any} {xs : List Expr} {op : Str}
    (hx : IsExpr false x e) (h : IsSet as set xs) (hop : op = s%"IN" ∨ op = s%"NOT IN") :
    IsExpr false (.inx x op (.array xs)) (.isIn (op = s%"NOT IN") e set) where
  plain := plainExpr_in hop hx.plain h.plain h.ne
  mean := by rw [meanExpr, hx.mean, h.mean]
  ok := by
    have hb := blank_of_plain _ (plainExpr_in (loose := true) hop hx.plain h.plain h.ne)
    rw [okE, hb, hx.ok]
    have : (Expr.array xs).isEmpty = .ok false := by simp [Expr.isEmpty, h.ne]
    rw [this, okE, h.ok]
    rfl

theorem isArg_in {negated : Bool} {l : Any} {e set : Sql} {x : Expr} {as : List Any}
    {xs : List Expr} (hl : IsArg l e x) (h : IsSet as set xs)
    (he : hasIn negated e = true) :
    ∃ y, buildIn negated l as = .ok y ∧ IsArg (.expr y) (.isIn negated e set) y := by
  cases e with
  | ref r =>
    obtain ⟨i, rfl⟩ := hl.shape
    cases hl.expr
    cases negated with
    | false =>
      refine ⟨_, by simp only [buildIn, Ident.In, h.array]; rfl,
        IsArg.of rfl rfl (good_in (hl.bound rfl) h (.inl rfl)) trivial⟩
    | true =>
      refine ⟨_, by simp only [buildIn, Ident.NotIn, h.array]; rfl,
        IsArg.of rfl rfl (good_in (hl.bound rfl) h (.inr rfl)) trivial⟩
  | call f d args =>
    obtain ⟨ys, rfl⟩ := hl.shape
    cases hl.expr
    cases negated with
    | false =>
      refine ⟨_, by simp only [buildIn, callIn, h.array]; rfl,
        IsArg.of rfl rfl (good_in (hl.bound rfl) h (.inl rfl)) trivial⟩
    | true => cases he
  | _ => cases he

theorem good_between {i : Ident} {e elo ehi : Sql} {lo hi : Expr} {op : Str}
    (hi' : IsExpr false (.ident i) e) (hlo : IsExpr false lo elo) (hhi : IsExpr false hi ehi)
    (hop : op = s%"BETWEEN" ∨ op = s%"NOT BETWEEN") :
    IsExpr false (.between i op lo s%"AND" hi) (.between (op = s%"NOT BETWEEN") e elo ehi) := by
  have hp : plainExpr false (.between i op lo s%"AND" hi) = true := by
    have := hi'.plain
    simp only [plainExpr] at this
    simp [plainExpr, this, hlo.plain, hhi.plain, hop]
  refine ⟨hp, ?_, ?_⟩
  · have := hi'.mean
    rw [meanExpr] at this
    rw [meanExpr, this, hlo.mean, hhi.mean]
  · rw [okE, blank_of_plain _ hp, hlo.ok, hhi.ok]
    rfl

theorem isArg_between {negated : Bool} {l lo hi : Any} {e elo ehi : Sql} {x xlo xhi : Expr}
    (hl : IsArg l e x) (hlo : IsArg lo elo xlo) (hhi : IsArg hi ehi xhi) (h1 : tight elo = true)
    (h2 : tight ehi = true)
    (he : isRef e = true) :
    ∃ y, buildBetween negated l lo hi = .ok y ∧ IsArg (.expr y) (.between negated e elo ehi) y := by
  cases e with
  | ref r =>
    obtain ⟨i, rfl⟩ := hl.shape
    cases hl.expr
    cases negated with
    | false =>
      refine ⟨_, by simp only [buildBetween, Ident.Between, hlo.expr, hhi.expr]; rfl,
        IsArg.of rfl rfl (good_between (hl.bound rfl) (hlo.bound h1) (hhi.bound h2) (.inl rfl))
          trivial⟩
    | true =>
      refine ⟨_, by simp only [buildBetween, Ident.NotBetween, hlo.expr, hhi.expr]; rfl,
        IsArg.of rfl rfl (good_between (hl.bound rfl) (hlo.bound h1) (hhi.bound h2) (.inr rfl))
          trivial⟩
  | _ => cases he

theorem good_wrapper {x : Expr} {e : Sql} (h : IsExpr true x e) : IsExpr true (newWrapper x) e := by
  obtain ⟨h1, h2, h3⟩ := h
  cases x
  case select s => simp [plainExpr] at h1
  case exist e => exact ⟨by unfold plainExpr; exact h1, by rw [newWrapper, meanExpr]; exact h2,
    by rw [newWrapper, okE]; exact h3⟩
  case notExist e => exact ⟨by unfold plainExpr; exact h1, by rw [newWrapper, meanExpr]; exact h2,
    by rw [newWrapper, okE]; exact h3⟩
  all_goals exact ⟨h1, h2, h3⟩

/-! ## Joins -/

theorem isEmpty_good {loose : Bool} {x : Expr} {e : Sql} (h : IsExpr loose x e) :
    x.isEmpty = .ok false ∧ x.isUnset = .ok false := by
  have h1 := isUnset_of h.ok
  rw [h.blank] at h1
  refine ⟨?_, h1⟩
  have : x.isNil = false := by
    have := h.plain
    cases x <;> first | rfl | cases this
  rw [Expr.isUnset, this] at h1
  exact h1

theorem buildOn_ok (e : Sql) (h : fitsOn e = true) : ∃ x, buildOn e = .ok x ∧ IsExpr true x e ∧
    ((∃ l r, x = .onClause l r) ∨ ∃ l op r, x = .infixOn l op r) := by
  match e with
  | .binary op l r =>
    rw [fitsOn] at h
    split at h
    · next hop =>
      simp only [Bool.and_eq_true] at h
      obtain ⟨xl, hl, gl, -⟩ := buildOn_ok l h.1
      obtain ⟨xr, hr, gr, -⟩ := buildOn_ok r h.2
      have hp : plainExpr true (.infixOn xl op xr) = true := by
        rw [plainExpr, gl.plain, gr.plain]
        simp [hop]
      have hg : IsExpr true (.infixOn xl op xr) (.binary op l r) :=
        ⟨hp, by rw [meanExpr, gl.mean, gr.mean],
          by rw [okE, blank_of_plain _ hp, gl.ok, gr.ok]; rfl⟩
      refine ⟨.infixOn xl op xr, ?_, hg, .inr ⟨_, _, _, rfl⟩⟩
      simp only [connectives, List.mem_cons, List.not_mem_nil, or_false] at hop
      rcases hop with rfl | rfl
      · rw [buildOn, if_pos rfl, hl, hr]; rfl
      · rw [buildOn, if_neg (by decide), if_pos rfl, hl, hr]; rfl
    · simp only [Bool.and_eq_true, decide_eq_true_eq] at h
      obtain ⟨rfl, h⟩ := h
      unfold fitsEqual at h
      split at h
      · simp only [Bool.and_eq_true] at h
        obtain ⟨h1, h2⟩ := fitsQuoted_text h.1
        obtain ⟨h3, h4⟩ := fitsQuoted_text h.2
        refine ⟨_, rfl, ⟨?_, ?_, ?_⟩, .inl ⟨_, _, rfl⟩⟩
        · simp [Api.On, Api.Column, plainExpr, plainColumn, h1, h3]
        · simp [Api.On, Api.Column, meanExpr, columnRef, h2, h4]
        · simp [Api.On, okE]
      · cases h
  | .ref _ | .star | .null | .value _ | .not _ | .isIn _ _ _ | .between _ _ _ _ | .exist _
  | .list _ | .call _ _ _ | .query _ => simp [fitsOn] at h

theorem join_ok (b : SelectStmt) {kind : Str} {t : Table} {x : Expr} {e : Sql}
    (hk : kind ≠ []) (ht : t.name ≠ []) (hx : IsExpr true x e)
    (hs : (∃ l r, x = .onClause l r) ∨ ∃ l op r, x = .infixOn l op r) :
    b.Join [.table t, .expr x, .joinType kind] =
      .ok { b with joins := b.joins ++ [⟨kind, t, x⟩] } := by
  have hj : SelectStmt.handleSelectJoin (.table t) (.expr x) = .ok ⟨Types.InnerJoin, t, x⟩ := by
    rcases hs with ⟨l, r, rfl⟩ | ⟨l, op, r, rfl⟩ <;> rfl
  have he : Join.isEmpty ⟨kind, t, x⟩ = .ok false := by
    rw [Join.isEmpty, Table.isEmpty, (isEmpty_good hx).1, List.isEmpty_eq_false_iff.2 hk,
      List.isEmpty_eq_false_iff.2 ht]
    rfl
  simp only [SelectStmt.Join, hj, SelectStmt.addJoin, he]

theorem buildJoins_ok {l : List SqlJoin} (h : fitsJoins l = true) (p withs d dn es ts js w g hv o li
    off sfx c) :
    ∃ js', buildJoins ⟨p, withs, d, dn, es, ts, js, w, g, hv, o, li, off, sfx, c⟩ l =
        .ok ⟨p, withs, d, dn, es, ts, js ++ js', w, g, hv, o, li, off, sfx, c⟩ ∧
      plainJoins js' = true ∧ meanJoins js' = l ∧ okJoins js' = true := by
  induction l generalizing js with
  | nil => exact ⟨[], by simp [buildJoins], rfl, rfl, rfl⟩
  | cons j l ih =>
    obtain ⟨kind, table, cond⟩ := j
    simp only [fitsJoins, Bool.and_eq_true, decide_eq_true_eq] at h
    obtain ⟨⟨⟨hk, ht⟩, hc⟩, hl⟩ := h
    obtain ⟨x, h1, h2, h3⟩ := buildOn_ok cond hc
    obtain ⟨h4, h5, h6⟩ := fitsTable_build ht
    obtain ⟨js', h7, h8, h9, h10⟩ := ih hl (js ++ [⟨kind, buildTable table, x⟩])
    have hk' : kind ≠ [] := by
      rintro rfl
      revert hk
      decide
    refine ⟨⟨kind, buildTable table, x⟩ :: js', ?_, ?_, ?_, ?_⟩
    · rw [buildJoins, h1, go_bind, join_ok _ hk' h6 h2 h3, go_bind, h7]
      simp
    · rw [plainJoins, plainJoin, h4, h2.plain, h8]
      simp [hk]
    · rw [meanJoins, meanJoin, h5, h2.mean, h9]
    · rw [okJoins, h2.ok, h10]
      rfl

/-! ## Entries of a column list -/

/-- The argument is an entry of a column list that means `i`. -/
structure IsItem (a : Any) (i : SqlItem) (x : SelExpr) : Prop where
  one : (∃ s, a = .selExpr s) ∨ ∃ e, a = .expr e
  sel : selectsOfArg a = .ok [x]
  plain : plainItem x = true
  mean : meanItem x = i
  ok : okSel x = true

theorem isItem_named {r : Ref} {alias : Option Ref} (h : fitsNamed r alias = true) :
    ∃ x, IsItem (buildNamed r alias) (.mk (.ref r) alias) x := by
  cases r with
  | quoted ps =>
    simp only [fitsNamed, Bool.and_eq_true] at h
    obtain ⟨h1, h2⟩ := nameText_quoted h.1
    have hne := plainName_nonempty h1
    cases alias with
    | none =>
      refine ⟨.column ⟨nameText ps, []⟩, .inl ⟨_, rfl⟩, ?_, ?_, ?_, rfl⟩
      · simp only [selectsOfArg, buildNamed, Api.Column, Any.asSelExpr, selectsOfSelExpr,
          SelExpr.isEmpty, Column.isEmpty, List.isEmpty_eq_false_iff.2 hne]
      · simp [plainItem, h1, plainAlias]
      · simp [meanItem, h2, aliasRef]
    | some a =>
      obtain ⟨h3, h4⟩ := fitsQuoted_text (r := a) (by simpa using h.2)
      have hne' := plainName_nonempty h3
      refine ⟨.column ⟨nameText ps, refText a⟩, .inl ⟨_, rfl⟩, ?_, ?_, ?_, rfl⟩
      · simp only [selectsOfArg, buildNamed, Api.Column, Column.as, Any.asSelExpr, selectsOfSelExpr,
          SelExpr.isEmpty, Column.isEmpty, List.isEmpty_eq_false_iff.2 hne]
      · simp [plainItem, h1, plainAlias, h3]
      · simp [meanItem, h2, aliasRef, hne', h4]
  | bare ps =>
    simp only [fitsNamed, Bool.and_eq_true, Option.isNone_iff_eq_none] at h
    obtain ⟨h, rfl⟩ := h
    obtain ⟨h1, h2⟩ := nameText_bare h
    refine ⟨.raw (nameText ps), .inr ⟨_, rfl⟩, ?_, ?_, ?_, rfl⟩
    · simp [selectsOfArg, buildNamed, Api.Raw, Any.asSelExpr, selectsOfSelExpr, SelExpr.isEmpty,
        bareName_ne_nil h1]
    · simp [plainItem, h1]
    · simp [meanItem, h2]

/-- An aggregate that means `f([DISTINCT] e) [AS alias]`. -/
theorem isItem_of {x : SelExpr} {i : SqlItem} (hx : x.isEmpty = .ok false) (hp : plainItem x = true)
    (hm : meanItem x = i) (ho : okSel x = true) : IsItem (.selExpr x) i x := by
  refine ⟨.inl ⟨_, rfl⟩, ?_, hp, hm, ho⟩
  cases x <;> first | cases hp | simp only [selectsOfArg, Any.asSelExpr, selectsOfSelExpr, hx]

theorem isItem_aggregate {f : Str} {d : Bool} {args : List Sql} {alias : Option Ref}
    (h : fitsAggregate f d args alias = true) :
    ∃ e a x, args = [e] ∧ buildAggregate f d e alias = .ok a ∧
      IsItem a (.mk (.call f d args) alias) x := by
  simp only [fitsAggregate, Bool.and_eq_true, Bool.or_eq_true, Bool.not_eq_true', decide_eq_true_eq]
    at h
  obtain ⟨⟨⟨hf, hd⟩, ha⟩, harg⟩ := h
  have harg : ∃ e, args = [e] ∧ aggregateText e ≠ [] ∧
      (aggregateText e = s%"*" ∨ bareName (aggregateText e) = true) ∧
      (if aggregateText e = s%"*" then Sql.star else .ref (bareRef (aggregateText e))) = e := by
    split at harg
    · exact ⟨_, rfl, by simp [aggregateText], .inl rfl, rfl⟩
    · next r =>
      obtain ⟨h1, h2⟩ := fitsBare_text harg
      refine ⟨_, rfl, ?_, .inr h1, ?_⟩
      · exact List.isEmpty_eq_false_iff.1 (bareName_ne_nil h1)
      · have : refText r ≠ s%"*" := by
          intro hs
          rw [hs] at h1
          revert h1
          decide
        rw [aggregateText, if_neg this, h2]
    · cases harg
  obtain ⟨e, rfl, hv, hv', he⟩ := harg
  have hal : ∃ al : Str, (al = [] ∨ bareName al = true) ∧
      (if al.isEmpty then none else some (bareRef al)) = alias ∧
      al = (alias.map refText).getD [] := by
    cases alias with
    | none => exact ⟨[], .inl rfl, rfl, rfl⟩
    | some r =>
      obtain ⟨h1, h2⟩ := fitsBare_text (r := r) (by simpa using ha)
      exact ⟨_, .inr h1, by simp [bareName_ne_nil h1, h2], rfl⟩
  obtain ⟨al, hal1, hal2, hal3⟩ := hal
  have hp : plainAggregate (aggregateText e) al = true := by
    rw [plainAggregate, Bool.and_eq_true]
    refine ⟨?_, ?_⟩
    · rcases hv' with h | h <;> simp [h]
    · rcases hal1 with h | h <;> simp [h]
  have hm : ∀ f d, meanAggregate f d (aggregateText e) al = .mk (.call f d [e]) alias := by
    intro f d
    rw [meanAggregate, hal2, he]
  have hv0 : (aggregateText e).isEmpty = false := List.isEmpty_eq_false_iff.2 hv
  simp only [aggregates, List.map_cons, List.map_nil, List.mem_cons, List.not_mem_nil,
    or_false] at hf
  refine ⟨e, ?_⟩
  rcases hf with rfl | rfl | rfl | rfl
  · refine ⟨_, .count (aggregateText e) d al, rfl, ?_,
      isItem_of (by rw [SelExpr.isEmpty, hv0]) (by rw [plainItem]; exact hp)
        (by rw [meanItem]; exact hm _ _) rfl⟩
    subst hal3
    cases d <;> cases alias <;> rfl
  all_goals
    have hd : d = false := hd.resolve_right (by decide)
    subst hd
  · refine ⟨_, .max (aggregateText e) al, rfl, ?_,
      isItem_of (by rw [SelExpr.isEmpty, hv0]) (by rw [plainItem]; exact hp)
        (by rw [meanItem]; exact hm _ _) rfl⟩
    subst hal3
    cases alias <;> rfl
  · refine ⟨_, .min (aggregateText e) al, rfl, ?_,
      isItem_of (by rw [SelExpr.isEmpty, hv0]) (by rw [plainItem]; exact hp)
        (by rw [meanItem]; exact hm _ _) rfl⟩
    subst hal3
    cases alias <;> rfl
  · refine ⟨_, .sum (aggregateText e) al, rfl, ?_,
      isItem_of (by rw [SelExpr.isEmpty, hv0]) (by rw [plainItem]; exact hp)
        (by rw [meanItem]; exact hm _ _) rfl⟩
    subst hal3
    cases alias <;> rfl

theorem isItem_exist {s : SelectStmt} {q : SqlSelect} (h : IsSelect s q) :
    IsItem (.expr (.exist (.select s))) (.mk (.exist q) none) (.exist (.select s)) :=
  ⟨.inr ⟨_, rfl⟩, rfl, by simp [plainItem, h.plain], by simp [meanItem, h.mean],
    by simp [okSel, okE, h.ok]⟩

theorem isItem_not {s : SelectStmt} {q : SqlSelect} (h : IsSelect s q) :
    IsItem (.expr (.notExist (.select s))) (.mk (.not (.exist q)) none) (.notExist (.select s)) :=
  ⟨.inr ⟨_, rfl⟩, rfl, by simp [plainItem, h.plain], by simp [meanItem, h.mean],
    by simp [okSel, okE, h.ok]⟩

/-- The arguments are a column list that means `is`. -/
structure AreItems (as : List Any) (is : List SqlItem) (xs : List SelExpr) : Prop where
  one : ∀ a ∈ as, (∃ s, a = .selExpr s) ∨ ∃ e, a = .expr e
  sel : toSelectExpressionsLoop as = .ok xs
  plain : plainItems xs = true
  mean : meanItems xs = is
  ok : okSels xs = true

theorem areItems_nil : AreItems [] [] [] := ⟨nofun, rfl, rfl, rfl, rfl⟩

theorem areItems_cons {a : Any} {as : List Any} {i : SqlItem} {is : List SqlItem} {x : SelExpr}
    {xs : List SelExpr} (h : IsItem a i x) (hs : AreItems as is xs) :
    AreItems (a :: as) (i :: is) (x :: xs) where
  one := List.forall_mem_cons.2 ⟨h.one, hs.one⟩
  sel := by simp [toSelectExpressionsLoop, h.sel, hs.sel]
  plain := by rw [plainItems, h.plain, hs.plain]; rfl
  mean := by rw [meanItems, h.mean, hs.mean]
  ok := by rw [okSels, h.ok, hs.ok]; rfl

theorem areItems_select {as : List Any} {is : List SqlItem} {xs : List SelExpr}
    (h : AreItems as is xs) : toSelectExpressions as = .ok xs := by
  have : toSelectExpressions as = toSelectExpressionsLoop as := by
    match as with
    | [] => rfl
    | [a] =>
      rcases h.one a (by simp) with ⟨s, rfl⟩ | ⟨e, rfl⟩ <;> rfl
    | a :: a' :: as =>
      rcases h.one a (by simp) with ⟨s, rfl⟩ | ⟨e, rfl⟩ <;> rfl
  rw [this, h.sel]

/-- The WITH clause means `ws`. -/
structure AreWiths (xs : List WithQuery) (ws : List SqlWith) : Prop where
  plain : plainWiths xs = true
  mean : meanWiths xs = ws
  ok : okWiths xs = true

theorem areWiths_cons {name : Str} {s : SelectStmt} {q : SqlSelect} {xs : List WithQuery}
    {ws : List SqlWith} (hn : bareWord name = true) (h : IsSelect s q) (hs : AreWiths xs ws) :
    AreWiths (⟨name, .select s⟩ :: xs) (.mk name q :: ws) where
  plain := by simp [plainWiths, plainWith, hn, h.plain, hs.plain]
  mean := by simp [meanWiths, meanWith, h.mean, hs.mean]
  ok := by
    have hb : WithQuery.isEmpty ⟨name, .select s⟩ = .ok (name.isEmpty || s.isEmpty) := by
      simp only [WithQuery.isEmpty, Expr.isNil, Expr.isEmpty]
      cases name.isEmpty <;> cases s.isEmpty <;> rfl
    simp only [okWiths, hs.ok, okE, h.ok, Bool.and_true, hb]
    cases name.isEmpty || s.isEmpty <;> rfl

/-! ## Queries -/

/-- The optional condition means the other. -/
def IsCond : Option Expr → Option Sql → Prop
  | none, none => True
  | some x, some e => IsExpr true x e
  | _, _ => False

/-- The condition as a field of the statement. -/
def condField (wrap : Expr → Expr) : Option Expr → Expr
  | none => .nil
  | some x => wrap x

theorem condField_ok {wrap : Expr → Expr} (hw : ∀ x e, IsExpr true x e → IsExpr true (wrap x) e)
    {o : Option Expr} {e : Option Sql} (h : IsCond o e) :
    (blank (condField wrap o) || plainExpr true (condField wrap o)) = true ∧
      (if blank (condField wrap o) then none else some (meanExpr (condField wrap o))) = e ∧
      okIf (condField wrap o).isUnset (okE (condField wrap o)) = true := by
  match o, e with
  | none, none => exact ⟨rfl, rfl, rfl⟩
  | some x, some e =>
    have h := hw x e h
    rw [condField, h.plain, h.blank, h.mean, h.ok, (isEmpty_good h).2]
    exact ⟨rfl, rfl, rfl⟩

/-- The number as a field of the statement. -/
def countField : Option Nat → Int
  | none => 0
  | some n => n

theorem countField_ok {o : Option Nat} (h : fitsCount o = true) :
    0 ≤ countField o ∧ meanCount (countField o) = o := by
  cases o with
  | none => exact ⟨by simp [countField], rfl⟩
  | some n =>
    simp only [fitsCount, Bool.and_eq_true, decide_eq_true_eq] at h
    exact ⟨by simp [countField], by simp [countField, meanCount]; omega⟩

theorem limit_ok {o : Option Nat} (h : fitsCount o = true) (p withs d dn es ts js w g hv ord off
    sfx c) :
    ifSome ⟨p, withs, d, dn, es, ts, js, w, g, hv, ord, 0, off, sfx, c⟩ (o.map buildCount)
        SelectStmt.Limit =
      .ok ⟨p, withs, d, dn, es, ts, js, w, g, hv, ord, countField o, off, sfx, c⟩ := by
  cases o with
  | none => rfl
  | some n =>
    simp only [fitsCount, Bool.and_eq_true, decide_eq_true_eq] at h
    have : n ≠ 0 := by omega
    simp [ifSome, SelectStmt.Limit, toLimit, buildCount, toInt64, this, countField]

theorem offset_ok {o : Option Nat} (h : fitsCount o = true) (p withs d dn es ts js w g hv ord li
    sfx c) :
    ifSome ⟨p, withs, d, dn, es, ts, js, w, g, hv, ord, li, 0, sfx, c⟩ (o.map buildCount)
        SelectStmt.Offset =
      .ok ⟨p, withs, d, dn, es, ts, js, w, g, hv, ord, li, countField o, sfx, c⟩ := by
  cases o with
  | none => rfl
  | some n =>
    have : ¬ ((n : Int) < 0) := by omega
    simp [ifSome, SelectStmt.Offset, toOffset, buildCount, toInt64, this, countField]

/-- The DISTINCT ON columns as a field of the statement. -/
def distinctField : SqlDistinct → List Column
  | .on cs => cs.map fun r => Api.Column (refText r)
  | _ => []

theorem distinct_ok {x : SqlDistinct} (h : fitsDistinct x = true) (p withs es ts js w hv ord li off
    sfx c) :
    buildDistinct ⟨p, withs, false, [], es, ts, js, w, [], hv, ord, li, off, sfx, c⟩ x =
      .ok ⟨p, withs, x = .yes, distinctField x, es, ts, js, w, [], hv, ord, li, off, sfx, c⟩ := by
  cases x with
  | no => rfl
  | yes => rfl
  | on cs =>
    simp only [fitsDistinct, Bool.and_eq_true, Bool.not_eq_true'] at h
    obtain ⟨h1, h2, h3⟩ := columns_build h.2
    cases cs with
    | nil => cases h.1
    | cons r cs =>
      rw [buildDistinct, SelectStmt.DistinctOn, h1]
      rfl

theorem distinctField_ok {x : SqlDistinct} (h : fitsDistinct x = true) :
    (!decide (x = .yes) || (distinctField x).isEmpty) = true ∧
    (distinctField x).all plainColumn = true ∧
    (if decide (x = SqlDistinct.yes) = true then SqlDistinct.yes
      else if (distinctField x).isEmpty = true then SqlDistinct.no
      else SqlDistinct.on ((distinctField x).map columnRef)) = x := by
  cases x with
  | no => exact ⟨rfl, rfl, rfl⟩
  | yes => exact ⟨rfl, rfl, rfl⟩
  | on cs =>
    simp only [fitsDistinct, Bool.and_eq_true, Bool.not_eq_true'] at h
    obtain ⟨h1, h2, h3⟩ := columns_build h.2
    refine ⟨by simp, h2, ?_⟩
    cases cs with
    | nil => cases h.1
    | cons r cs =>
      simp only [distinctField, h3]
      rfl

theorem from_ok {l : List SqlTable} (h : l.all fitsFrom = true) (p withs d dn es js w g hv ord li off
    sfx c) :
    ifAny ⟨p, withs, d, dn, es, [], js, w, g, hv, ord, li, off, sfx, c⟩ (l.map buildFrom)
        SelectStmt.From =
      .ok ⟨p, withs, d, dn, es, l.map fromItem, js, w, g, hv, ord, li, off, sfx, c⟩ := by
  cases l with
  | nil => rfl
  | cons t l =>
    have := (toFromItems_build h).1
    simp only [ifAny, List.map_cons, List.isEmpty_cons] at this ⊢
    simp [SelectStmt.From, toFrom, this]

theorem groupBy_ok {l : List Ref} (h : l.all fitsQuoted = true) (p withs d dn es ts js w hv ord li off
    sfx c) :
    ifAny ⟨p, withs, d, dn, es, ts, js, w, [], hv, ord, li, off, sfx, c⟩ (l.map buildColumn)
        SelectStmt.GroupBy =
      .ok ⟨p, withs, d, dn, es, ts, js, w, l.map fun r => Api.Column (refText r), hv, ord, li, off,
        sfx, c⟩ := by
  cases l with
  | nil => rfl
  | cons t l =>
    have := (columns_build h).1
    simp only [ifAny, List.map_cons, List.isEmpty_cons] at this ⊢
    simp [SelectStmt.GroupBy, this]

theorem where_ok {o : Option Expr} {e : Option Sql} (h : IsCond o e) (p withs d dn es ts js g hv ord
    li off sfx c) :
    ifSome ⟨p, withs, d, dn, es, ts, js, .nil, g, hv, ord, li, off, sfx, c⟩ o SelectStmt.Where =
      .ok ⟨p, withs, d, dn, es, ts, js, condField newWrapper o, g, hv, ord, li, off, sfx, c⟩ := by
  match o, e with
  | none, none => rfl
  | some x, some e =>
    have : x.isNil = false := by
      have := IsExpr.plain h
      cases x <;> first | rfl | cases this
    simp only [ifSome, SelectStmt.Where, this]
    rfl

theorem having_ok {o : Option Expr} (p withs d dn es ts js w g ord li off sfx c) :
    ifSome ⟨p, withs, d, dn, es, ts, js, w, g, .nil, ord, li, off, sfx, c⟩ o SelectStmt.Having =
      .ok ⟨p, withs, d, dn, es, ts, js, w, g, condField id o, ord, li, off, sfx, c⟩ := by
  cases o <;> rfl

theorem with_ok (ws : List WithQuery) (p d dn es ts js w g hv ord li off sfx c) :
    ifAny ⟨p, [], d, dn, es, ts, js, w, g, hv, ord, li, off, sfx, c⟩ ws SelectStmt.With =
      .ok ⟨p, ws, d, dn, es, ts, js, w, g, hv, ord, li, off, sfx, c⟩ := by
  cases ws <;> rfl

theorem orderBy_ok (l : List Order) (p withs d dn es ts js w g hv li off sfx c) :
    ifAny ⟨p, withs, d, dn, es, ts, js, w, g, hv, [], li, off, sfx, c⟩ l SelectStmt.OrderBy =
      .ok ⟨p, withs, d, dn, es, ts, js, w, g, hv, l, li, off, sfx, c⟩ := by
  cases l <;> rfl

theorem select_ok {as : List Any} {is : List SqlItem} {xs : List SelExpr} (h : AreItems as is xs)
    (hne : is ≠ []) :
    select as = .ok ⟨[], [], false, [], xs, [], [], .nil, [], .nil, [], 0, 0, [], []⟩ := by
  have hs := areItems_select h
  cases as with
  | nil =>
    cases h.sel
    exact absurd h.mean.symm hne
  | cons a as =>
    simp only [select, SelectStmt.Columns, List.isEmpty_cons, Bool.false_eq_true, if_false, hs]
    rfl

end

end Verif
