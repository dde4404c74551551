import Verif.Lemmas.SqlStmts

/-!
# Plain statements are tame
-/

set_option linter.unusedSectionVars false
set_option linter.unusedSimpArgs false

namespace Verif
open Spec

/-! ## Names -/

theorem scan_nameChars {b : Bool} {t : Str} (h : ∀ c ∈ t, wordStart c = true ∨ c = '.') {m : Mode}
    (hm : m = .free ∨ m = .word) (d : Nat) (fs : List Str) :
    ∃ m', (m' = .free ∨ m' = .word) ∧ scan b ⟨m, d, fs⟩ t = ⟨m', d, fs⟩ := by
  induction t generalizing m with
  | nil => exact ⟨m, hm, rfl⟩
  | cons c t ih =>
    have key : ∃ m', (m' = .free ∨ m' = .word) ∧ Scan.step b ⟨m, d, fs⟩ c = ⟨m', d, fs⟩ := by
      have hstart : wordStart c = true → Scan.start ⟨m, d, fs⟩ c = ⟨.word, d, fs⟩ := by
        intro hc
        have : ∀ x : Char, wordStart x = false → c ≠ x := by
          rintro x hx rfl
          rw [hx] at hc
          cases hc
        simp [Scan.start, hc, this '"' (by decide), this '\'' (by decide), this '(' (by decide),
          this ')' (by decide), this '$' (by decide), this '-' (by decide), this '/' (by decide)]
      rcases h c List.mem_cons_self with hc | rfl
      · rcases hm with rfl | rfl
        · exact ⟨.word, .inr rfl, hstart hc⟩
        · exact ⟨.word, .inr rfl, by simp [Scan.step, hc]⟩
      · refine ⟨.free, .inl rfl, ?_⟩
        rcases hm with rfl | rfl <;> rfl
    obtain ⟨m', hm', e⟩ := key
    obtain ⟨m'', h1, h2⟩ := ih (fun x hx => h x (List.mem_cons_of_mem _ hx)) hm'
    exact ⟨m'', h1, by rw [← h2, ← e]; rfl⟩

theorem selfContained_nameChars {b : Bool} {t : Str} (h : ∀ c ∈ t, wordStart c = true ∨ c = '.') :
    SelfContained b t := by
  obtain ⟨m, hm, e⟩ := scan_nameChars (b := b) h (.inl rfl : (.free : Mode) = .free ∨ _) 0 []
  rw [SelfContained, ClosedWith]
  have : Scan.init = ⟨.free, 0, []⟩ := rfl
  rw [this, e]
  rcases hm with rfl | rfl <;> rfl

theorem mem_intercalate {sep c : Char} {l : List Str} (h : c ∈ List.intercalate [sep] l) :
    c = sep ∨ ∃ p ∈ l, c ∈ p := by
  induction l with
  | nil => simp [List.intercalate] at h
  | cons a l ih =>
    cases l with
    | nil =>
      simp [List.intercalate] at h
      exact .inr ⟨a, by simp, h⟩
    | cons a' l =>
      simp only [List.intercalate, List.intersperse, List.flatten_cons, List.mem_append,
        List.mem_singleton] at h ih
      rcases h with h | h | h
      · exact .inr ⟨a, by simp, h⟩
      · exact .inl h
      · rcases ih h with h | ⟨p, hp, hc⟩
        · exact .inl h
        · exact .inr ⟨p, List.mem_cons_of_mem _ hp, hc⟩

theorem selfContained_bareName {b : Bool} {t : Str} (h : bareName t = true) : SelfContained b t := by
  refine selfContained_nameChars fun c hc => ?_
  rw [(splitOn_join '.' t).1] at hc
  rcases mem_intercalate hc with rfl | ⟨p, hp, hc⟩
  · exact .inr rfl
  · have := List.all_eq_true.1 h p hp
    simp only [bareWord, Bool.and_eq_true, List.all_eq_true] at this
    exact .inl (this.2 c hc)

theorem plainName_quote {n : Str} (h : plainName n = true) : '"' ∉ n := by
  intro hq
  simp only [plainName, Bool.and_eq_true, List.all_eq_true] at h
  exact absurd (h.2 _ hq) (by decide)

section
variable [GoRuntime] {b : Bool}

/-! ## Lists of pieces -/

/-- All pieces are tame. -/
def Tames (b : Bool) (l : List Piece) : Prop := ∀ p ∈ l, Tame b p

@[simp] theorem tames_nil : Tames b [] := nofun

@[simp] theorem tames_cons {p : Piece} {l : List Piece} : Tames b (p :: l) ↔ Tame b p ∧ Tames b l := by
  simp [Tames]

@[simp] theorem tames_append {l m : List Piece} : Tames b (l ++ m) ↔ Tames b l ∧ Tames b m := by
  simp [Tames, or_imp, forall_and]

theorem tames_commaSep {ls : List (List Piece)} (h : ∀ l ∈ ls, Tames b l) : Tames b (commaSep ls) := by
  induction ls with
  | nil => exact tames_nil
  | cons a ls ih =>
    cases ls with
    | nil => exact h a List.mem_cons_self
    | cons a' ls =>
      rw [commaSep, tames_append, tames_cons]
      exact ⟨h a List.mem_cons_self, trivial, ih fun l hl => h l (List.mem_cons_of_mem _ hl)⟩

theorem tames_spaced {cs : List (Option (List Piece))} (h : ∀ c ∈ cs, ∀ l, c = some l → Tames b l) :
    Tames b (spaced cs) := by
  induction cs with
  | nil => exact tames_nil
  | cons c cs ih =>
    have h' := fun c hc => h c (List.mem_cons_of_mem _ hc)
    cases c with
    | none => exact ih h'
    | some a =>
      rw [spaced, tames_append]
      refine ⟨h _ List.mem_cons_self a rfl, ?_⟩
      intro p hp
      obtain ⟨c, hc, hp⟩ := List.mem_flatMap.1 hp
      cases c with
      | none => cases hp
      | some l =>
        rcases List.mem_cons.1 hp with rfl | hp
        · trivial
        · exact h' _ hc l rfl p hp

theorem tames_clause {p : Bool} {c l : List Piece} (h : p = true → Tames b c)
    (e : clause p c = some l) : Tames b l := by
  cases p with
  | false => cases e
  | true => cases e; exact h rfl

theorem tames_aliased {n a : Str} (h : plainName n = true) (ha : plainAlias a = true) :
    Tames b (aliased n a) := by
  rw [aliased, tames_cons]
  refine ⟨plainName_quote h, ?_⟩
  simp only [plainAlias, Bool.or_eq_true] at ha
  split
  · exact tames_nil
  · next hne =>
    exact tames_cons.2 ⟨trivial, tames_cons.2 ⟨plainName_quote (ha.resolve_left hne), tames_nil⟩⟩

theorem tames_column {c : Column} (h : plainColumn c = true) : Tames b (columnL c) := by
  simp only [plainColumn, Bool.and_eq_true] at h
  exact tames_aliased h.1 (by simp [plainAlias, h.2])

theorem tames_table {t : Table} (h : plainTable t = true) : Tames b (tableL t) := by
  simp only [plainTable, Bool.and_eq_true] at h
  rw [tableL, tames_append]
  refine ⟨?_, tames_aliased h.1 h.2⟩
  split
  · exact tames_cons.2 ⟨trivial, tames_nil⟩
  · exact tames_nil

theorem tames_raw {t : Str} (h : SelfContained b t) : Tames b [.raw t] :=
  tames_cons.2 ⟨h, tames_nil⟩

theorem tames_bare {t : Str} (h : bareName t = true) : Tames b [.raw t] :=
  tames_raw (selfContained_bareName h)

theorem tames_from {f : FromItem} (h : plainFrom f = true) : Tames b (fromItemL f) := by
  cases f with
  | nil => cases h
  | table t => exact tames_table h
  | raw s => exact tames_bare h

theorem tames_ident {i : Ident} (h : plainIdent i = true) : Tames b (identL i) := by
  cases i with
  | str s => exact tames_cons.2 ⟨plainName_quote h, tames_nil⟩
  | raw s => exact tames_bare h
  | other => cases h

theorem tames_order {o : Order} (h : plainOrder o = true) : Tames b (orderL o) := by
  simp only [plainOrder, Bool.and_eq_true, Bool.or_eq_true, decide_eq_true_eq] at h
  rw [orderL]
  split
  · exact tames_nil
  · refine tames_cons.2 ⟨selfContained_bareName h.1, tames_cons.2 ⟨trivial, tames_raw ?_⟩⟩
    rcases h.2 with h | h <;> rw [h] <;> rfl

theorem tames_aggregate {v a : Str} (h : plainAggregate v a = true) :
    Tame b (.raw v) ∧ Tames b (aggAliasL a) := by
  simp only [plainAggregate, Bool.and_eq_true, Bool.or_eq_true, decide_eq_true_eq] at h
  refine ⟨?_, ?_⟩
  · rcases h.1 with h | h
    · rw [h]; rfl
    · exact selfContained_bareName h
  · rw [aggAliasL]
    split
    · exact tames_nil
    · next hne => exact tames_cons.2 ⟨trivial, tames_bare (h.2.resolve_left hne)⟩

theorem tame_connective {op : Str} (h : op ∈ connectives) : Tame b (.raw op) := by
  simp only [connectives, List.mem_cons, List.not_mem_nil, or_false] at h
  rcases h with rfl | rfl <;> rfl

theorem tame_comparator {op : Str} (h : op ∈ comparators) : Tame b (.raw op) := by
  have : ∀ op ∈ comparators, Tame false (.raw op) ∧ Tame true (.raw op) := by decide
  cases b
  · exact (this op h).1
  · exact (this op h).2

theorem tame_join {op : Str} (h : op ∈ joinTable.map (·.1)) : Tame b (.raw op) := by
  have : ∀ op ∈ joinTable.map (·.1), Tame false (.raw op) ∧ Tame true (.raw op) := by decide
  cases b
  · exact (this op h).1
  · exact (this op h).2

theorem tames_all {α : Type} {f : α → List Piece} {q : α → Bool}
    (hf : ∀ x, q x = true → Tames b (f x)) {l : List α} (h : l.all q = true) :
    Tames b (commaSep (l.map f)) := by
  refine tames_commaSep fun x hx => ?_
  obtain ⟨a, ha, rfl⟩ := List.mem_map.1 hx
  exact hf a (List.all_eq_true.1 h a ha)

/-! ## Expressions -/

structure TameOk (b : Bool) (e : Expr) : Prop where
  expr : ∀ loose, plainExpr loose e = true → Tames b (exprL e)
  select : ∀ s, e = .select s → plainSelect s = true → Tames b (selectL s)
  set : ∀ l, e = .array l → plainSet l = true → Tames b (exprL e)

theorem tameOk {e : Expr} (h : ∀ loose, plainExpr loose e = true → Tames b (exprL e))
    (hs : ∀ s, e ≠ .select s) (hl : ∀ l, e ≠ .array l) : TameOk b e :=
  ⟨h, fun s he => absurd he (hs s), fun l he => absurd he (hl l)⟩

theorem tame_between {l r : List Piece} {op : Str} (h1 : Tames b l) (h2 : Tame b (.raw op))
    (h3 : Tames b r) :
    Tames b (.sql s%"(" :: l ++ .sql s%" " :: .raw op :: .sql s%" " :: r ++ [.sql s%")"]) := by
  simp only [List.cons_append, List.append_assoc, tames_cons, tames_append]
  exact ⟨trivial, h1, trivial, h2, trivial, h3, trivial, tames_nil⟩

theorem tame_parens {t : Str} {l : List Piece} (h : Tames b l) :
    Tames b (.sql t :: l ++ [.sql s%")"]) := by
  simp only [List.cons_append, tames_cons, tames_append]
  exact ⟨trivial, h, trivial, tames_nil⟩

structure TamesOk (b : Bool) (l : List Expr) : Prop where
  all : plainExprs l = true → ∀ x ∈ exprsL l, Tames b x
  select : ∀ s, l = [.select s] → plainSelect s = true → Tames b (selectL s)

theorem tamesOk_set {l : List Expr} (h : TamesOk b l) (hl : plainSet l = true) :
    Tames b (exprL (.array l)) := by
  rw [exprL]
  rcases plainSet_cases hl with ⟨s, rfl, hs⟩ | ⟨hne, hl, hm⟩
  · rw [exprsL, exprsL, commaSep, exprL]
    exact h.select s rfl hs
  · exact tames_commaSep (h.all hl)

theorem present_plain {e : Expr} (hb : (!blank e) = true)
    (h : (blank e || plainExpr true e) = true) : plainExpr true e = true := by
  simp only [Bool.not_eq_true'] at hb
  simpa [hb] using h

mutual

theorem tame_expr (b : Bool) (e : Expr) : TameOk b e := by
  match e with
  | .nil => exact tameOk (fun _ h => nomatch h) nofun nofun
  | .ident i =>
    refine tameOk (fun loose h => ?_) nofun nofun
    rw [exprL]
    exact tames_ident (by simpa [plainExpr] using h)
  | .value v =>
    refine tameOk (fun loose h => ?_) nofun nofun
    rw [exprL]
    exact tames_cons.2 ⟨trivial, tames_nil⟩
  | .arrayList l => exact tameOk (fun _ h => by simp [plainExpr] at h) nofun nofun
  | .array l =>
    refine ⟨by simp [plainExpr], nofun, ?_⟩
    intro l' he hl
    cases he
    exact tamesOk_set (tame_exprs b l) hl
  | .raw s =>
    refine tameOk (fun loose h => ?_) nofun nofun
    rw [plainExpr] at h
    rw [exprL]
    exact tames_bare h
  | .wrapper e =>
    have ih := tame_expr b e
    refine tameOk (fun loose h => ?_) nofun nofun
    rw [exprL]
    refine tame_parens ?_
    rcases plainExpr_wrapper h with ⟨s, rfl, hs⟩ | h
    · rw [exprL]
      exact ih.select s rfl hs
    · exact ih.expr _ h
  | .call f args =>
    have ih := tame_exprs b args
    refine tameOk (fun loose h => ?_) nofun nofun
    simp only [plainExpr, Bool.and_eq_true] at h
    rw [exprL, List.cons_append, tames_cons]
    exact ⟨selfContained_bareName (bareName_word h.1).1, tame_parens (tames_commaSep (ih.all h.2))⟩
  | .infx l op r =>
    have ihl := tame_expr b l
    have ihr := tame_expr b r
    refine tameOk (fun loose h => ?_) nofun nofun
    rw [exprL]
    rw [plainExpr] at h
    split at h
    · next hop =>
      simp only [Bool.and_eq_true] at h
      exact tame_between (ihl.expr _ h.1) (tame_connective hop) (ihr.expr _ h.2)
    · simp only [Bool.and_eq_true, decide_eq_true_eq] at h
      exact tame_between (ihl.expr _ h.1.2) (tame_comparator h.1.1) (ihr.expr _ h.2)
  | .inx e op v =>
    have ihe := tame_expr b e
    have ihv := tame_expr b v
    refine tameOk (fun loose h => ?_) nofun nofun
    obtain ⟨hop, he, l, rfl, hne, hl⟩ := plainExpr_inx h
    rw [exprL, if_neg (by simp [blank, hne])]
    simp only [List.cons_append, List.append_assoc, tames_cons, tames_append]
    refine ⟨trivial, ihe.expr _ he, trivial, ?_, trivial, ihv.set l rfl hl, trivial, tames_nil⟩
    rcases hop with rfl | rfl <;> rfl
  | .between i op lo and hi =>
    have ihl := tame_expr b lo
    have ihh := tame_expr b hi
    refine tameOk (fun loose h => ?_) nofun nofun
    simp only [plainExpr, Bool.and_eq_true, Bool.or_eq_true, decide_eq_true_eq] at h
    obtain ⟨⟨⟨⟨hi1, hop⟩, hlo⟩, hand⟩, hhi⟩ := h
    subst hand
    rw [exprL]
    simp only [List.cons_append, List.append_assoc, tames_cons, tames_append]
    refine ⟨trivial, tames_ident hi1, trivial, ?_, trivial, ihl.expr _ hlo, trivial, rfl, trivial,
      ihh.expr _ hhi, trivial, tames_nil⟩
    rcases hop with rfl | rfl <;> rfl
  | .exist e =>
    have ih := tame_expr b e
    refine tameOk (fun loose h => ?_) nofun nofun
    obtain ⟨s, rfl, hs⟩ := plainExpr_exist h
    rw [exprL, exprL]
    exact tame_parens (ih.select s rfl hs)
  | .notExist e =>
    have ih := tame_expr b e
    refine tameOk (fun loose h => ?_) nofun nofun
    obtain ⟨-, s, rfl, hs⟩ := plainExpr_notExist h
    rw [exprL, exprL]
    exact tame_parens (ih.select s rfl hs)
  | .select s =>
    refine ⟨by simp [plainExpr], ?_, nofun⟩
    intro s' he hs
    cases he
    exact tame_select b s hs
  | .onClause l r =>
    refine tameOk (fun loose h => ?_) nofun nofun
    simp only [plainExpr, Bool.and_eq_true] at h
    rw [exprL, tames_append, tames_cons]
    exact ⟨tames_column h.1.2, trivial, tames_column h.2⟩
  | .infixOn l op r =>
    have ihl := tame_expr b l
    have ihr := tame_expr b r
    refine tameOk (fun loose h => ?_) nofun nofun
    rw [exprL]
    simp only [plainExpr, Bool.and_eq_true, decide_eq_true_eq] at h
    exact tame_between (ihl.expr _ h.1.2) (tame_connective h.1.1) (ihr.expr _ h.2)

theorem tame_exprs (b : Bool) (l : List Expr) : TamesOk b l := by
  match l with
  | [] => exact ⟨fun _ => by simp [exprsL], nofun⟩
  | e :: l =>
    have ih1 := tame_expr b e
    have ih2 := tame_exprs b l
    refine ⟨fun h x hx => ?_, fun s he h => ?_⟩
    · simp only [plainExprs, Bool.and_eq_true] at h
      rw [exprsL] at hx
      rcases List.mem_cons.1 hx with rfl | hx
      · exact ih1.expr _ h.1
      · exact ih2.all h.2 x hx
    · simp only [List.cons.injEq] at he
      exact ih1.select s he.1 h

theorem tame_item (b : Bool) (e : SelExpr) (h : plainItem e = true) : Tames b (selExprL e) := by
  match e with
  | .nil => cases h
  | .column c =>
    simp only [plainItem, Bool.and_eq_true] at h
    rw [selExprL]
    exact tames_aliased h.1 h.2
  | .raw s =>
    rw [plainItem] at h
    rw [selExprL]
    exact tames_bare h
  | .count v distinct a =>
    rw [plainItem] at h
    obtain ⟨h1, h2⟩ := tames_aggregate (b := b) h
    rw [selExprL, List.cons_append, tames_cons, tames_append, tames_cons, tames_cons]
    refine ⟨trivial, ?_, h1, trivial, h2⟩
    split
    · exact tames_cons.2 ⟨trivial, tames_nil⟩
    · exact tames_nil
  | .max v a =>
    rw [plainItem] at h
    obtain ⟨h1, h2⟩ := tames_aggregate (b := b) h
    rw [selExprL, tames_cons, tames_cons, tames_cons]
    exact ⟨trivial, h1, trivial, h2⟩
  | .min v a =>
    rw [plainItem] at h
    obtain ⟨h1, h2⟩ := tames_aggregate (b := b) h
    rw [selExprL, tames_cons, tames_cons, tames_cons]
    exact ⟨trivial, h1, trivial, h2⟩
  | .sum v a =>
    rw [plainItem] at h
    obtain ⟨h1, h2⟩ := tames_aggregate (b := b) h
    rw [selExprL, tames_cons, tames_cons, tames_cons]
    exact ⟨trivial, h1, trivial, h2⟩
  | .exist e =>
    have ih := tame_expr b e
    obtain ⟨s, rfl, hs⟩ := plainItem_exist h
    rw [selExprL, exprL]
    exact tame_parens (ih.select s rfl hs)
  | .notExist e =>
    have ih := tame_expr b e
    obtain ⟨s, rfl, hs⟩ := plainItem_notExist h
    rw [selExprL, exprL]
    exact tame_parens (ih.select s rfl hs)

theorem tame_items (b : Bool) (l : List SelExpr) (h : plainItems l = true) :
    ∀ x ∈ selExprsL l, Tames b x := by
  match l with
  | [] => exact nofun
  | e :: l =>
    simp only [plainItems, Bool.and_eq_true] at h
    have ih1 := tame_item b e h.1
    have ih2 := tame_items b l h.2
    intro x hx
    rw [selExprsL] at hx
    rcases List.mem_cons.1 hx with rfl | hx
    · exact ih1
    · exact ih2 x hx

theorem tame_joins (b : Bool) (l : List Join) (h : plainJoins l = true) :
    ∀ c ∈ joinsL l, ∀ x, c = some x → Tames b x := by
  match l with
  | [] => exact nofun
  | ⟨type, table, cond⟩ :: l =>
    simp only [plainJoins, plainJoin, Bool.and_eq_true, decide_eq_true_eq] at h
    have ih1 := tame_expr b cond
    have ih2 := tame_joins b l h.2
    intro c hc x hx
    rw [joinsL] at hc
    rcases List.mem_cons.1 hc with rfl | hc
    · cases hx
      rw [joinL]
      simp only [List.cons_append, tames_cons, tames_append]
      exact ⟨tame_join h.1.1.1, trivial, tames_table h.1.1.2, trivial, ih1.expr _ h.1.2⟩
    · exact ih2 c hc x hx

theorem tame_withs (b : Bool) (l : List WithQuery) (h : plainWiths l = true) :
    ∀ x ∈ withsL l, Tames b x := by
  match l with
  | [] => exact nofun
  | ⟨name, sub⟩ :: l =>
    simp only [plainWiths, Bool.and_eq_true] at h
    have ih1 := tame_expr b sub
    have ih2 := tame_withs b l h.2
    intro x hx
    rw [withsL] at hx
    rcases List.mem_cons.1 hx with rfl | hx
    · obtain ⟨h1, s, rfl, hs⟩ := plainWith_cases h.1
      rw [withL]
      split
      · exact tames_nil
      · rw [List.cons_append, tames_cons, exprL]
        exact ⟨selfContained_bareName (bareName_word h1).1, tame_parens (ih1.select s rfl hs)⟩
    · exact ih2 x hx

theorem tame_select (b : Bool) (s : SelectStmt) (h : plainSelect s = true) : Tames b (selectL s) := by
  match s with
  | ⟨pfx, withs, distinct, distinctOn, exprs, tables, joins, whr, groupBy, having, orderBy,
      limit, offset, sfx, comment⟩ =>
    have ih1 := tame_withs b withs
    have ih2 := tame_items b exprs
    have ih3 := tame_joins b joins
    have ih4 := tame_expr b whr
    have ih5 := tame_expr b having
    simp only [plainSelect, Bool.and_eq_true, List.isEmpty_iff, decide_eq_true_eq] at h
    obtain ⟨⟨⟨⟨⟨⟨⟨⟨⟨⟨⟨⟨⟨⟨⟨rfl, h2⟩, h3⟩, h4⟩, h5⟩, h6⟩, h7⟩, h8⟩, h9⟩, h10⟩, h11⟩, h12⟩, h13⟩,
      h14⟩, rfl⟩, rfl⟩ := h
    rw [selectL, tames_append]
    refine ⟨tames_spaced fun c hc l hl => ?_, tames_nil⟩
    have one : ∀ t, Tames b [.sql t] := fun t => tames_cons.2 ⟨trivial, tames_nil⟩
    have kw : ∀ {t : Str} {l : List Piece}, Tames b l → Tames b (.sql t :: l) :=
      fun h => tames_cons.2 ⟨trivial, h⟩
    simp only [List.mem_append, List.mem_cons, List.not_mem_nil, or_false] at hc
    rcases hc with ((rfl | rfl | rfl | rfl | rfl | rfl | rfl) | hc) |
      (rfl | rfl | rfl | rfl | rfl | rfl | rfl)
    · cases hl
    · exact tames_clause (fun _ => kw (tames_commaSep (ih1 h2))) hl
    · cases hl; exact one _
    · exact tames_clause (fun _ => tame_parens (tames_all (fun _ => tames_column) h4)) hl
    · exact tames_clause (fun _ => one _) hl
    · cases hl; exact tames_commaSep (ih2 h6)
    · exact tames_clause (fun _ => kw (tames_all (fun _ => tames_from) h7)) hl
    · exact ih3 h8 c hc l hl
    · exact tames_clause (fun hb => kw (ih4.expr true (present_plain hb h9))) hl
    · exact tames_clause (fun _ => kw (tames_all (fun _ => tames_column) h10)) hl
    · exact tames_clause (fun hb => kw (ih5.expr true (present_plain hb h11))) hl
    · exact tames_clause (fun _ => kw (tames_all (fun _ => tames_order) h12)) hl
    · exact tames_clause (fun _ => one _) hl
    · exact tames_clause (fun _ => one _) hl
    · cases hl

end

/-! ## Statements -/

theorem tames_sql (t : Str) : Tames b [.sql t] := tames_cons.2 ⟨trivial, tames_nil⟩

theorem tames_kw {t : Str} {l : List Piece} (h : Tames b l) : Tames b (.sql t :: l) :=
  tames_cons.2 ⟨trivial, h⟩

theorem tames_where {e : Expr} (h : (blank e || plainExpr true e) = true) {l : List Piece}
    (hl : clause (!blank e) (.sql s%"WHERE " :: exprL e) = some l) : Tames b l :=
  tames_clause (fun hb => tames_kw ((tame_expr b e).expr true (present_plain hb h))) hl

theorem tames_returning {es : List SelExpr} (h : plainItems es = true) : Tames b (returningL es) :=
  tames_kw (tames_commaSep (tame_items b es h))

theorem tames_set {p : PairContainer} (h : plainPairs p = true) : Tames b (setL p) := by
  unfold plainPairs at h
  unfold setL
  refine tames_kw ?_
  cases hm : p.mode with
  | unknown => exact tames_nil
  | associative =>
    simp only [hm, Bool.and_eq_true] at h
    refine tames_all (fun ce hce => ?_) h.2
    simp only [Bool.and_eq_true] at hce
    exact tames_append.2 ⟨tames_column hce.1, tames_kw ((tame_expr b ce.2).expr true hce.2)⟩
  | array =>
    simp only [hm, Bool.and_eq_true] at h
    have h1 := tames_all (b := b) (fun _ => tames_column) h.1.2
    have h2 := tamesOk_set (tame_exprs b p.expressions) h.2
    rw [exprL] at h2
    simp only [List.cons_append, List.append_assoc, tames_cons, tames_append]
    exact ⟨trivial, h1, trivial, h2, trivial, tames_nil⟩

theorem tames_rows {l : List Expr} (h : l.all plainRow = true) : ∀ x ∈ rowsL l, Tames b x := by
  induction l with
  | nil => simp [rowsL]
  | cons e l ih =>
    simp only [List.all_cons, Bool.and_eq_true] at h
    intro x hx
    rw [rowsL] at hx
    rcases List.mem_cons.1 hx with rfl | hx
    · refine tame_parens ?_
      cases e
      case array l' =>
        simp only [plainRow, Bool.and_eq_true] at h
        rw [exprL]
        exact tames_commaSep ((tame_exprs b l').all h.1.2)
      all_goals simp [plainRow] at h
    · exact ih h.2 x hx

theorem tame_layout {s : Stmt} (h : plainStmt (uncommented s) = true) :
    ∀ p ∈ layout (uncommented s), Tame b p := by
  show Tames b (layout (uncommented s))
  match s with
  | .select ⟨pfx, withs, distinct, distinctOn, exprs, tables, joins, whr, groupBy, having, orderBy,
      limit, offset, sfx, comment⟩ =>
    exact tame_select b _ h
  | .insert i =>
    simp only [uncommented, plainStmt, Bool.and_eq_true] at h
    obtain ⟨⟨⟨⟨⟨h1, h2⟩, h3⟩, h4⟩, h5⟩, h6⟩ := h
    simp only [uncommented, layout, insertL, tames_append]
    refine ⟨tames_spaced fun c hc l hl => ?_, tames_nil⟩
    simp only [List.mem_cons, List.not_mem_nil, or_false] at hc
    rcases hc with rfl | rfl | rfl | rfl | rfl
    · cases hl; exact tames_kw (tames_table h1)
    · exact tames_clause (fun _ => tame_parens (tames_all (fun _ => tames_column) h2)) hl
    · refine tames_clause (fun hb => tames_kw ?_) hl
      unfold plainValues at h3
      split at h3
      · next l' he =>
        rw [he, exprL]
        exact tames_commaSep (tames_rows h3)
      · simp [h3] at hb
    · refine tames_clause (fun hb => ?_) hl
      rw [conflictL, List.cons_append]
      refine tames_kw (tames_append.2 ⟨?_, ?_⟩)
      · split
        · exact tames_nil
        · have h1 := tames_all (b := b) (fun _ => tames_column) h4
          simp only [List.cons_append, tames_cons, tames_append]
          exact ⟨trivial, h1, trivial, tames_nil⟩
      · cases ha : i.action with
        | nil => exact tames_nil
        | nothing => exact tames_sql _
        | update set =>
          rw [ha] at hb h5
          simp only [actionBlank, Bool.not_eq_true'] at hb
          simp only [plainAction, hb, Bool.false_or] at h5
          exact tames_kw (tames_set h5)
    · exact tames_clause (fun _ => tames_returning h6) hl
  | .update u =>
    simp only [uncommented, plainStmt, Bool.and_eq_true] at h
    obtain ⟨⟨⟨⟨⟨⟨h1, h2⟩, h3⟩, h4⟩, h5⟩, h6⟩, h7⟩ := h
    simp only [uncommented, layout, updateL, tames_append]
    refine ⟨tames_spaced fun c hc l hl => ?_, tames_nil⟩
    simp only [List.mem_cons, List.not_mem_nil, or_false] at hc
    rcases hc with rfl | rfl | rfl | rfl | rfl | rfl | rfl | rfl
    · exact tames_clause (fun _ => tames_kw (tames_commaSep (tame_withs b _ h1))) hl
    · cases hl; exact tames_sql _
    · exact tames_clause (fun _ => tames_sql _) hl
    · cases hl; exact tames_table h2
    · cases hl; exact tames_set h4
    · exact tames_clause (fun _ => tames_kw (tames_all (fun _ => tames_from) h5)) hl
    · exact tames_where h6 hl
    · exact tames_clause (fun _ => tames_returning h7) hl
  | .delete d =>
    simp only [uncommented, plainStmt, Bool.and_eq_true] at h
    obtain ⟨⟨⟨⟨h1, h2⟩, h3⟩, h4⟩, h5⟩ := h
    simp only [uncommented, layout, deleteL, tames_append]
    refine ⟨tames_spaced fun c hc l hl => ?_, tames_nil⟩
    simp only [List.mem_cons, List.not_mem_nil, or_false] at hc
    rcases hc with rfl | rfl | rfl | rfl | rfl
    · cases hl; exact tames_sql _
    · cases hl; exact tames_kw (tames_all (fun _ => tames_from) h2)
    · exact tames_clause (fun _ => tames_kw (tames_all (fun _ => tames_table) h3)) hl
    · exact tames_where h4 hl
    · exact tames_clause (fun _ => tames_returning h5) hl

end

end Verif
