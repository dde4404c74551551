import Verif.Lemmas.SqlTame
import Verif.Spec.Readback
import Verif.Model.Runtime

/-!
# The tokens of plain statements, apart from their values

No piece of a plain statement other than a value has a string literal, a placeholder, a boolean, a
sign or a number among its tokens, except for the numbers of LIMIT and OFFSET.
-/

set_option linter.unusedSectionVars false
set_option linter.unusedSimpArgs false

namespace Verif
open Spec

/-- A word that is not a boolean or a number, and not before a number. -/
def cleanWord (w : Str) : Bool :=
  decide (w ≠ s%"LIMIT") && decide (w ≠ s%"OFFSET") && decide (w.map Char.toUpper ≠ s%"TRUE") &&
    decide (w.map Char.toUpper ≠ s%"FALSE") && (readNat w).isNone

/-- A token that is not part of a value. -/
def cleanTok : SqlTok → Bool
  | .word w => cleanWord w
  | .name _ => true
  | .literal _ => false
  | .param _ => false
  | .sym c => decide (c ≠ ':') && decide (c ≠ '-')

/-- The tokens do not begin with a point. -/
def noPoint (ts : List SqlTok) : Bool := decide (ts.head? ≠ some (.sym '.'))

/-- Such tokens only, the first of which is not a point. -/
def cleanToks (ts : List SqlTok) : Bool := ts.all cleanTok && noPoint ts

/-- A text with such tokens only. -/
def cleanText (t : Str) : Bool :=
  cleanToks ((tokens true t).getD []) && cleanToks ((tokens false t).getD [])

/-- A number after LIMIT or OFFSET. -/
def Counted (t : Str) : Prop := ∃ n : Nat, t = s%"LIMIT " ++ formatNat n ∨ t = s%"OFFSET " ++ formatNat n

/-- A piece with such tokens only. -/
def Clean (b : Bool) : Piece → Prop
  | .sql t => cleanToks ((tokens b t).getD []) = true ∨ Counted t
  | .name _ => True
  | .raw t => cleanToks ((tokens b t).getD []) = true
  | .note _ => False
  | .val _ => True

theorem all_of_cleanText {b : Bool} {t : Str} (h : cleanText t = true) :
    cleanToks ((tokens b t).getD []) = true := by
  simp only [cleanText, Bool.and_eq_true] at h
  cases b
  · exact h.2
  · exact h.1

theorem clean_sql {b : Bool} {t : Str} (h : cleanText t = true) : Clean b (.sql t) :=
  .inl (all_of_cleanText h)

theorem clean_raw {b : Bool} {t : Str} (h : cleanText t = true) : Clean b (.raw t) :=
  all_of_cleanText h

theorem clean_limit {b : Bool} {n : Int} (h : 0 ≤ n) : Clean b (.sql (s%"LIMIT " ++ formatInt n)) := by
  obtain ⟨m, rfl⟩ := Int.eq_ofNat_of_zero_le h
  exact .inr ⟨m, .inl rfl⟩

theorem clean_offset {b : Bool} {n : Int} (h : 0 ≤ n) : Clean b (.sql (s%"OFFSET " ++ formatInt n)) := by
  obtain ⟨m, rfl⟩ := Int.eq_ofNat_of_zero_le h
  exact .inr ⟨m, .inr rfl⟩

theorem clean_bareWord {w : Str} (h : bareWord w = true) : cleanWord w = true := by
  simp only [bareWord, isNameWord, Bool.and_eq_true] at h
  obtain ⟨⟨⟨h1, h2⟩, h3⟩, -⟩ := h
  have hr : ∀ x ∈ reservedWords, w.map Char.toUpper ≠ x := by
    intro x hx e
    rw [e] at h3
    simp [hx] at h3
  have hn : readNat w = none := by
    cases w with
    | nil => rfl
    | cons c w =>
      have hc : Spec.isDigit c = false := by simpa using h2
      have : digitValue c = none := by
        rw [digitValue, if_neg]
        simpa [Spec.isDigit] using hc
      simp [readNat, digitsValue, this]
  simp only [cleanWord, Bool.and_eq_true, decide_eq_true_eq, hn, Option.isNone_none, and_true]
  refine ⟨⟨⟨?_, ?_⟩, hr _ (by decide)⟩, hr _ (by decide)⟩
  · rintro rfl
    exact hr s%"LIMIT" (by decide) (by decide)
  · rintro rfl
    exact hr s%"OFFSET" (by decide) (by decide)

theorem clean_bareLexemes {n : Str} (h : bareName n = true) {o : List SqlTok}
    (e : o.map Lexeme.tok = bareLexemes n) : cleanToks o = true := by
  have key : ∀ (l : List Str), (∀ w ∈ l, bareWord w = true) → ∀ o : List SqlTok,
      o.map Lexeme.tok = separated (.tok (.sym '.')) (l.map fun p => [.tok (.word p)]) →
      o.all cleanTok = true ∧ noPoint o = true := by
    intro l
    induction l with
    | nil =>
      intro _ o e
      simp [separated] at e
      simp [e, noPoint]
    | cons p l ih =>
      intro hl o e
      have hp := clean_bareWord (hl p List.mem_cons_self)
      cases l with
      | nil =>
        match o, e with
        | [], e => simp [separated] at e
        | [t], e =>
          simp [separated] at e
          simp [e, cleanTok, noPoint, hp]
        | _ :: _ :: _, e => simp [separated] at e
      | cons q l =>
        match o, e with
        | [], e => simp [separated] at e
        | [t], e => simp [separated] at e
        | t :: u :: o, e =>
          simp only [List.map_cons, separated, List.cons_append, List.nil_append, List.cons.injEq,
            Lexeme.tok.injEq] at e
          obtain ⟨rfl, rfl, e⟩ := e
          have := ih (fun w hw => hl w (List.mem_cons_of_mem _ hw)) o e
          simp [cleanTok, noPoint, hp, this.1]
  have := key _ (by simpa [bareName] using h) o e
  simp [cleanToks, this]

theorem clean_bareName {b : Bool} {n : Str} (h : bareName n = true) : Clean b (.raw n) := by
  letI : GoRuntime := Runtime.sample
  obtain ⟨o, h1, h2, -⟩ := lexes_bareName (b := b) h
  show cleanToks ((tokens b n).getD []) = true
  rw [h1.getD]
  exact clean_bareLexemes h h2

section
variable [GoRuntime] {b : Bool}

/-! ## Lists of pieces -/

/-- All pieces are tame. -/
def Cleans (b : Bool) (l : List Piece) : Prop := ∀ p ∈ l, Clean b p

@[simp] theorem cleans_nil : Cleans b [] := nofun

@[simp] theorem cleans_cons {p : Piece} {l : List Piece} : Cleans b (p :: l) ↔ Clean b p ∧ Cleans b l := by
  simp [Cleans]

@[simp] theorem cleans_append {l m : List Piece} : Cleans b (l ++ m) ↔ Cleans b l ∧ Cleans b m := by
  simp [Cleans, or_imp, forall_and]

theorem cleans_sql {t : Str} (ht : cleanText t = true := by decide) : Cleans b [.sql t] :=
  cleans_cons.2 ⟨clean_sql ht, cleans_nil⟩

theorem cleans_kw {t : Str} {l : List Piece} (h : Cleans b l) (ht : cleanText t = true := by decide) :
    Cleans b (.sql t :: l) :=
  cleans_cons.2 ⟨clean_sql ht, h⟩

theorem cleans_commaSep {ls : List (List Piece)} (h : ∀ l ∈ ls, Cleans b l) : Cleans b (commaSep ls) := by
  induction ls with
  | nil => exact cleans_nil
  | cons a ls ih =>
    cases ls with
    | nil => exact h a List.mem_cons_self
    | cons a' ls =>
      rw [commaSep, cleans_append, cleans_cons]
      exact ⟨h a List.mem_cons_self, clean_sql (by decide), ih fun l hl => h l (List.mem_cons_of_mem _ hl)⟩

theorem cleans_spaced {cs : List (Option (List Piece))} (h : ∀ c ∈ cs, ∀ l, c = some l → Cleans b l) :
    Cleans b (spaced cs) := by
  induction cs with
  | nil => exact cleans_nil
  | cons c cs ih =>
    have h' := fun c hc => h c (List.mem_cons_of_mem _ hc)
    cases c with
    | none => exact ih h'
    | some a =>
      rw [spaced, cleans_append]
      refine ⟨h _ List.mem_cons_self a rfl, ?_⟩
      intro p hp
      obtain ⟨c, hc, hp⟩ := List.mem_flatMap.1 hp
      cases c with
      | none => cases hp
      | some l =>
        rcases List.mem_cons.1 hp with rfl | hp
        · exact clean_sql (by decide)
        · exact h' _ hc l rfl p hp

theorem cleans_clause {p : Bool} {c l : List Piece} (h : p = true → Cleans b c)
    (e : clause p c = some l) : Cleans b l := by
  cases p with
  | false => cases e
  | true => cases e; exact h rfl

theorem cleans_aliased {n a : Str} (_ : plainName n = true) (_ : plainAlias a = true) :
    Cleans b (aliased n a) := by
  rw [aliased, cleans_cons]
  refine ⟨trivial, ?_⟩
  split
  · exact cleans_nil
  · next hne =>
    exact cleans_cons.2 ⟨clean_sql (by decide), cleans_cons.2 ⟨trivial, cleans_nil⟩⟩

theorem cleans_column {c : Column} (h : plainColumn c = true) : Cleans b (columnL c) := by
  simp only [plainColumn, Bool.and_eq_true] at h
  exact cleans_aliased h.1 (by simp [plainAlias, h.2])

theorem cleans_table {t : Table} (h : plainTable t = true) : Cleans b (tableL t) := by
  simp only [plainTable, Bool.and_eq_true] at h
  rw [tableL, cleans_append]
  refine ⟨?_, cleans_aliased h.1 h.2⟩
  split
  · exact cleans_cons.2 ⟨clean_sql (by decide), cleans_nil⟩
  · exact cleans_nil

theorem cleans_raw {t : Str} (h : Clean b (.raw t)) : Cleans b [.raw t] :=
  cleans_cons.2 ⟨h, cleans_nil⟩

theorem cleans_bare {t : Str} (h : bareName t = true) : Cleans b [.raw t] :=
  cleans_raw (clean_bareName h)

theorem cleans_from {f : FromItem} (h : plainFrom f = true) : Cleans b (fromItemL f) := by
  cases f with
  | nil => cases h
  | table t => exact cleans_table h
  | raw s => exact cleans_bare h

theorem cleans_ident {i : Ident} (h : plainIdent i = true) : Cleans b (identL i) := by
  cases i with
  | str s => exact cleans_cons.2 ⟨trivial, cleans_nil⟩
  | raw s => exact cleans_bare h
  | other => cases h

theorem cleans_order {o : Order} (h : plainOrder o = true) : Cleans b (orderL o) := by
  simp only [plainOrder, Bool.and_eq_true, Bool.or_eq_true, decide_eq_true_eq] at h
  rw [orderL]
  split
  · exact cleans_nil
  · refine cleans_cons.2 ⟨clean_bareName h.1, cleans_cons.2 ⟨clean_sql (by decide), cleans_raw ?_⟩⟩
    rcases h.2 with h | h <;> rw [h] <;> exact clean_raw (by decide)

theorem cleans_aggregate {v a : Str} (h : plainAggregate v a = true) :
    Clean b (.raw v) ∧ Cleans b (aggAliasL a) := by
  simp only [plainAggregate, Bool.and_eq_true, Bool.or_eq_true, decide_eq_true_eq] at h
  refine ⟨?_, ?_⟩
  · rcases h.1 with h | h
    · rw [h]; exact clean_raw (by decide)
    · exact clean_bareName h
  · rw [aggAliasL]
    split
    · exact cleans_nil
    · next hne => exact cleans_cons.2 ⟨clean_sql (by decide), cleans_bare (h.2.resolve_left hne)⟩

theorem clean_connective {op : Str} (h : op ∈ connectives) : Clean b (.raw op) := by
  simp only [connectives, List.mem_cons, List.not_mem_nil, or_false] at h
  rcases h with rfl | rfl <;> exact clean_raw (by decide)

theorem clean_comparator {op : Str} (h : op ∈ comparators) : Clean b (.raw op) := by
  have : ∀ op ∈ comparators, cleanText op = true := by decide +kernel
  exact clean_raw (this op h)

theorem clean_join {op : Str} (h : op ∈ joinTable.map (·.1)) : Clean b (.raw op) := by
  have : ∀ op ∈ joinTable.map (·.1), cleanText op = true := by decide +kernel
  exact clean_raw (this op h)

theorem cleans_all {α : Type} {f : α → List Piece} {q : α → Bool}
    (hf : ∀ x, q x = true → Cleans b (f x)) {l : List α} (h : l.all q = true) :
    Cleans b (commaSep (l.map f)) := by
  refine cleans_commaSep fun x hx => ?_
  obtain ⟨a, ha, rfl⟩ := List.mem_map.1 hx
  exact hf a (List.all_eq_true.1 h a ha)

/-! ## Expressions -/

structure CleanOk (b : Bool) (e : Expr) : Prop where
  expr : ∀ loose, plainExpr loose e = true → Cleans b (exprL e)
  select : ∀ s, e = .select s → plainSelect s = true → Cleans b (selectL s)
  set : ∀ l, e = .array l → plainSet l = true → Cleans b (exprL e)

theorem cleanOk {e : Expr} (h : ∀ loose, plainExpr loose e = true → Cleans b (exprL e))
    (hs : ∀ s, e ≠ .select s) (hl : ∀ l, e ≠ .array l) : CleanOk b e :=
  ⟨h, fun s he => absurd he (hs s), fun l he => absurd he (hl l)⟩

theorem clean_between {l r : List Piece} {op : Str} (h1 : Cleans b l) (h2 : Clean b (.raw op))
    (h3 : Cleans b r) :
    Cleans b (.sql s%"(" :: l ++ .sql s%" " :: .raw op :: .sql s%" " :: r ++ [.sql s%")"]) := by
  simp only [List.cons_append, List.append_assoc, cleans_cons, cleans_append]
  exact ⟨clean_sql (by decide), h1, clean_sql (by decide), h2, clean_sql (by decide), h3, clean_sql (by decide), cleans_nil⟩

theorem clean_parens {t : Str} {l : List Piece} (h : Cleans b l) (ht : cleanText t = true := by decide) :
    Cleans b (.sql t :: l ++ [.sql s%")"]) := by
  simp only [List.cons_append, cleans_cons, cleans_append]
  exact ⟨clean_sql ht, h, clean_sql (by decide), cleans_nil⟩

structure CleansOk (b : Bool) (l : List Expr) : Prop where
  all : plainExprs l = true → ∀ x ∈ exprsL l, Cleans b x
  select : ∀ s, l = [.select s] → plainSelect s = true → Cleans b (selectL s)

theorem cleansOk_set {l : List Expr} (h : CleansOk b l) (hl : plainSet l = true) :
    Cleans b (exprL (.array l)) := by
  rw [exprL]
  rcases plainSet_cases hl with ⟨s, rfl, hs⟩ | ⟨hne, hl, hm⟩
  · rw [exprsL, exprsL, commaSep, exprL]
    exact h.select s rfl hs
  · exact cleans_commaSep (h.all hl)

mutual

theorem clean_expr (b : Bool) (e : Expr) : CleanOk b e := by
  match e with
  | .nil => exact cleanOk (fun _ h => nomatch h) nofun nofun
  | .ident i =>
    refine cleanOk (fun loose h => ?_) nofun nofun
    rw [exprL]
    exact cleans_ident (by simpa [plainExpr] using h)
  | .value v =>
    refine cleanOk (fun loose h => ?_) nofun nofun
    rw [exprL]
    exact cleans_cons.2 ⟨trivial, cleans_nil⟩
  | .arrayList l => exact cleanOk (fun _ h => by simp [plainExpr] at h) nofun nofun
  | .array l =>
    refine ⟨by simp [plainExpr], nofun, ?_⟩
    intro l' he hl
    cases he
    exact cleansOk_set (clean_exprs b l) hl
  | .raw s =>
    refine cleanOk (fun loose h => ?_) nofun nofun
    rw [plainExpr] at h
    rw [exprL]
    exact cleans_bare h
  | .wrapper e =>
    have ih := clean_expr b e
    refine cleanOk (fun loose h => ?_) nofun nofun
    rw [exprL]
    refine clean_parens ?_
    rcases plainExpr_wrapper h with ⟨s, rfl, hs⟩ | h
    · rw [exprL]
      exact ih.select s rfl hs
    · exact ih.expr _ h
  | .call f args =>
    have ih := clean_exprs b args
    refine cleanOk (fun loose h => ?_) nofun nofun
    simp only [plainExpr, Bool.and_eq_true] at h
    rw [exprL, List.cons_append, cleans_cons]
    exact ⟨clean_bareName (bareName_word h.1).1, clean_parens (cleans_commaSep (ih.all h.2))⟩
  | .infx l op r =>
    have ihl := clean_expr b l
    have ihr := clean_expr b r
    refine cleanOk (fun loose h => ?_) nofun nofun
    rw [exprL]
    rw [plainExpr] at h
    split at h
    · next hop =>
      simp only [Bool.and_eq_true] at h
      exact clean_between (ihl.expr _ h.1) (clean_connective hop) (ihr.expr _ h.2)
    · simp only [Bool.and_eq_true, decide_eq_true_eq] at h
      exact clean_between (ihl.expr _ h.1.2) (clean_comparator h.1.1) (ihr.expr _ h.2)
  | .inx e op v =>
    have ihe := clean_expr b e
    have ihv := clean_expr b v
    refine cleanOk (fun loose h => ?_) nofun nofun
    obtain ⟨hop, he, l, rfl, hne, hl⟩ := plainExpr_inx h
    rw [exprL, if_neg (by simp [blank, hne])]
    simp only [List.cons_append, List.append_assoc, cleans_cons, cleans_append]
    refine ⟨clean_sql (by decide), ihe.expr _ he, clean_sql (by decide), ?_, clean_sql (by decide), ihv.set l rfl hl, clean_sql (by decide), cleans_nil⟩
    rcases hop with rfl | rfl <;> exact clean_raw (by decide)
  | .between i op lo and hi =>
    have ihl := clean_expr b lo
    have ihh := clean_expr b hi
    refine cleanOk (fun loose h => ?_) nofun nofun
    simp only [plainExpr, Bool.and_eq_true, Bool.or_eq_true, decide_eq_true_eq] at h
    obtain ⟨⟨⟨⟨hi1, hop⟩, hlo⟩, hand⟩, hhi⟩ := h
    subst hand
    rw [exprL]
    simp only [List.cons_append, List.append_assoc, cleans_cons, cleans_append]
    refine ⟨clean_sql (by decide), cleans_ident hi1, clean_sql (by decide), ?_, clean_sql (by decide), ihl.expr _ hlo, clean_sql (by decide), clean_raw (by decide), clean_sql (by decide),
      ihh.expr _ hhi, clean_sql (by decide), cleans_nil⟩
    rcases hop with rfl | rfl <;> exact clean_raw (by decide)
  | .exist e =>
    have ih := clean_expr b e
    refine cleanOk (fun loose h => ?_) nofun nofun
    obtain ⟨s, rfl, hs⟩ := plainExpr_exist h
    rw [exprL, exprL]
    exact clean_parens (ih.select s rfl hs)
  | .notExist e =>
    have ih := clean_expr b e
    refine cleanOk (fun loose h => ?_) nofun nofun
    obtain ⟨-, s, rfl, hs⟩ := plainExpr_notExist h
    rw [exprL, exprL]
    exact clean_parens (ih.select s rfl hs)
  | .select s =>
    refine ⟨by simp [plainExpr], ?_, nofun⟩
    intro s' he hs
    cases he
    exact clean_select b s hs
  | .onClause l r =>
    refine cleanOk (fun loose h => ?_) nofun nofun
    simp only [plainExpr, Bool.and_eq_true] at h
    rw [exprL, cleans_append, cleans_cons]
    exact ⟨cleans_column h.1.2, clean_sql (by decide), cleans_column h.2⟩
  | .infixOn l op r =>
    have ihl := clean_expr b l
    have ihr := clean_expr b r
    refine cleanOk (fun loose h => ?_) nofun nofun
    rw [exprL]
    simp only [plainExpr, Bool.and_eq_true, decide_eq_true_eq] at h
    exact clean_between (ihl.expr _ h.1.2) (clean_connective h.1.1) (ihr.expr _ h.2)

theorem clean_exprs (b : Bool) (l : List Expr) : CleansOk b l := by
  match l with
  | [] => exact ⟨fun _ => by simp [exprsL], nofun⟩
  | e :: l =>
    have ih1 := clean_expr b e
    have ih2 := clean_exprs b l
    refine ⟨fun h x hx => ?_, fun s he h => ?_⟩
    · simp only [plainExprs, Bool.and_eq_true] at h
      rw [exprsL] at hx
      rcases List.mem_cons.1 hx with rfl | hx
      · exact ih1.expr _ h.1
      · exact ih2.all h.2 x hx
    · simp only [List.cons.injEq] at he
      exact ih1.select s he.1 h

theorem clean_item (b : Bool) (e : SelExpr) (h : plainItem e = true) : Cleans b (selExprL e) := by
  match e with
  | .nil => cases h
  | .column c =>
    simp only [plainItem, Bool.and_eq_true] at h
    rw [selExprL]
    exact cleans_aliased h.1 h.2
  | .raw s =>
    rw [plainItem] at h
    rw [selExprL]
    exact cleans_bare h
  | .count v distinct a =>
    rw [plainItem] at h
    obtain ⟨h1, h2⟩ := cleans_aggregate (b := b) h
    rw [selExprL, List.cons_append, cleans_cons, cleans_append, cleans_cons, cleans_cons]
    refine ⟨clean_sql (by decide), ?_, h1, clean_sql (by decide), h2⟩
    split
    · exact cleans_cons.2 ⟨clean_sql (by decide), cleans_nil⟩
    · exact cleans_nil
  | .max v a =>
    rw [plainItem] at h
    obtain ⟨h1, h2⟩ := cleans_aggregate (b := b) h
    rw [selExprL, cleans_cons, cleans_cons, cleans_cons]
    exact ⟨clean_sql (by decide), h1, clean_sql (by decide), h2⟩
  | .min v a =>
    rw [plainItem] at h
    obtain ⟨h1, h2⟩ := cleans_aggregate (b := b) h
    rw [selExprL, cleans_cons, cleans_cons, cleans_cons]
    exact ⟨clean_sql (by decide), h1, clean_sql (by decide), h2⟩
  | .sum v a =>
    rw [plainItem] at h
    obtain ⟨h1, h2⟩ := cleans_aggregate (b := b) h
    rw [selExprL, cleans_cons, cleans_cons, cleans_cons]
    exact ⟨clean_sql (by decide), h1, clean_sql (by decide), h2⟩
  | .exist e =>
    have ih := clean_expr b e
    obtain ⟨s, rfl, hs⟩ := plainItem_exist h
    rw [selExprL, exprL]
    exact clean_parens (ih.select s rfl hs)
  | .notExist e =>
    have ih := clean_expr b e
    obtain ⟨s, rfl, hs⟩ := plainItem_notExist h
    rw [selExprL, exprL]
    exact clean_parens (ih.select s rfl hs)

theorem clean_items (b : Bool) (l : List SelExpr) (h : plainItems l = true) :
    ∀ x ∈ selExprsL l, Cleans b x := by
  match l with
  | [] => exact nofun
  | e :: l =>
    simp only [plainItems, Bool.and_eq_true] at h
    have ih1 := clean_item b e h.1
    have ih2 := clean_items b l h.2
    intro x hx
    rw [selExprsL] at hx
    rcases List.mem_cons.1 hx with rfl | hx
    · exact ih1
    · exact ih2 x hx

theorem clean_joins (b : Bool) (l : List Join) (h : plainJoins l = true) :
    ∀ c ∈ joinsL l, ∀ x, c = some x → Cleans b x := by
  match l with
  | [] => exact nofun
  | ⟨type, table, cond⟩ :: l =>
    simp only [plainJoins, plainJoin, Bool.and_eq_true, decide_eq_true_eq] at h
    have ih1 := clean_expr b cond
    have ih2 := clean_joins b l h.2
    intro c hc x hx
    rw [joinsL] at hc
    rcases List.mem_cons.1 hc with rfl | hc
    · cases hx
      rw [joinL]
      simp only [List.cons_append, cleans_cons, cleans_append]
      exact ⟨clean_join h.1.1.1, clean_sql (by decide), cleans_table h.1.1.2, clean_sql (by decide), ih1.expr _ h.1.2⟩
    · exact ih2 c hc x hx

theorem clean_withs (b : Bool) (l : List WithQuery) (h : plainWiths l = true) :
    ∀ x ∈ withsL l, Cleans b x := by
  match l with
  | [] => exact nofun
  | ⟨name, sub⟩ :: l =>
    simp only [plainWiths, Bool.and_eq_true] at h
    have ih1 := clean_expr b sub
    have ih2 := clean_withs b l h.2
    intro x hx
    rw [withsL] at hx
    rcases List.mem_cons.1 hx with rfl | hx
    · obtain ⟨h1, s, rfl, hs⟩ := plainWith_cases h.1
      rw [withL]
      split
      · exact cleans_nil
      · rw [List.cons_append, cleans_cons, exprL]
        exact ⟨clean_bareName (bareName_word h1).1, clean_parens (ih1.select s rfl hs)⟩
    · exact ih2 x hx

theorem clean_select (b : Bool) (s : SelectStmt) (h : plainSelect s = true) : Cleans b (selectL s) := by
  match s with
  | ⟨pfx, withs, distinct, distinctOn, exprs, tables, joins, whr, groupBy, having, orderBy,
      limit, offset, sfx, comment⟩ =>
    have ih1 := clean_withs b withs
    have ih2 := clean_items b exprs
    have ih3 := clean_joins b joins
    have ih4 := clean_expr b whr
    have ih5 := clean_expr b having
    simp only [plainSelect, Bool.and_eq_true, List.isEmpty_iff, decide_eq_true_eq] at h
    obtain ⟨⟨⟨⟨⟨⟨⟨⟨⟨⟨⟨⟨⟨⟨⟨rfl, h2⟩, h3⟩, h4⟩, h5⟩, h6⟩, h7⟩, h8⟩, h9⟩, h10⟩, h11⟩, h12⟩, h13⟩,
      h14⟩, rfl⟩, rfl⟩ := h
    rw [selectL, cleans_append]
    refine ⟨cleans_spaced fun c hc l hl => ?_, cleans_nil⟩
    simp only [List.mem_append, List.mem_cons, List.not_mem_nil, or_false] at hc
    rcases hc with ((rfl | rfl | rfl | rfl | rfl | rfl | rfl) | hc) |
      (rfl | rfl | rfl | rfl | rfl | rfl | rfl)
    · cases hl
    · exact cleans_clause (fun _ => cleans_kw (cleans_commaSep (ih1 h2))) hl
    · cases hl; exact cleans_sql
    · exact cleans_clause (fun _ => clean_parens (cleans_all (fun _ => cleans_column) h4)) hl
    · exact cleans_clause (fun _ => cleans_sql) hl
    · cases hl; exact cleans_commaSep (ih2 h6)
    · exact cleans_clause (fun _ => cleans_kw (cleans_all (fun _ => cleans_from) h7)) hl
    · exact ih3 h8 c hc l hl
    · exact cleans_clause (fun hb => cleans_kw (ih4.expr true (present_plain hb h9))) hl
    · exact cleans_clause (fun _ => cleans_kw (cleans_all (fun _ => cleans_column) h10)) hl
    · exact cleans_clause (fun hb => cleans_kw (ih5.expr true (present_plain hb h11))) hl
    · exact cleans_clause (fun _ => cleans_kw (cleans_all (fun _ => cleans_order) h12)) hl
    · exact cleans_clause (fun _ => cleans_cons.2 ⟨clean_limit (by simpa using h13), cleans_nil⟩) hl
    · exact cleans_clause (fun _ => cleans_cons.2 ⟨clean_offset (by simpa using h14), cleans_nil⟩) hl
    · cases hl

end

/-! ## Statements -/

theorem cleans_where {e : Expr} (h : (blank e || plainExpr true e) = true) {l : List Piece}
    (hl : clause (!blank e) (.sql s%"WHERE " :: exprL e) = some l) : Cleans b l :=
  cleans_clause (fun hb => cleans_kw ((clean_expr b e).expr true (present_plain hb h))) hl

theorem cleans_returning {es : List SelExpr} (h : plainItems es = true) : Cleans b (returningL es) :=
  cleans_kw (cleans_commaSep (clean_items b es h))

theorem cleans_set {p : PairContainer} (h : plainPairs p = true) : Cleans b (setL p) := by
  unfold plainPairs at h
  unfold setL
  refine cleans_kw ?_
  cases hm : p.mode with
  | unknown => exact cleans_nil
  | associative =>
    simp only [hm, Bool.and_eq_true] at h
    refine cleans_all (fun ce hce => ?_) h.2
    simp only [Bool.and_eq_true] at hce
    exact cleans_append.2 ⟨cleans_column hce.1, cleans_kw ((clean_expr b ce.2).expr true hce.2)⟩
  | array =>
    simp only [hm, Bool.and_eq_true] at h
    have h1 := cleans_all (b := b) (fun _ => cleans_column) h.1.2
    have h2 := cleansOk_set (clean_exprs b p.expressions) h.2
    rw [exprL] at h2
    simp only [List.cons_append, List.append_assoc, cleans_cons, cleans_append]
    exact ⟨clean_sql (by decide), h1, clean_sql (by decide), h2, clean_sql (by decide), cleans_nil⟩

theorem cleans_rows {l : List Expr} (h : l.all plainRow = true) : ∀ x ∈ rowsL l, Cleans b x := by
  induction l with
  | nil => simp [rowsL]
  | cons e l ih =>
    simp only [List.all_cons, Bool.and_eq_true] at h
    intro x hx
    rw [rowsL] at hx
    rcases List.mem_cons.1 hx with rfl | hx
    · refine clean_parens ?_
      cases e
      case array l' =>
        simp only [plainRow, Bool.and_eq_true] at h
        rw [exprL]
        exact cleans_commaSep ((clean_exprs b l').all h.1.2)
      all_goals simp [plainRow] at h
    · exact ih h.2 x hx

theorem clean_layout {s : Stmt} (h : plainStmt (uncommented s) = true) :
    ∀ p ∈ layout (uncommented s), Clean b p := by
  show Cleans b (layout (uncommented s))
  match s with
  | .select ⟨pfx, withs, distinct, distinctOn, exprs, tables, joins, whr, groupBy, having, orderBy,
      limit, offset, sfx, comment⟩ =>
    exact clean_select b _ h
  | .insert i =>
    simp only [uncommented, plainStmt, Bool.and_eq_true] at h
    obtain ⟨⟨⟨⟨⟨h1, h2⟩, h3⟩, h4⟩, h5⟩, h6⟩ := h
    simp only [uncommented, layout, insertL, cleans_append]
    refine ⟨cleans_spaced fun c hc l hl => ?_, cleans_nil⟩
    simp only [List.mem_cons, List.not_mem_nil, or_false] at hc
    rcases hc with rfl | rfl | rfl | rfl | rfl
    · cases hl; exact cleans_kw (cleans_table h1)
    · exact cleans_clause (fun _ => clean_parens (cleans_all (fun _ => cleans_column) h2)) hl
    · refine cleans_clause (fun hb => cleans_kw ?_) hl
      unfold plainValues at h3
      split at h3
      · next l' he =>
        rw [he, exprL]
        exact cleans_commaSep (cleans_rows h3)
      · simp [h3] at hb
    · refine cleans_clause (fun hb => ?_) hl
      rw [conflictL, List.cons_append]
      refine cleans_kw (cleans_append.2 ⟨?_, ?_⟩)
      · split
        · exact cleans_nil
        · have h1 := cleans_all (b := b) (fun _ => cleans_column) h4
          simp only [List.cons_append, cleans_cons, cleans_append]
          exact ⟨clean_sql (by decide), h1, clean_sql (by decide), cleans_nil⟩
      · cases ha : i.action with
        | nil => exact cleans_nil
        | nothing => exact cleans_sql
        | update set =>
          rw [ha] at hb h5
          simp only [actionBlank, Bool.not_eq_true'] at hb
          simp only [plainAction, hb, Bool.false_or] at h5
          exact cleans_kw (cleans_set h5)
    · exact cleans_clause (fun _ => cleans_returning h6) hl
  | .update u =>
    simp only [uncommented, plainStmt, Bool.and_eq_true] at h
    obtain ⟨⟨⟨⟨⟨⟨h1, h2⟩, h3⟩, h4⟩, h5⟩, h6⟩, h7⟩ := h
    simp only [uncommented, layout, updateL, cleans_append]
    refine ⟨cleans_spaced fun c hc l hl => ?_, cleans_nil⟩
    simp only [List.mem_cons, List.not_mem_nil, or_false] at hc
    rcases hc with rfl | rfl | rfl | rfl | rfl | rfl | rfl | rfl
    · exact cleans_clause (fun _ => cleans_kw (cleans_commaSep (clean_withs b _ h1))) hl
    · cases hl; exact cleans_sql
    · exact cleans_clause (fun _ => cleans_sql) hl
    · cases hl; exact cleans_table h2
    · cases hl; exact cleans_set h4
    · exact cleans_clause (fun _ => cleans_kw (cleans_all (fun _ => cleans_from) h5)) hl
    · exact cleans_where h6 hl
    · exact cleans_clause (fun _ => cleans_returning h7) hl
  | .delete d =>
    simp only [uncommented, plainStmt, Bool.and_eq_true] at h
    obtain ⟨⟨⟨⟨h1, h2⟩, h3⟩, h4⟩, h5⟩ := h
    simp only [uncommented, layout, deleteL, cleans_append]
    refine ⟨cleans_spaced fun c hc l hl => ?_, cleans_nil⟩
    simp only [List.mem_cons, List.not_mem_nil, or_false] at hc
    rcases hc with rfl | rfl | rfl | rfl | rfl
    · cases hl; exact cleans_sql
    · cases hl; exact cleans_kw (cleans_all (fun _ => cleans_from) h2)
    · exact cleans_clause (fun _ => cleans_kw (cleans_all (fun _ => cleans_table) h3)) hl
    · exact cleans_where h4 hl
    · exact cleans_clause (fun _ => cleans_returning h5) hl

end

end Verif
