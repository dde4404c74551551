import Verif.Lemmas.SqlParts

/-!
# Reading the clauses of statements
-/

set_option linter.unusedSectionVars false
set_option linter.unusedSimpArgs false

namespace Verif
open Spec

/-! ## Optional parts -/

theorem heads_append {S : List SqlTok} {c r : List Lexeme} (hc : Heads S c) (hr : Heads S r) :
    Heads S (c ++ r) := by
  rcases hc with rfl | ⟨t, l, rfl, ht⟩
  · exact hr
  · exact heads_cons ht _

theorem eats_self (words : List SqlTok) (r : List Lexeme) :
    eats words (words.map .tok ++ r) = some r := by
  induction words with
  | nil => rfl
  | cons t words ih => simp [eats, ih]

/-- The lexemes of a part that may be absent. -/
def optional (present : Bool) (words : List SqlTok) (body : List Lexeme) : List Lexeme :=
  if present then words.map .tok ++ body else []

theorem heads_optional {S : List SqlTok} (present : Bool) (t : SqlTok) (words : List SqlTok)
    (body : List Lexeme) (ht : t ∈ S) {r : List Lexeme} (hr : Heads S r) :
    Heads S (optional present (t :: words) body ++ r) := by
  cases present with
  | false => exact hr
  | true => exact heads_cons ht _

theorem ifNextList_optional {α : Type} {present : Bool} {words : List SqlTok}
    {body rest : List Lexeme} {p : Reader (List α)} {xs : List α}
    (hp : present = true → p (body ++ rest) = some (xs, rest))
    (ha : present = false → xs = []) (hr : eats words rest = none) :
    ifNextList words p (optional present words body ++ rest) = some (xs, rest) := by
  cases present with
  | false => simp [optional, ifNextList, hr, ha rfl]
  | true => simp [optional, ifNextList, List.append_assoc, eats_self, hp rfl]

theorem ifNext_optional {α : Type} {present : Bool} {words : List SqlTok}
    {body rest : List Lexeme} {p : Reader α} {x : α}
    (hp : present = true → p (body ++ rest) = some (x, rest)) (hr : eats words rest = none) :
    ifNext words p (optional present words body ++ rest)
      = some (if present then some x else none, rest) := by
  cases present with
  | false => simp [optional, ifNext, hr]
  | true => simp [optional, ifNext, List.append_assoc, eats_self, hp rfl]

/-! ## Tables, orders and numbers -/

/-- What can follow a table. -/
def stopTable : List SqlTok :=
  [.sym '(', .sym ')', .sym ',', .sym ';', .word s%"ON", .word s%"SET", .word s%"VALUES",
   .word s%"USING", .word s%"FROM", .word s%"INNER", .word s%"LEFT", .word s%"RIGHT",
   .word s%"WHERE", .word s%"GROUP", .word s%"HAVING", .word s%"ORDER", .word s%"LIMIT",
   .word s%"OFFSET", .word s%"RETURNING"]

theorem stopRef_of_table {r : List Lexeme} (h : Heads stopTable r) : Heads stopRef r :=
  h.mono (by decide)

/-- The lexemes of an alias. -/
def aliasLexemes (a : Str) : List Lexeme :=
  optional (!a.isEmpty) [.word s%"AS"] (quotedLexemes a)

theorem reads_alias (a : Str) {S : List SqlTok} (hs : ∀ t ∈ S, t ∈ stopRef)
    (has : SqlTok.word s%"AS" ∉ S) : Reads readAlias 0 S (aliasLexemes a) (aliasRef a) := by
  intro n rest hn hr
  rw [readAlias, aliasLexemes, ifNext_optional (x := quotedRef a) ?_ (eats_heads hr _ has)]
  · cases a <;> simp [aliasRef]
  · intro ha
    refine reads_quoted a n rest ?_ (hr.mono hs)
    simp only [aliasLexemes, optional, ha, if_true, List.map_cons, List.map_nil, List.cons_append,
      List.nil_append, List.length_cons] at hn
    omega

theorem heads_alias (a : Str) {S : List SqlTok} (hs : SqlTok.word s%"AS" ∈ S) {r : List Lexeme}
    (hr : Heads S r) : Heads S (aliasLexemes a ++ r) := heads_optional _ _ _ _ hs hr

/-- The lexemes of a table. -/
def tableLexemes (t : Table) : List Lexeme :=
  optional t.only [.word s%"ONLY"] [] ++ (quotedLexemes t.name ++ aliasLexemes t.alias)

theorem reads_table (t : Table) : Reads readTable 0 stopTable (tableLexemes t) (meanTable t) := by
  intro n rest hn hr
  simp only [tableLexemes, List.length_append] at hn
  have h1 := reads_quoted t.name n (aliasLexemes t.alias ++ rest) (by omega)
    (heads_alias t.alias (by decide) (stopRef_of_table hr))
  have h2 := reads_alias t.alias (S := stopTable) (by decide) (by decide) n rest (by omega) hr
  obtain ⟨p, r, h0⟩ := opens_quoted t.name
  cases ho : t.only with
  | true =>
    simp only [tableLexemes, optional, ho, if_true, List.map_cons, List.map_nil, List.cons_append,
      List.nil_append, List.append_assoc, readTable, eat_self, h1, h2, meanTable]
  | false =>
    have h3 : eat (.word s%"ONLY") (quotedLexemes t.name ++ (aliasLexemes t.alias ++ rest)) = none := by
      rw [h0]
      exact eat_ne (by simp) _
    simp only [tableLexemes, optional, ho, Bool.false_eq_true, if_false,
      List.nil_append, List.append_assoc, readTable, h3, h1, h2, meanTable]

/-- The lexemes of an entry of FROM. -/
def fromLexemes : FromItem → List Lexeme
  | .nil => []
  | .table t => tableLexemes t
  | .raw s => bareLexemes s

theorem reads_from {f : FromItem} (h : plainFrom f = true) :
    Reads readTable 0 stopTable (fromLexemes f) (meanFrom f) := by
  cases f with
  | nil => cases h
  | table t => exact reads_table t
  | raw s =>
    intro n rest hn hr
    simp only [fromLexemes] at hn
    obtain ⟨w, r, h0, hw, -⟩ := opens_bare (n := s) h
    have h1 := reads_bare (n := s) h n rest hn (stopRef_of_table hr)
    have h3 : eat (.word s%"ONLY") (bareLexemes s ++ rest) = none := by
      rw [h0]
      exact eat_ne (fun e => bareWord_ne hw (r := s%"ONLY") rfl (by injection e)) _
    simp only [fromLexemes, readTable, h3, h1, readAlias, ifNext,
      eats_heads hr _ (t := .word s%"AS") (by decide), meanFrom]

/-- The lexemes of an entry of ORDER BY. -/
def orderLexemes (o : Order) : List Lexeme := bareLexemes o.expression ++ [.tok (.word o.type)]

theorem reads_order {o : Order} (h : plainOrder o = true) :
    Reads readOrder 0 (stopRef) (orderLexemes o) (meanOrder o) := by
  intro n rest hn hr
  simp only [plainOrder, Bool.and_eq_true, Bool.or_eq_true, decide_eq_true_eq] at h
  simp only [orderLexemes, List.length_append] at hn
  rw [orderLexemes, List.append_assoc, readOrder, reads_bare h.1 n _ (by omega)]
  · rcases h.2 with h2 | h2
    · simp [h2, meanOrder]
    · have : eat (.word s%"ASC") (.tok (.word s%"DESC") :: rest) = none := eat_ne (by decide) _
      simp [h2, meanOrder, this]
  · rcases h.2 with h2 | h2 <;> rw [h2] <;> exact heads_cons (by decide) _

theorem readNumber_ok (n : Nat) (rest : List Lexeme) :
    readNumber (.tok (.word (formatNat n)) :: rest) = some (n, rest) := by
  simp [readNumber, readNat_formatNat]

/-! ## Entries of column lists -/

/-- What can follow an entry of a column list. -/
def stopItem : List SqlTok :=
  [.sym ')', .sym ',', .sym ';', .word s%"FROM", .word s%"INNER", .word s%"LEFT",
   .word s%"RIGHT", .word s%"WHERE", .word s%"GROUP", .word s%"HAVING", .word s%"ORDER",
   .word s%"LIMIT", .word s%"OFFSET", .word s%"RETURNING"]

theorem reads_item {ls al : List Lexeme} {x : Sql} {a : Option Ref}
    (h : Reads readNot 3 stopCond ls x) (ha : Reads readAlias 0 stopItem al a)
    (hh : Heads [.word s%"AS"] al) : Reads readItem 6 stopItem (ls ++ al) (.mk x a) := by
  intro n rest hn hr
  simp only [List.length_append] at hn
  obtain ⟨n, rfl⟩ : ∃ k, n = k + 1 := ⟨n - 1, by omega⟩
  rw [readItem, List.append_assoc, reads_expr h n (al ++ rest) (by omega)]
  · simp only [ha n rest (by omega) hr]
  · exact heads_append (hh.mono (by decide)) (hr.mono (by decide))

theorem reads_itemPlain {ls : List Lexeme} {x : Sql} (h : Reads readNot 3 stopCond ls x) :
    Reads readItem 6 stopItem ls (.mk x none) := by
  have := reads_item h (al := []) (a := none) (fun n rest _ hr => by
    rw [readAlias, ifNext, List.nil_append, eats_heads hr _ (by decide)]) (.inl rfl)
  simpa using this

/-! ## Conditions -/

/-- What can follow a list between parentheses. -/
def stopParen : List SqlTok := [.sym ')']

theorem reads_in {op : Str} (hop : op = s%"IN" ∨ op = s%"NOT IN") {l s : List Lexeme} {x y : Sql}
    (ho : Opens l) (hl : Reads readOperandOf 1 stopOperand l x)
    (hs : Reads readSet 9 stopParen s y) {w : List Lexeme}
    (hw : w = if op = s%"IN" then [.tok (.word s%"IN")]
      else [.tok (.word s%"NOT"), .tok (.word s%"IN")]) :
    Reads readNot 3 stopCond (l ++ (w ++ .tok (.sym '(') :: (s ++ [.tok (.sym ')')])))
      (.isIn (op = s%"NOT IN") x y) := by
  intro n rest hn hr
  obtain ⟨n, rfl⟩ : ∃ k, n = k + 2 := ⟨n - 2, by omega⟩
  have hw1 : 1 ≤ w.length := by rw [hw]; split <;> simp
  simp only [List.length_append, List.length_cons, List.length_nil] at hn
  obtain ⟨n, rfl⟩ : ∃ k, n = k + 1 := ⟨n - 1, by omega⟩
  rw [readNot, (ho.append _ |>.append _).eat (by decide)]
  simp only [List.append_assoc, List.cons_append, List.nil_append]
  have h1 := fun r hr => hl (n + 1) (w ++ r) (by omega) hr
  have h2 := parens_ok (hs n (.tok (.sym ')') :: rest) (by omega) (heads_cons (by decide) _))
  rcases hop with rfl | rfl
  · subst hw
    rw [readPredicate, h1 _ (heads_cons (by decide) _)]
    simp [eats, readInTail, h2]
  · subst hw
    rw [readPredicate, h1 _ (heads_cons (by decide) _)]
    simp [eats, readInTail, h2, eat_ne]

theorem reads_between {op : Str} (hop : op = s%"BETWEEN" ∨ op = s%"NOT BETWEEN")
    {l a c : List Lexeme} {x lo hi : Sql} (ho : Opens l)
    (hl : Reads readOperandOf 1 stopOperand l x)
    (ha : Reads readOperandOf 1 stopOperand a lo) (hc : Reads readOperandOf 1 stopOperand c hi)
    {w : List Lexeme}
    (hw : w = if op = s%"BETWEEN" then [.tok (.word s%"BETWEEN")]
      else [.tok (.word s%"NOT"), .tok (.word s%"BETWEEN")]) :
    Reads readNot 3 stopCond (l ++ (w ++ (a ++ .tok (.word s%"AND") :: c)))
      (.between (op = s%"NOT BETWEEN") x lo hi) := by
  intro n rest hn hr
  obtain ⟨n, rfl⟩ : ∃ k, n = k + 2 := ⟨n - 2, by omega⟩
  have hw1 : 1 ≤ w.length := by rw [hw]; split <;> simp
  simp only [List.length_append, List.length_cons, List.length_nil] at hn
  obtain ⟨n, rfl⟩ : ∃ k, n = k + 1 := ⟨n - 1, by omega⟩
  rw [readNot, (ho.append _ |>.append _).eat (by decide)]
  simp only [List.append_assoc, List.cons_append, List.nil_append]
  have h1 := fun r hr => hl (n + 1) (w ++ r) (by omega) hr
  have h2 := ha n (.tok (.word s%"AND") :: (c ++ rest)) (by omega) (heads_cons (by decide) _)
  have h3 := hc n rest (by omega) (stopOperand_of_cond hr)
  rcases hop with rfl | rfl
  · subst hw
    rw [readPredicate, h1 _ (heads_cons (by decide) _)]
    simp [eats, readBetweenTail, h2, h3, eat_ne]
  · subst hw
    rw [readPredicate, h1 _ (heads_cons (by decide) _)]
    simp [eats, readBetweenTail, h2, h3, eat_ne]

/-- A list of expressions. -/
theorem reads_exprList {lss : List (List Lexeme)} {xs : List Sql}
    (h : ReadsAll readExpr 5 stopExpr lss xs) (hne : lss ≠ []) :
    Reads (fun n => commaList (readExpr n) n) 6 stopParen
      (separated (.tok (.sym ',')) lss) xs :=
  reads_commaList h hne (by decide) (by decide) (by decide)

theorem opens_separated {sep : Lexeme} {lss : List (List Lexeme)} (hne : lss ≠ [])
    (h : ∀ ls ∈ lss, OpensCond ls) : OpensCond (separated sep lss) := by
  cases lss with
  | nil => exact absurd rfl hne
  | cons a l =>
    cases l with
    | nil => exact h a List.mem_cons_self
    | cons b l => exact (h a List.mem_cons_self).append _

theorem reads_setList {lss : List (List Lexeme)} {xs : List Sql}
    (h : ReadsAll readExpr 5 stopExpr lss xs) (hne : lss ≠ []) (ho : ∀ ls ∈ lss, OpensCond ls) :
    Reads readSet 9 stopParen (separated (.tok (.sym ',')) lss) (.list xs) := by
  intro n rest hn hr
  obtain ⟨n, rfl⟩ : ∃ k, n = k + 1 := ⟨n - 1, by omega⟩
  have hq := ((opens_separated (sep := .tok (.sym ',')) hne ho).append rest).queryNext
  have := reads_exprList h hne n rest (by omega) hr
  simp only at this
  rw [readSet, hq]
  simp [this]

theorem reads_setQuery {ls : List Lexeme} {q : SqlSelect} (ho : ∀ r, queryNext (ls ++ r) = true)
    (h : Reads readSelect 8 stopSelect ls q) : Reads readSet 9 stopParen ls (.query q) := by
  intro n rest hn hr
  obtain ⟨n, rfl⟩ : ∃ k, n = k + 1 := ⟨n - 1, by omega⟩
  rw [readSet, ho, h n rest (by omega) (hr.mono (by decide))]
  rfl

/-! ## Calls -/

/-- The arguments of a call of `f` are read up to the closing parenthesis. -/
def ReadsArgs (f : Str) (ls : List Lexeme) (x : Sql) : Prop :=
  ∀ n rest, 8 * ls.length + 7 ≤ n →
    readArgs n f (ls ++ .tok (.sym ')') :: rest) = some (x, .tok (.sym ')') :: rest)

theorem operand_call {f : Str} (hf : bareWord f = true) {ls : List Lexeme} {x : Sql}
    (h : ReadsArgs f ls x) :
    Opens (.tok (.word f) :: .tok (.sym '(') :: (ls ++ [.tok (.sym ')')])) ∧
    Reads readOperandOf 1 stopOperand
      (.tok (.word f) :: .tok (.sym '(') :: (ls ++ [.tok (.sym ')')])) x := by
  refine ⟨⟨_, _, rfl, by simp [opener, bareWord_name hf]⟩, fun n rest hn hr => ?_⟩
  simp only [List.length_append, List.length_cons, List.length_nil] at hn
  obtain ⟨n, rfl⟩ : ∃ k, n = k + 1 := ⟨n - 1, by omega⟩
  simp only [List.cons_append, List.append_assoc, List.nil_append]
  rw [readOperandOf]
  simp only [if_neg (bareWord_ne hf (r := s%"NULL") rfl),
    if_neg (bareWord_ne hf (r := s%"EXISTS") rfl), eat_self, Option.isSome_some, if_true,
    bareWord_name hf]
  exact parens_ok (h n rest (by omega))

theorem reads_args {f : Str} {lss : List (List Lexeme)} {xs : List Sql}
    (h : ReadsAll readExpr 5 stopExpr lss xs) (ho : ∀ ls ∈ lss, OpensCond ls) :
    ReadsArgs f (separated (.tok (.sym ',')) lss) (.call f false xs) := by
  intro n rest' hn
  have hr : Heads stopParen (.tok (.sym ')') :: rest') := heads_cons (by decide) _
  generalize hrest : Lexeme.tok (.sym ')') :: rest' = rest at hr
  obtain ⟨n, rfl⟩ : ∃ k, n = k + 1 := ⟨n - 1, by omega⟩
  by_cases hne : lss = []
  · subst hne
    cases h
    simp only [separated, List.nil_append, readArgs]
    subst hrest
    simp
  · have hq := (opens_separated (sep := .tok (.sym ',')) hne ho).append rest
    have := reads_exprList h hne n rest (by omega) hr
    simp only at this
    simp only [readArgs, hq.eat (t := .sym ')') (by decide) (by decide),
      hq.eat (t := .sym '*') (by decide) (by decide),
      hq.eat (t := .word s%"DISTINCT") (by decide) (by decide), this]
    rfl

/-- The argument of an aggregate. -/
def aggLexemes (v : Str) : List Lexeme :=
  if v = s%"*" then [.tok (.sym '*')] else bareLexemes v

theorem reads_aggArgs {f v : Str} (distinct : Bool) (hv : v = s%"*" ∨ bareName v = true) :
    ReadsArgs f (optional distinct [.word s%"DISTINCT"] [] ++ aggLexemes v)
      (.call f distinct [if v = s%"*" then .star else .ref (bareRef v)]) := by
  intro n rest' hn
  have hr : Heads stopParen (.tok (.sym ')') :: rest') := heads_cons (by decide) _
  generalize Lexeme.tok (.sym ')') :: rest' = rest at hr
  obtain ⟨n, rfl⟩ : ∃ k, n = k + 1 := ⟨n - 1, by omega⟩
  simp only [List.length_append] at hn
  by_cases hs : v = s%"*"
  · subst hs
    cases distinct <;> simp [aggLexemes, optional, readArgs, eat_ne]
  · have hv := hv.resolve_left hs
    obtain ⟨h1, h2⟩ := operand_bare hv
    have h3 := reads_exprList (.cons (reads_expr (reads_cond h1 h2)) .nil) (by simp) n rest
      (by simp only [aggLexemes, if_neg hs] at hn; simp only [separated]; omega) hr
    simp only [separated] at h3
    have ho := h1.append rest
    cases distinct
    · simp only [aggLexemes, if_neg hs, optional, Bool.false_eq_true, if_false, List.nil_append,
        readArgs, ho.eat (t := .sym ')') (by decide),
        ho.eat (t := .sym '*') (by decide),
        ho.eat (t := .word s%"DISTINCT") (by decide), h3]
      rfl
    · have e : ∀ {t : SqlTok} (l : List Lexeme), t ≠ .word s%"DISTINCT" →
        eat t (.tok (.word s%"DISTINCT") :: l) = none := fun l h => eat_ne (Ne.symm h) l
      simp only [aggLexemes, if_neg hs, optional, if_true, List.map_cons, List.map_nil,
        List.cons_append, List.nil_append, readArgs, eat_self,
        e (t := .sym ')') _ (by decide), e (t := .sym '*') _ (by decide),
        ho.eat (t := .sym '*') (by decide), h3]
      rfl

end Verif
