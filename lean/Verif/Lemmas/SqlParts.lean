import Verif.Lemmas.Lexemes

/-!
# Reading the parts of statements
-/

set_option linter.unusedSectionVars false
set_option linter.unusedSimpArgs false

namespace Verif
open Spec

/-! ## What follows -/

/-- Nothing follows, or one of these tokens. -/
def Heads (S : List SqlTok) (r : List Lexeme) : Prop := r = [] ∨ ∃ t l, r = .tok t :: l ∧ t ∈ S

theorem heads_cons {S : List SqlTok} {t : SqlTok} (h : t ∈ S) (l : List Lexeme) :
    Heads S (.tok t :: l) := .inr ⟨t, l, rfl, h⟩

theorem Heads.mono {S T : List SqlTok} {r : List Lexeme} (h : Heads S r) (hs : ∀ t ∈ S, t ∈ T) :
    Heads T r := by
  rcases h with h | ⟨t, l, h, ht⟩
  · exact .inl h
  · exact .inr ⟨t, l, h, hs t ht⟩

@[simp] theorem eat_self (t : SqlTok) (l : List Lexeme) : eat t (.tok t :: l) = some l := by
  simp [eat]

theorem eat_ne {t u : SqlTok} (h : u ≠ t) (l : List Lexeme) : eat t (.tok u :: l) = none := by
  simp [eat, h]

theorem eat_heads {S : List SqlTok} {r : List Lexeme} (h : Heads S r) {t : SqlTok} (ht : t ∉ S) :
    eat t r = none := by
  rcases h with rfl | ⟨u, l, rfl, hu⟩
  · rfl
  · exact eat_ne (fun (e : u = t) => ht (e ▸ hu)) l

theorem eats_heads {S : List SqlTok} {r : List Lexeme} (h : Heads S r) {t : SqlTok}
    (ts : List SqlTok) (ht : t ∉ S) : eats (t :: ts) r = none := by
  rw [eats, eat_heads h ht]

theorem readOperator_heads {S : List SqlTok} {r : List Lexeme} (h : Heads S r)
    {table : List (Str × List SqlTok)}
    (ht : ∀ e ∈ table, ∀ t ∈ S, e.2.head? ≠ some t ∧ e.2 ≠ []) :
    readOperator table r = none ∨ S = [] := by
  rcases h with rfl | ⟨u, l, rfl, hu⟩
  · by_cases hS : S = []
    · exact .inr hS
    · obtain ⟨u, S', rfl⟩ := List.exists_cons_of_ne_nil hS
      refine .inl ?_
      induction table with
      | nil => rfl
      | cons e table ih =>
        obtain ⟨op, ts⟩ := e
        have h1 := (ht (op, ts) List.mem_cons_self u List.mem_cons_self).2
        cases ts with
        | nil => exact absurd rfl h1
        | cons t ts =>
          rw [readOperator, eats]
          exact ih fun e he => ht e (List.mem_cons_of_mem _ he)
  · refine .inl ?_
    induction table with
    | nil => rfl
    | cons e table ih =>
      obtain ⟨op, ts⟩ := e
      have h1 := ht (op, ts) List.mem_cons_self u hu
      cases ts with
      | nil => exact absurd rfl h1.2
      | cons t ts =>
        rw [readOperator, eats, eat_ne (fun e => h1.1 (by simp [e]))]
        exact ih fun e he => ht e (List.mem_cons_of_mem _ he)

/-- What can follow an expression. -/
def stopExpr : List SqlTok :=
  [.sym ')', .sym ',', .sym ';', .word s%"AS", .word s%"FROM", .word s%"INNER", .word s%"LEFT",
   .word s%"RIGHT", .word s%"WHERE", .word s%"GROUP", .word s%"HAVING", .word s%"ORDER",
   .word s%"LIMIT", .word s%"OFFSET", .word s%"RETURNING"]

/-- What can follow a condition among others. -/
def stopCond : List SqlTok := .word s%"AND" :: .word s%"OR" :: stopExpr

/-- What can follow an operand. -/
def stopOperand : List SqlTok :=
  [.word s%"IN", .word s%"NOT", .word s%"BETWEEN", .word s%"IS", .word s%"ILIKE", .word s%"LIKE",
   .sym '!', .sym '>', .sym '<', .sym '@', .sym '&', .sym '='] ++ stopCond

/-- What can follow a name. -/
def stopRef : List SqlTok :=
  [.sym '(', .word s%"ASC", .word s%"DESC", .word s%"ON", .word s%"SET", .word s%"VALUES",
   .word s%"USING"] ++ stopOperand

/-- What can follow a query. -/
def stopSelect : List SqlTok := [.sym ')', .sym ';']

theorem stopCond_of_expr {r : List Lexeme} (h : Heads stopExpr r) : Heads stopCond r :=
  h.mono fun _ ht => List.mem_cons_of_mem _ (List.mem_cons_of_mem _ ht)

theorem stopOperand_of_cond {r : List Lexeme} (h : Heads stopCond r) : Heads stopOperand r :=
  h.mono fun _ ht => List.mem_append_right _ ht

theorem stopRef_of_operand {r : List Lexeme} (h : Heads stopOperand r) : Heads stopRef r :=
  h.mono fun _ ht => List.mem_append_right _ ht

/-! ## Readers that succeed -/

/-- The reader, given enough fuel, reads this and leaves the rest. -/
def Reads {α : Type} (p : Nat → Reader α) (c : Nat) (S : List SqlTok) (ls : List Lexeme) (x : α) :
    Prop :=
  ∀ n rest, 8 * ls.length + c ≤ n → Heads S rest → p n (ls ++ rest) = some (x, rest)

/-- Each of them is read. -/
inductive ReadsAll {α : Type} (p : Nat → Reader α) (c : Nat) (S : List SqlTok) :
    List (List Lexeme) → List α → Prop where
  | nil : ReadsAll p c S [] []
  | cons {ls : List Lexeme} {x : α} {lss : List (List Lexeme)} {xs : List α} :
      Reads p c S ls x → ReadsAll p c S lss xs → ReadsAll p c S (ls :: lss) (x :: xs)

theorem Reads.mono {α : Type} {p : Nat → Reader α} {c d : Nat} {S T : List SqlTok}
    {ls : List Lexeme} {x : α} (h : Reads p c S ls x) (hc : c ≤ d) (hs : ∀ t ∈ T, t ∈ S) :
    Reads p d T ls x :=
  fun n rest hn hr => h n rest (by omega) (hr.mono hs)

theorem ReadsAll.mono {α : Type} {p : Nat → Reader α} {c d : Nat} {S T : List SqlTok}
    {lss : List (List Lexeme)} {xs : List α} (h : ReadsAll p c S lss xs) (hc : c ≤ d)
    (hs : ∀ t ∈ T, t ∈ S) : ReadsAll p d T lss xs := by
  induction h with
  | nil => exact .nil
  | cons h _ ih => exact .cons (h.mono hc hs) ih

theorem readsAll_map {α β : Type} {p : Nat → Reader α} {c : Nat} {S : List SqlTok}
    {f : β → List Lexeme} {g : β → α} {l : List β} (h : ∀ x ∈ l, Reads p c S (f x) (g x)) :
    ReadsAll p c S (l.map f) (l.map g) := by
  induction l with
  | nil => exact .nil
  | cons x l ih =>
    exact .cons (h x List.mem_cons_self) (ih fun y hy => h y (List.mem_cons_of_mem _ hy))

theorem separated_cons_length (sep : Lexeme) (a : List Lexeme) (l : List (List Lexeme)) :
    a.length + l.length ≤ (separated sep (a :: l)).length := by
  induction l generalizing a with
  | nil => simp [separated]
  | cons b l ih =>
    have := ih b
    simp only [separated, List.length_append, List.length_cons] at this ⊢
    omega

/-- One or more with separators between them. -/
theorem reads_separated {α : Type} {p : Nat → Reader α} {c : Nat} {S T : List SqlTok}
    {sep : SqlTok} {lss : List (List Lexeme)} {xs : List α} (h : ReadsAll p c S lss xs)
    (hne : lss ≠ []) (hs : sep ∈ S) (ht : sep ∉ T) (hts : ∀ t ∈ T, t ∈ S) :
    ∀ (n m : Nat) (rest : List Lexeme), 8 * (separated (.tok sep) lss).length + c ≤ n →
      lss.length ≤ m → Heads T rest →
      sepList sep (p n) m (separated (.tok sep) lss ++ rest) = some (xs, rest) := by
  intro n m rest hn hm hr
  induction h generalizing m with
  | nil => exact absurd rfl hne
  | @cons ls x lss xs h1 h2 ih =>
    cases m with
    | zero => simp at hm
    | succ m =>
      cases h2 with
      | nil =>
        simp only [separated] at hn ⊢
        rw [sepList, h1 n rest hn (hr.mono hts)]
        simp only [eat_heads hr ht]
      | @cons ls' x' lss xs h2 h3 =>
        rw [separated, List.append_assoc, List.cons_append, sepList, h1]
        · simp only [eat_self]
          rw [ih (by simp)]
          · simp only [separated, List.length_append, List.length_cons] at hn ⊢
            omega
          · simpa using hm
        · simp only [separated, List.length_append, List.length_cons] at hn ⊢
          omega
        · exact heads_cons hs _

/-- A list with commas between its elements. -/
theorem reads_commaList {α : Type} {p : Nat → Reader α} {c : Nat} {S T : List SqlTok}
    {lss : List (List Lexeme)} {xs : List α} (h : ReadsAll p c S lss xs) (hne : lss ≠ [])
    (hs : SqlTok.sym ',' ∈ S) (ht : SqlTok.sym ',' ∉ T) (hts : ∀ t ∈ T, t ∈ S) :
    Reads (fun n => commaList (p n) n) (c + 1) T (separated (.tok (.sym ',')) lss) xs := by
  intro n rest hn hr
  refine reads_separated h hne hs ht hts n n rest (by omega) ?_ hr
  obtain ⟨a, l, rfl⟩ := List.exists_cons_of_ne_nil hne
  have := separated_cons_length (.tok (.sym ',')) a l
  simp only [List.length_cons] at this ⊢
  omega

theorem parens_ok {α : Type} {p : Reader α} {ls rest : List Lexeme} {x : α}
    (h : p (ls ++ .tok (.sym ')') :: rest) = some (x, .tok (.sym ')') :: rest)) :
    parens p (.tok (.sym '(') :: (ls ++ .tok (.sym ')') :: rest)) = some (x, rest) := by
  simp [parens, h]

/-! ## Names -/

theorem reads_quoted (n : Str) : Reads readRef 0 stopRef (quotedLexemes n) (quotedRef n) := by
  have key : ∀ (l : List Str), ReadsAll (fun _ => readQuotedPart) 0 (.sym '.' :: stopRef)
      (l.map fun p => [.tok (.name p)]) l := by
    intro l
    induction l with
    | nil => exact .nil
    | cons p l ih => exact .cons (fun _ _ _ _ => rfl) ih
  intro m rest hm hr
  obtain ⟨p, l, hl⟩ := List.exists_cons_of_ne_nil (splitOn_ne_nil '.' n)
  have h := reads_separated (T := stopRef) (key (splitOn '.' n)) (by simp [hl]) List.mem_cons_self
    (by decide) (fun t ht => List.mem_cons_of_mem _ ht) m m rest hm (by
      simp only [quotedLexemes, hl, List.map_cons] at hm ⊢
      have := separated_cons_length (.tok (.sym '.')) [Lexeme.tok (.name p)]
        (l.map fun p => [.tok (.name p)])
      simp only [List.length_cons, List.length_map, List.length_nil] at this ⊢
      omega) hr
  have h0 : ∃ r, quotedLexemes n = .tok (.name p) :: r := by
    simp only [quotedLexemes, hl, List.map_cons]
    cases l <;> exact ⟨_, rfl⟩
  obtain ⟨r, h0⟩ := h0
  have h' : sepList (.sym '.') readQuotedPart m (quotedLexemes n ++ rest)
    = some (splitOn '.' n, rest) := h
  rw [h0, List.cons_append] at h' ⊢
  simp only [readRef, h', quotedRef]

theorem bareWord_name {w : Str} (h : bareWord w = true) : isNameWord w = true := by
  simp only [bareWord, Bool.and_eq_true] at h
  exact h.1

theorem reads_bare {n : Str} (hn : bareName n = true) :
    Reads readRef 0 stopRef (bareLexemes n) (bareRef n) := by
  have key : ∀ (l : List Str), (∀ w ∈ l, bareWord w = true) →
      ReadsAll (fun _ => readBarePart) 0 (.sym '.' :: stopRef)
      (l.map fun p => [.tok (.word p)]) l := by
    intro l hl
    induction l with
    | nil => exact .nil
    | cons p l ih =>
      refine .cons (fun _ _ _ _ => ?_) (ih fun w hw => hl w (List.mem_cons_of_mem _ hw))
      simp [readBarePart, bareWord_name (hl p List.mem_cons_self)]
  simp only [bareName, List.all_eq_true] at hn
  intro m rest hm hr
  obtain ⟨p, l, hl⟩ := List.exists_cons_of_ne_nil (splitOn_ne_nil '.' n)
  have h := reads_separated (T := stopRef) (key (splitOn '.' n) hn) (by simp [hl])
    List.mem_cons_self
    (by decide) (fun t ht => List.mem_cons_of_mem _ ht) m m rest hm (by
      simp only [bareLexemes, hl, List.map_cons] at hm ⊢
      have := separated_cons_length (.tok (.sym '.')) [Lexeme.tok (.word p)]
        (l.map fun p => [.tok (.word p)])
      simp only [List.length_cons, List.length_map, List.length_nil] at this ⊢
      omega) hr
  have h0 : ∃ r, bareLexemes n = .tok (.word p) :: r := by
    simp only [bareLexemes, hl, List.map_cons]
    cases l <;> exact ⟨_, rfl⟩
  obtain ⟨r, h0⟩ := h0
  have h' : sepList (.sym '.') readBarePart m (bareLexemes n ++ rest)
    = some (splitOn '.' n, rest) := h
  rw [h0, List.cons_append] at h' ⊢
  simp only [readRef, h', bareRef]

/-! ## How expressions begin -/

/-- The first token of an operand. -/
def opener : Lexeme → Bool
  | .value _ => true
  | .tok (.name _) => true
  | .tok (.sym c) => c = '('
  | .tok (.word w) => isNameWord w || w = s%"NULL" || w = s%"EXISTS"
  | .tok _ => false

/-- It begins like an operand. -/
def Opens (ls : List Lexeme) : Prop := ∃ x r, ls = x :: r ∧ opener x = true

/-- It begins like an operand or with `NOT`. -/
def OpensCond (ls : List Lexeme) : Prop :=
  ∃ x r, ls = x :: r ∧ (opener x = true ∨ x = .tok (.word s%"NOT"))

theorem Opens.cond {ls : List Lexeme} (h : Opens ls) : OpensCond ls := by
  obtain ⟨x, r, h, hx⟩ := h
  exact ⟨x, r, h, .inl hx⟩

theorem Opens.append {ls : List Lexeme} (h : Opens ls) (m : List Lexeme) : Opens (ls ++ m) := by
  obtain ⟨x, r, rfl, hx⟩ := h
  exact ⟨x, _, rfl, hx⟩

theorem OpensCond.append {ls : List Lexeme} (h : OpensCond ls) (m : List Lexeme) :
    OpensCond (ls ++ m) := by
  obtain ⟨x, r, rfl, hx⟩ := h
  exact ⟨x, _, rfl, hx⟩

theorem Opens.eat {ls : List Lexeme} (h : Opens ls) {t : SqlTok} (ht : opener (.tok t) = false) :
    eat t ls = none := by
  obtain ⟨x, r, rfl, hx⟩ := h
  cases x with
  | value v => rfl
  | tok u =>
    refine eat_ne ?_ r
    rintro rfl
    rw [hx] at ht
    cases ht

theorem OpensCond.eat {ls : List Lexeme} (h : OpensCond ls) {t : SqlTok}
    (ht : opener (.tok t) = false) (hn : t ≠ .word s%"NOT") : eat t ls = none := by
  obtain ⟨x, r, rfl, hx⟩ := h
  cases x with
  | value v => rfl
  | tok u =>
    refine eat_ne ?_ r
    rintro rfl
    rcases hx with hx | hx
    · rw [hx] at ht; cases ht
    · injection hx with hx; exact hn hx

theorem OpensCond.queryNext {ls : List Lexeme} (h : OpensCond ls) : queryNext ls = false := by
  rw [Spec.queryNext, h.eat (by decide) (by decide), h.eat (by decide) (by decide)]
  rfl

theorem Opens.length {ls : List Lexeme} (h : Opens ls) : 1 ≤ ls.length := by
  obtain ⟨x, r, rfl, -⟩ := h
  simp

theorem OpensCond.length {ls : List Lexeme} (h : OpensCond ls) : 1 ≤ ls.length := by
  obtain ⟨x, r, rfl, -⟩ := h
  simp

theorem opens_quoted (n : Str) : ∃ p r, quotedLexemes n = .tok (.name p) :: r := by
  obtain ⟨p, l, hl⟩ := List.exists_cons_of_ne_nil (splitOn_ne_nil '.' n)
  simp only [quotedLexemes, hl, List.map_cons]
  cases l <;> exact ⟨_, _, rfl⟩

theorem opens_bare {n : Str} (h : bareName n = true) :
    ∃ w r, bareLexemes n = .tok (.word w) :: r ∧ bareWord w = true ∧
      ∀ S rest, Heads S rest → ∀ t, t ∉ S → t ≠ .sym '.' → eat t (r ++ rest) = none := by
  obtain ⟨p, l, hl⟩ := List.exists_cons_of_ne_nil (splitOn_ne_nil '.' n)
  simp only [bareName, hl, List.all_cons, Bool.and_eq_true] at h
  simp only [bareLexemes, hl, List.map_cons]
  cases l with
  | nil => exact ⟨_, _, rfl, h.1, fun S rest hr t ht _ => eat_heads hr ht⟩
  | cons q l =>
    refine ⟨p, _, rfl, h.1, fun S rest _ t _ ht => ?_⟩
    exact eat_ne (Ne.symm ht) _

theorem bareWord_ne {w : Str} (h : bareWord w = true) {r : Str} (hr : isNameWord r = false) :
    w ≠ r := by
  rintro rfl
  rw [bareWord_name h] at hr
  cases hr

/-! ## The reader of operands -/

theorem operand_quoted (n : Str) :
    Opens (quotedLexemes n) ∧
      Reads readOperandOf 1 stopOperand (quotedLexemes n) (.ref (quotedRef n)) := by
  obtain ⟨p, r, h⟩ := opens_quoted n
  refine ⟨⟨_, _, h, rfl⟩, fun m rest hm hr => ?_⟩
  cases m with
  | zero => simp [h] at hm
  | succ m =>
    have := reads_quoted n m rest (by simp [h] at hm ⊢; omega) (stopRef_of_operand hr)
    rw [h, List.cons_append] at this ⊢
    simp only [readOperandOf, this]

theorem operand_bare {n : Str} (hn : bareName n = true) :
    Opens (bareLexemes n) ∧
      Reads readOperandOf 1 stopOperand (bareLexemes n) (.ref (bareRef n)) := by
  obtain ⟨w, r, h, hw, hlast⟩ := opens_bare hn
  refine ⟨⟨_, _, h, by simp [opener, bareWord_name hw]⟩, fun m rest hm hr => ?_⟩
  cases m with
  | zero => simp [h] at hm
  | succ m =>
    have := reads_bare hn m rest (by simp [h] at hm ⊢; omega) (stopRef_of_operand hr)
    rw [h, List.cons_append] at this ⊢
    simp only [readOperandOf, this, if_neg (bareWord_ne hw (r := s%"NULL") rfl),
      if_neg (bareWord_ne hw (r := s%"EXISTS") rfl)]
    rw [hlast _ _ hr _ (by decide) (by decide)]
    rfl

/-! ## From operands to conditions to expressions -/

theorem operatorTable_stop {r : List Lexeme} (h : Heads stopCond r) :
    readOperator operatorTable r = none := by
  rcases readOperator_heads h (table := operatorTable) (by decide) with h | h
  · exact h
  · cases h

theorem predicate_operand {n : Nat} {ls rest : List Lexeme} {x : Sql}
    (h : readOperandOf n (ls ++ rest) = some (x, rest)) (hr : Heads stopCond rest) :
    readPredicate (n + 1) (ls ++ rest) = some (x, rest) := by
  rw [readPredicate, h]
  simp only [eats_heads hr _ (t := .word s%"IN") (by decide),
    eats_heads hr _ (t := .word s%"NOT") (by decide),
    eats_heads hr _ (t := .word s%"BETWEEN") (by decide), operatorTable_stop hr]

theorem reads_cond {ls : List Lexeme} {x : Sql} (ho : Opens ls)
    (h : Reads readOperandOf 1 stopOperand ls x) : Reads readNot 3 stopCond ls x := by
  intro n rest hn hr
  obtain ⟨n, rfl⟩ : ∃ k, n = k + 2 := ⟨n - 2, by omega⟩
  rw [readNot, (ho.append rest).eat (by decide)]
  exact predicate_operand (h n rest (by omega) (stopOperand_of_cond hr)) hr

theorem reads_expr {ls : List Lexeme} {x : Sql}
    (h : Reads readNot 3 stopCond ls x) : Reads readExpr 5 stopExpr ls x := by
  intro n rest hn hr
  obtain ⟨n, rfl⟩ : ∃ k, n = k + 3 := ⟨n - 3, by omega⟩
  rw [readExpr, readConj, h (n + 1) rest (by omega) (stopCond_of_expr hr)]
  simp only [readAndTail, readOrTail, eat_heads hr (t := .word s%"AND") (by decide),
    eat_heads hr (t := .word s%"OR") (by decide)]

/-- `l AND r` or `l OR r` -/
theorem reads_connective {op : Str} (hop : op ∈ connectives) {l r : List Lexeme} {x y : Sql}
    (hl : Reads readNot 3 stopCond l x) (hr : Reads readNot 3 stopCond r y) :
    Reads readExpr 5 stopExpr (l ++ .tok (.word op) :: r) (.binary op x y) := by
  intro n rest hn hrest
  obtain ⟨n, rfl⟩ : ∃ k, n = k + 4 := ⟨n - 4, by omega⟩
  simp only [List.length_append, List.length_cons] at hn
  simp only [connectives, List.mem_cons, List.not_mem_nil, or_false] at hop
  rw [List.append_assoc, List.cons_append]
  rcases hop with rfl | rfl
  · rw [readExpr, readConj, hl (n + 2) _ (by omega) (heads_cons (by decide) _)]
    simp only [readAndTail, eat_self]
    rw [hr (n + 1) rest (by omega) (stopCond_of_expr hrest)]
    simp only [readAndTail, readOrTail, eat_heads hrest (t := .word s%"AND") (by decide),
      eat_heads hrest (t := .word s%"OR") (by decide)]
  · rw [readExpr, readConj, hl (n + 2) _ (by omega) (heads_cons (by decide) _)]
    have e : ∀ m, eat (.word s%"AND") (.tok (.word s%"OR") :: m) = none :=
      fun m => eat_ne (by decide) m
    simp only [readAndTail, readOrTail, eat_self, e, readConj]
    rw [hr (n + 1) rest (by omega) (stopCond_of_expr hrest)]
    simp only [readAndTail, readOrTail, eat_heads hrest (t := .word s%"AND") (by decide),
      eat_heads hrest (t := .word s%"OR") (by decide)]

/-- Between parentheses. -/
theorem operand_parens {ls : List Lexeme} {x : Sql} (ho : OpensCond ls)
    (h : Reads readExpr 5 stopExpr ls x) :
    Opens (.tok (.sym '(') :: (ls ++ [.tok (.sym ')')])) ∧
    Reads readOperandOf 1 stopOperand (.tok (.sym '(') :: (ls ++ [.tok (.sym ')')])) x := by
  refine ⟨⟨_, _, rfl, rfl⟩, fun n rest hn hr => ?_⟩
  simp only [List.length_append, List.length_cons, List.length_nil] at hn
  obtain ⟨n, rfl⟩ : ∃ k, n = k + 1 := ⟨n - 1, by omega⟩
  simp only [List.cons_append, List.append_assoc, List.nil_append]
  rw [readOperandOf]
  refine parens_ok ?_
  simp only [(ho.append _).queryNext, Bool.false_eq_true, if_false]
  exact h n _ (by omega) (heads_cons (by decide) _)

/-- A query between parentheses. -/
theorem operand_query {ls : List Lexeme} {q : SqlSelect} (ho : ∀ r, queryNext (ls ++ r) = true)
    (h : Reads readSelect 8 stopSelect ls q) :
    Opens (.tok (.sym '(') :: (ls ++ [.tok (.sym ')')])) ∧
    Reads readOperandOf 1 stopOperand (.tok (.sym '(') :: (ls ++ [.tok (.sym ')')])) (.query q) := by
  refine ⟨⟨_, _, rfl, rfl⟩, fun n rest hn hr => ?_⟩
  simp only [List.length_append, List.length_cons, List.length_nil] at hn
  obtain ⟨n, rfl⟩ : ∃ k, n = k + 1 := ⟨n - 1, by omega⟩
  simp only [List.cons_append, List.append_assoc, List.nil_append]
  rw [readOperandOf]
  refine parens_ok ?_
  simp only [ho, if_true]
  rw [h n _ (by omega) (heads_cons (by decide) _)]

/-- `EXISTS (query)` -/
theorem operand_exist {ls : List Lexeme} {q : SqlSelect}
    (h : Reads readSelect 8 stopSelect ls q) :
    Opens (.tok (.word s%"EXISTS") :: .tok (.sym '(') :: (ls ++ [.tok (.sym ')')])) ∧
    Reads readOperandOf 1 stopOperand
      (.tok (.word s%"EXISTS") :: .tok (.sym '(') :: (ls ++ [.tok (.sym ')')])) (.exist q) := by
  refine ⟨⟨_, _, rfl, rfl⟩, fun n rest hn hr => ?_⟩
  simp only [List.length_append, List.length_cons, List.length_nil] at hn
  obtain ⟨n, rfl⟩ : ∃ k, n = k + 1 := ⟨n - 1, by omega⟩
  simp only [List.cons_append, List.append_assoc, List.nil_append]
  rw [readOperandOf]
  simp only [if_neg (show s%"EXISTS" ≠ s%"NULL" by decide), if_true]
  rw [parens_ok (h n _ (by omega) (heads_cons (by decide) _))]

/-- `NOT EXISTS (query)` -/
theorem cond_notExist {ls : List Lexeme} {q : SqlSelect}
    (h : Reads readSelect 8 stopSelect ls q) :
    OpensCond (.tok (.word s%"NOT") :: .tok (.word s%"EXISTS") :: .tok (.sym '(')
      :: (ls ++ [.tok (.sym ')')])) ∧
    Reads readNot 3 stopCond
      (.tok (.word s%"NOT") :: .tok (.word s%"EXISTS") :: .tok (.sym '(')
        :: (ls ++ [.tok (.sym ')')])) (.not (.exist q)) := by
  refine ⟨⟨_, _, rfl, .inr rfl⟩, fun n rest hn hr => ?_⟩
  obtain ⟨h1, h2⟩ := operand_exist h
  have h3 := reads_cond h1 h2
  rw [List.length_cons] at hn
  obtain ⟨n, rfl⟩ : ∃ k, n = k + 1 := ⟨n - 1, by omega⟩
  rw [readNot, List.cons_append, eat_self]
  simp only
  rw [h3 n rest (by omega) hr]

/-- `l operator r`, not between parentheses. -/
theorem readOperator_ok {op : Str} {ts : List SqlTok} (h : (op, ts) ∈ operatorTable)
    {r : List Lexeme} (ho : Opens r) :
    readOperator operatorTable (ts.map .tok ++ r) = some (op, r) := by
  have hNOT := ho.eat (t := .word s%"NOT") (by decide)
  have hD := ho.eat (t := .word s%"DISTINCT") (by decide)
  have hE := ho.eat (t := .sym '=') (by decide)
  have hA := ho.eat (t := .sym '@') (by decide)
  have ne : ∀ {t u : SqlTok} (l : List Lexeme), u ≠ t → eat t (.tok u :: l) = none :=
    fun l h => eat_ne h l
  simp only [operatorTable, List.mem_cons, List.not_mem_nil, or_false, Prod.mk.injEq] at h
  rcases h with ⟨rfl, rfl⟩ | ⟨rfl, rfl⟩ | ⟨rfl, rfl⟩ | ⟨rfl, rfl⟩ | ⟨rfl, rfl⟩ | ⟨rfl, rfl⟩ |
    ⟨rfl, rfl⟩ | ⟨rfl, rfl⟩ | ⟨rfl, rfl⟩ | ⟨rfl, rfl⟩ | ⟨rfl, rfl⟩ | ⟨rfl, rfl⟩ | ⟨rfl, rfl⟩ |
    ⟨rfl, rfl⟩ | ⟨rfl, rfl⟩ | ⟨rfl, rfl⟩ | ⟨rfl, rfl⟩ <;>
    simp [operatorTable, readOperator, eats, hNOT, hD, hE, hA, eat_ne]

theorem reads_comparison {op : Str} {ts : List SqlTok} (h : (op, ts) ∈ operatorTable)
    {l r : List Lexeme} {x y : Sql} (hol : Opens l) (hor : Opens r)
    (hl : Reads readOperandOf 1 stopOperand l x) (hr : Reads readOperandOf 1 stopOperand r y) :
    Reads readNot 3 stopCond (l ++ (ts.map .tok ++ r)) (.binary op x y) := by
  intro n rest hn hrest
  obtain ⟨n, rfl⟩ : ∃ k, n = k + 2 := ⟨n - 2, by omega⟩
  simp only [List.length_append] at hn
  simp only [List.append_assoc]
  rw [readNot, (hol.append _).eat (by decide)]
  simp only
  have h0 : Heads stopOperand (ts.map .tok ++ (r ++ rest)) ∧
      eats [.word s%"IN"] (ts.map .tok ++ (r ++ rest)) = none ∧
      eats [.word s%"NOT", .word s%"IN"] (ts.map .tok ++ (r ++ rest)) = none ∧
      eats [.word s%"BETWEEN"] (ts.map .tok ++ (r ++ rest)) = none ∧
      eats [.word s%"NOT", .word s%"BETWEEN"] (ts.map .tok ++ (r ++ rest)) = none := by
    have key : ∀ e ∈ operatorTable, ∃ t u, e.2 = t :: u ∧ t ∈ stopOperand ∧ t ≠ .word s%"IN" ∧
        t ≠ .word s%"BETWEEN" ∧ (t ≠ .word s%"NOT" ∨
          ∃ v, u = v :: [] ∧ v ≠ .word s%"IN" ∧ v ≠ .word s%"BETWEEN") := by
      intro e he
      simp only [operatorTable, List.mem_cons, List.not_mem_nil, or_false] at he
      rcases he with rfl | rfl | rfl | rfl | rfl | rfl | rfl | rfl | rfl | rfl | rfl | rfl | rfl |
        rfl | rfl | rfl | rfl <;>
        first
        | exact ⟨_, _, rfl, by decide, by decide, by decide, .inl (by decide)⟩
        | exact ⟨_, _, rfl, by decide, by decide, by decide, .inr ⟨_, rfl, by decide, by decide⟩⟩
    obtain ⟨t, u, e, h1, h2, h3, h4⟩ := key _ h
    simp only at e
    subst e
    refine ⟨heads_cons h1 _, ?_, ?_, ?_, ?_⟩
    · simp [eats, eat_ne h2]
    · rcases h4 with h4 | ⟨v, rfl, h5, -⟩
      · simp [eats, eat_ne h4]
      · by_cases h6 : t = .word s%"NOT"
        · simp [eats, h6, eat_ne h5]
        · simp [eats, eat_ne h6]
    · simp [eats, eat_ne h3]
    · rcases h4 with h4 | ⟨v, rfl, -, h5⟩
      · simp [eats, eat_ne h4]
      · by_cases h6 : t = .word s%"NOT"
        · simp [eats, h6, eat_ne h5]
        · simp [eats, eat_ne h6]
  obtain ⟨h1, h2, h3, h4, h5⟩ := h0
  rw [readPredicate, hl n _ (by omega) h1]
  simp only [h2, h3, h4, h5, readOperator_ok h (hor.append rest)]
  rw [hr n rest (by omega) (stopOperand_of_cond hrest)]

end Verif
