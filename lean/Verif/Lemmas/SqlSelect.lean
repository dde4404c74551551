import Verif.Lemmas.SqlClauses

/-!
# Reading queries
-/

set_option linter.unusedSectionVars false
set_option linter.unusedSimpArgs false

namespace Verif
open Spec

/-! ## Joins -/

/-- What can follow the joins of a query. -/
def stopJoins : List SqlTok :=
  [.word s%"WHERE", .word s%"GROUP", .word s%"HAVING", .word s%"ORDER", .word s%"LIMIT",
   .word s%"OFFSET", .sym ')', .sym ';']

theorem joinTable_stop {r : List Lexeme} (h : Heads stopJoins r) :
    readOperator joinTable r = none := by
  rcases readOperator_heads h (table := joinTable) (by decide) with h | h
  · exact h
  · cases h

theorem joinTable_ok {op : Str} {ts : List SqlTok} (h : (op, ts) ∈ joinTable) (r : List Lexeme) :
    readOperator joinTable (ts.map .tok ++ r) = some (op, r) := by
  simp only [joinTable, List.mem_cons, List.not_mem_nil, or_false, Prod.mk.injEq] at h
  rcases h with ⟨rfl, rfl⟩ | ⟨rfl, rfl⟩ | ⟨rfl, rfl⟩ | ⟨rfl, rfl⟩ | ⟨rfl, rfl⟩ <;>
    simp [joinTable, readOperator, eats, eat_ne]

/-- The lexemes of a join. -/
def joinLexemes (ts : List SqlTok) (t : Table) (c : List Lexeme) : List Lexeme :=
  ts.map .tok ++ (tableLexemes t ++ .tok (.word s%"ON") :: c)

theorem reads_joinsNil : Reads readJoins 6 stopJoins [] [] := by
  intro n rest hn hr
  obtain ⟨n, rfl⟩ : ∃ k, n = k + 1 := ⟨n - 1, by omega⟩
  simp [readJoins, joinTable_stop hr]

/-- How joins begin. -/
def joinHeads : List SqlTok := [.word s%"INNER", .word s%"LEFT", .word s%"RIGHT"]

theorem heads_join {op : Str} {ts : List SqlTok} (h : (op, ts) ∈ joinTable) (r : List Lexeme) :
    Heads joinHeads (ts.map .tok ++ r) := by
  simp only [joinTable, List.mem_cons, List.not_mem_nil, or_false, Prod.mk.injEq] at h
  rcases h with ⟨rfl, rfl⟩ | ⟨rfl, rfl⟩ | ⟨rfl, rfl⟩ | ⟨rfl, rfl⟩ | ⟨rfl, rfl⟩ <;>
    exact heads_cons (by decide) _

theorem reads_joinsCons {op : Str} {ts : List SqlTok} (h : (op, ts) ∈ joinTable) {t : Table}
    {c l : List Lexeme} {x : Sql} {js : List SqlJoin} (hc : Reads readExpr 5 stopExpr c x)
    (hh : Heads joinHeads l) (hl : Reads readJoins 6 stopJoins l js) :
    Reads readJoins 6 stopJoins (joinLexemes ts t c ++ l) (.mk op (meanTable t) x :: js) := by
  intro n rest hn hr
  obtain ⟨n, rfl⟩ : ∃ k, n = k + 1 := ⟨n - 1, by omega⟩
  simp only [joinLexemes, List.length_append, List.length_cons] at hn
  simp only [joinLexemes, List.append_assoc, List.cons_append]
  rw [readJoins, joinTable_ok h]
  simp only
  rw [reads_table t n _ (by omega) (heads_cons (by decide) _)]
  simp only [eat_self]
  rw [hc n (l ++ rest) (by omega)
    (heads_append (hh.mono (by decide)) (hr.mono (by decide)))]
  simp only
  rw [hl n rest (by omega) hr]

/-! ## WITH -/

/-- What can follow a common table expression. -/
def stopWith : List SqlTok := [.sym ',', .word s%"SELECT", .word s%"UPDATE"]

theorem reads_with {name : Str} (hname : bareWord name = true) {ls : List Lexeme} {q : SqlSelect}
    (h : Reads readSelect 8 stopSelect ls q) :
    Reads readWith 0 stopWith
      (.tok (.word name) :: .tok (.word s%"AS") :: .tok (.sym '(') :: (ls ++ [.tok (.sym ')')]))
      (.mk name q) := by
  intro n rest hn hr
  simp only [List.length_append, List.length_cons, List.length_nil] at hn
  obtain ⟨n, rfl⟩ : ∃ k, n = k + 1 := ⟨n - 1, by omega⟩
  simp only [List.cons_append, List.append_assoc, List.nil_append]
  rw [readWith, readBarePart]
  simp only [bareWord_name hname, if_true, eat_self]
  rw [parens_ok (h n _ (by omega) (heads_cons (by decide) _))]

/-- The lexemes of `WITH ...`. -/
def withsLexemes (wl : List (List Lexeme)) : List Lexeme :=
  optional (!wl.isEmpty) [.word s%"WITH"] (separated (.tok (.sym ',')) wl)

theorem reads_withs {wl : List (List Lexeme)} {ws : List SqlWith}
    (h : ReadsAll readWith 0 stopWith wl ws) {S : List SqlTok}
    (hs : ∀ t ∈ S, t = .word s%"SELECT" ∨ t = .word s%"UPDATE") :
    ∀ n rest, 8 * (withsLexemes wl).length + 1 ≤ n → Heads S rest →
      ifNextList [.word s%"WITH"] (commaList (readWith n) n) (withsLexemes wl ++ rest)
        = some (ws, rest) := by
  intro n rest hn hr
  have hr' : Heads [.word s%"SELECT", .word s%"UPDATE"] rest :=
    hr.mono fun t ht => by rcases hs t ht with rfl | rfl <;> simp
  refine ifNextList_optional (fun hp => ?_) (fun ha => ?_) (eats_heads hr' _ (by decide))
  · have hne : wl ≠ [] := by rintro rfl; simp at hp
    refine reads_commaList h hne (T := [.word s%"SELECT", .word s%"UPDATE"]) (by decide)
      (by decide) (by decide) n rest ?_ hr'
    simp only [withsLexemes, optional, hp, if_true, List.length_append] at hn
    omega
  · have : wl = [] := by simpa using ha
    subst this
    cases h
    rfl

/-! ## The clauses of a query -/

theorem ReadsAll.length {α : Type} {p : Nat → Reader α} {c : Nat} {S : List SqlTok}
    {lss : List (List Lexeme)} {xs : List α} (h : ReadsAll p c S lss xs) :
    lss.length = xs.length := by
  induction h with
  | nil => rfl
  | cons _ _ ih => simp [ih]

theorem ReadsAll.isEmpty {α : Type} {p : Nat → Reader α} {c : Nat} {S : List SqlTok}
    {lss : List (List Lexeme)} {xs : List α} (h : ReadsAll p c S lss xs) :
    lss.isEmpty = xs.isEmpty := by
  cases h <;> rfl

/-- The lexemes of a clause that consists of key words and a list. -/
def listClause (words : List SqlTok) (lss : List (List Lexeme)) : List Lexeme :=
  optional (!lss.isEmpty) words (separated (.tok (.sym ',')) lss)

theorem reads_listClause {α : Type} {p : Nat → Reader α} {c : Nat} {S T : List SqlTok}
    {lss : List (List Lexeme)} {xs : List α} (h : ReadsAll p c S lss xs) (t : SqlTok)
    (words : List SqlTok) {n : Nat} {rest : List Lexeme}
    (hs : SqlTok.sym ',' ∈ S) (ht : SqlTok.sym ',' ∉ T) (hts : ∀ t ∈ T, t ∈ S) (htT : t ∉ T)
    (hn : 8 * (listClause (t :: words) lss).length + (c + 1) ≤ n) (hr : Heads T rest) :
    ifNextList (t :: words) (commaList (p n) n) (listClause (t :: words) lss ++ rest)
      = some (xs, rest) := by
  refine ifNextList_optional (fun hp => ?_) (fun ha => ?_) (eats_heads hr _ htT)
  · have hne : lss ≠ [] := by rintro rfl; simp at hp
    refine reads_commaList h hne hs ht hts n rest ?_ hr
    simp only [listClause, optional, hp, if_true, List.length_append] at hn
    omega
  · have : lss = [] := by simpa using ha
    subst this
    cases h
    rfl

theorem heads_listClause {S : List SqlTok} (t : SqlTok) (words : List SqlTok)
    (lss : List (List Lexeme)) (ht : t ∈ S) {r : List Lexeme} (hr : Heads S r) :
    Heads S (listClause (t :: words) lss ++ r) := heads_optional _ _ _ _ ht hr

/-- The lexemes of a clause that consists of key words and an expression. -/
def exprClause (words : List SqlTok) (e : Option (List Lexeme × Sql)) : List Lexeme :=
  match e with
  | none => []
  | some (ls, _) => words.map .tok ++ ls

theorem reads_exprClause {e : Option (List Lexeme × Sql)} {T : List SqlTok}
    (h : ∀ ls x, e = some (ls, x) → Reads readExpr 5 stopExpr ls x) (t : SqlTok)
    (words : List SqlTok) {n : Nat} {rest : List Lexeme}
    (hts : ∀ t ∈ T, t ∈ stopExpr) (htT : t ∉ T)
    (hn : 8 * (exprClause (t :: words) e).length + 5 ≤ n) (hr : Heads T rest) :
    ifNext (t :: words) (readExpr n) (exprClause (t :: words) e ++ rest)
      = some (e.map (·.2), rest) := by
  cases e with
  | none => simp [exprClause, ifNext, eats_heads hr _ htT]
  | some e =>
    obtain ⟨ls, x⟩ := e
    simp only [exprClause, List.length_append] at hn
    rw [exprClause, List.append_assoc, ifNext, eats_self]
    simp only
    rw [h ls x rfl n rest (by omega) (hr.mono hts)]
    rfl

theorem heads_exprClause {S : List SqlTok} (t : SqlTok) (words : List SqlTok)
    (e : Option (List Lexeme × Sql)) (ht : t ∈ S) {r : List Lexeme} (hr : Heads S r) :
    Heads S (exprClause (t :: words) e ++ r) := by
  cases e with
  | none => exact hr
  | some e => exact heads_cons ht _

/-- The lexemes of LIMIT or OFFSET. -/
def countClause (word : SqlTok) (n : Option Nat) : List Lexeme :=
  match n with
  | none => []
  | some n => [.tok word, .tok (.word (formatNat n))]

theorem reads_countClause (n : Option Nat) {T : List SqlTok} (t : SqlTok) {rest : List Lexeme}
    (htT : t ∉ T) (hr : Heads T rest) :
    ifNext [t] readNumber (countClause t n ++ rest) = some (n, rest) := by
  cases n with
  | none => simp [countClause, ifNext, eats_heads hr _ htT]
  | some n => simp [countClause, ifNext, eats, readNumber_ok]

theorem heads_countClause {S : List SqlTok} (t : SqlTok) (n : Option Nat) (ht : t ∈ S)
    {r : List Lexeme} (hr : Heads S r) : Heads S (countClause t n ++ r) := by
  cases n with
  | none => exact hr
  | some n => exact heads_cons ht _

/-- The lexemes of DISTINCT or DISTINCT ON. -/
def distinctLexemes (distinct : Bool) (onl : List (List Lexeme)) : List Lexeme :=
  optional (!onl.isEmpty) [.word s%"DISTINCT", .word s%"ON"]
      (.tok (.sym '(') :: (separated (.tok (.sym ',')) onl ++ [.tok (.sym ')')]))
    ++ optional distinct [.word s%"DISTINCT"] []

/-- What DISTINCT and DISTINCT ON mean. -/
def meanDistinct (distinct : Bool) (on : List Ref) : SqlDistinct :=
  if distinct then .yes else if on.isEmpty then .no else .on on

theorem reads_distinct {distinct : Bool} {onl : List (List Lexeme)} {on : List Ref}
    (hd : distinct = true → onl = []) (hon : ReadsAll readRef 0 stopRef onl on)
    {rest : List Lexeme} (ho : OpensCond rest) (n : Nat)
    (hn : 8 * (distinctLexemes distinct onl).length + 1 ≤ n) :
    readDistinct n (distinctLexemes distinct onl ++ rest)
      = some (meanDistinct distinct on, rest) := by
  have hD := ho.eat (t := .word s%"DISTINCT") (by decide) (by decide)
  have hON := ho.eat (t := .word s%"ON") (by decide) (by decide)
  by_cases hon0 : onl = []
  · subst hon0
    cases hon
    cases distinct
    · simp [distinctLexemes, optional, readDistinct, hD, meanDistinct]
    · simp [distinctLexemes, optional, readDistinct, hON, meanDistinct]
  · have h1 : onl.isEmpty = false := by simpa using hon0
    have h2 : on.isEmpty = false := by rw [← hon.isEmpty, h1]
    have hdf : distinct = false := by
      cases distinct
      · rfl
      · exact absurd (hd rfl) hon0
    subst hdf
    simp only [distinctLexemes, optional, h1, Bool.not_false, if_true, List.length_append,
      List.length_cons, List.length_nil, List.map_cons] at hn
    have r := reads_commaList hon hon0 (T := stopParen) (by decide) (by decide) (by decide) n
      (.tok (.sym ')') :: rest) (by omega) (heads_cons (by decide) _)
    simp only [distinctLexemes, optional, h1, Bool.not_false, Bool.false_eq_true,
      if_false, if_true, List.nil_append, List.map_cons, List.map_nil, List.cons_append,
      List.append_assoc, List.append_nil, readDistinct, eat_self, parens_ok r, meanDistinct, h2]

theorem reads_select {wl : List (List Lexeme)} {ws : List SqlWith} {distinct : Bool}
    {onl : List (List Lexeme)} {on : List Ref} {il : List (List Lexeme)} {items : List SqlItem}
    {tl : List (List Lexeme)} {tables : List SqlTable} {jl : List Lexeme} {joins : List SqlJoin}
    {whr : Option (List Lexeme × Sql)} {gl : List (List Lexeme)} {groupBy : List Ref}
    {having : Option (List Lexeme × Sql)} {ol : List (List Lexeme)} {orderBy : List SqlOrder}
    {limit offset : Option Nat}
    (hw : ReadsAll readWith 0 stopWith wl ws) (hd : distinct = true → onl = [])
    (hon : ReadsAll readRef 0 stopRef onl on)
    (hi : ReadsAll readItem 6 stopItem il items) (hne : il ≠ []) (hio : ∀ ls ∈ il, OpensCond ls)
    (ht : ReadsAll readTable 0 stopTable tl tables)
    (hj : Reads readJoins 6 stopJoins jl joins) (hjh : Heads joinHeads jl)
    (hwhr : ∀ ls x, whr = some (ls, x) → Reads readExpr 5 stopExpr ls x)
    (hg : ReadsAll readRef 0 stopRef gl groupBy)
    (hhav : ∀ ls x, having = some (ls, x) → Reads readExpr 5 stopExpr ls x)
    (ho : ReadsAll readOrder 0 stopRef ol orderBy) :
    Reads readSelect 8 stopSelect
      (withsLexemes wl ++ (.tok (.word s%"SELECT") :: (distinctLexemes distinct onl ++
        (separated (.tok (.sym ',')) il ++ (listClause [.word s%"FROM"] tl ++ (jl ++
        (exprClause [.word s%"WHERE"] whr ++ (listClause [.word s%"GROUP", .word s%"BY"] gl ++
        (exprClause [.word s%"HAVING"] having ++ (listClause [.word s%"ORDER", .word s%"BY"] ol ++
        (countClause (.word s%"LIMIT") limit ++ countClause (.word s%"OFFSET") offset)))))))))))
      (.mk ws (meanDistinct distinct on) items tables joins (whr.map (·.2)) groupBy
        (having.map (·.2)) orderBy limit offset) := by
  intro n rest hn hr
  simp only [List.length_append, List.length_cons] at hn
  obtain ⟨n, rfl⟩ : ∃ k, n = k + 1 := ⟨n - 1, by omega⟩
  simp only [List.append_assoc, List.cons_append]
  -- what follows each clause
  have f1 := heads_countClause (S := .word s%"OFFSET" :: stopSelect) (.word s%"OFFSET") offset
    (by decide) (hr.mono (by decide))
  have f2 := heads_countClause (S := .word s%"LIMIT" :: .word s%"OFFSET" :: stopSelect)
    (.word s%"LIMIT") limit (by decide) (f1.mono (by decide))
  have f3 := heads_listClause
    (S := .word s%"ORDER" :: .word s%"LIMIT" :: .word s%"OFFSET" :: stopSelect)
    (.word s%"ORDER") [.word s%"BY"] ol (by decide) (f2.mono (by decide))
  have f4 := heads_exprClause
    (S := .word s%"HAVING" :: .word s%"ORDER" :: .word s%"LIMIT" :: .word s%"OFFSET" :: stopSelect)
    (.word s%"HAVING") [] having (by decide) (f3.mono (by decide))
  have f5 := heads_listClause
    (S := .word s%"GROUP" :: .word s%"HAVING" :: .word s%"ORDER" :: .word s%"LIMIT" ::
      .word s%"OFFSET" :: stopSelect)
    (.word s%"GROUP") [.word s%"BY"] gl (by decide) (f4.mono (by decide))
  have f6 := heads_exprClause (S := stopJoins) (.word s%"WHERE") [] whr (by decide)
    (f5.mono (by decide))
  have f7 := heads_append (S := joinHeads ++ stopJoins)
    (hjh.mono fun _ h => List.mem_append_left _ h) (f6.mono (by decide))
  have f8 := heads_listClause (S := .word s%"FROM" :: (joinHeads ++ stopJoins)) (.word s%"FROM") []
    tl (by decide) (f7.mono (by decide))
  -- the readers
  have r1 := reads_countClause offset (T := stopSelect) (.word s%"OFFSET") (by decide) hr
  have r2 := reads_countClause limit (.word s%"LIMIT") (by decide) f1
  have r3 := reads_listClause ho (.word s%"ORDER") [.word s%"BY"] (n := n) (by decide) (by decide)
    (by decide) (by decide) (by omega) f2
  have r4 := reads_exprClause hhav (.word s%"HAVING") [] (n := n) (by decide) (by decide)
    (by omega) f3
  have r5 := reads_listClause hg (.word s%"GROUP") [.word s%"BY"] (n := n) (by decide) (by decide)
    (by decide) (by decide) (by omega) f4
  have r6 := reads_exprClause hwhr (.word s%"WHERE") [] (n := n) (by decide) (by decide)
    (by omega) f5
  have r7 := hj n _ (by omega) f6
  have r8 := reads_listClause ht (.word s%"FROM") [] (n := n) (by decide) (by decide)
    (by decide) (by decide) (by omega) f7
  have r9 := reads_commaList hi hne (T := .word s%"FROM" :: (joinHeads ++ stopJoins)) (by decide)
    (by decide) (by decide) n _ (by omega) f8
  have r0 := reads_withs hw (S := [.word s%"SELECT"]) (by simp) n
    (.tok (.word s%"SELECT") :: (distinctLexemes distinct onl ++
        (separated (.tok (.sym ',')) il ++ (listClause [.word s%"FROM"] tl ++ (jl ++
        (exprClause [.word s%"WHERE"] whr ++ (listClause [.word s%"GROUP", .word s%"BY"] gl ++
        (exprClause [.word s%"HAVING"] having ++ (listClause [.word s%"ORDER", .word s%"BY"] ol ++
        (countClause (.word s%"LIMIT") limit ++ (countClause (.word s%"OFFSET") offset ++ rest)))))))))))
    (by omega) (heads_cons (by decide) _)
  have hq := (opens_separated (sep := .tok (.sym ',')) hne hio).append
    (listClause [.word s%"FROM"] tl ++ (jl ++
        (exprClause [.word s%"WHERE"] whr ++ (listClause [.word s%"GROUP", .word s%"BY"] gl ++
        (exprClause [.word s%"HAVING"] having ++ (listClause [.word s%"ORDER", .word s%"BY"] ol ++
        (countClause (.word s%"LIMIT") limit ++ (countClause (.word s%"OFFSET") offset ++ rest))))))))
  have rd := reads_distinct hd hon hq n (by omega)
  rw [readSelect, r0]
  simp only [Option.bind_eq_bind, Option.bind_some, eat_self, rd, r9, r8, r7, r6, r5, r4, r3, r2, r1]

end Verif
