import Verif.Spec.JoinGrammar
import Verif.Lemmas.JoinCond
import Verif.Lemmas.JoinText

/-!
# The join parser follows the grammar
-/

namespace Verif
open Spec

/-! ## Every text is spelled by lexemes -/

theorem spelled_blank {xs : List Str} {text : Str} (h : Spelled xs text) {c : Char}
    (hc : blankRune c = true) : Spelled xs (c :: text) := by
  cases h with
  | done w hw => exact .done _ (by simpa [hc] using hw)
  | more w x xs text hw hx hs hsep =>
    have := Spelled.more (c :: w) x xs text (by simpa [hc] using hw) hx hs hsep
    simpa using this

theorem spelled_exists (s : Str) : ∃ xs, Spelled xs (s.takeWhile (· ≠ '\x00')) := by
  refine cases_text (P := fun s => ∃ xs, Spelled xs (s.takeWhile (· ≠ '\x00'))) ?_ ?_ ?_ ?_ ?_ s
  · exact ⟨[], .done _ (by simp)⟩
  · intro s
    exact ⟨[], by simpa using Spelled.done [] (by simp)⟩
  · rintro c s hb ⟨xs, h⟩
    refine ⟨xs, ?_⟩
    rw [List.takeWhile_cons, if_pos (by simpa using blankRune_not_nul hb)]
    exact spelled_blank h hb
  · rintro c s hs ⟨xs, h⟩
    refine ⟨[c] :: xs, ?_⟩
    rw [List.takeWhile_cons, if_pos (by simpa using hs.2.2)]
    exact Spelled.more [] [c] xs _ (by simp) (.inr ⟨c, hs, rfl⟩) h
      (fun hw => absurd (hw.2 c (by simp)) (by simp [hs.1]))
  · rintro w s hw hsep ⟨xs, h⟩
    refine ⟨w :: xs, ?_⟩
    have hall : ∀ c ∈ w, decide (c ≠ '\x00') = true := fun c hc => by
      simpa using wordRune_not_nul (hw.2 c hc)
    rw [List.takeWhile_append_of_pos hall]
    refine Spelled.more [] w xs _ (by simp) (.inl hw) h (fun _ c hc => hsep c ?_)
    cases s with
    | nil => simp at hc
    | cons d s =>
      rw [List.takeWhile_cons] at hc
      split at hc
      · simpa using hc
      · simp at hc

theorem lexAll_untilNul (s : Str) : lexAll (s.takeWhile (· ≠ '\x00')) = lexAll s := by
  refine cases_text (P := fun s => lexAll (s.takeWhile (· ≠ '\x00')) = lexAll s) ?_ ?_ ?_ ?_ ?_ s
  · rfl
  · intro s
    rw [lexAll_nul]
    rfl
  · intro c s hb ih
    rw [List.takeWhile_cons, if_pos (by simpa using blankRune_not_nul hb), lexAll_blank hb,
      lexAll_blank hb, ih]
  · intro c s hs ih
    rw [List.takeWhile_cons, if_pos (by simpa using hs.2.2), lexAll_symbol hs, lexAll_symbol hs, ih]
  · intro w s hw hsep ih
    have hall : ∀ c ∈ w, decide (c ≠ '\x00') = true := fun c hc => by
      simpa using wordRune_not_nul (hw.2 c hc)
    rw [List.takeWhile_append_of_pos hall, lexAll_word hw hsep, lexAll_word hw, ih]
    intro c hc
    refine hsep c ?_
    cases s with
    | nil => simp at hc
    | cons d s =>
      rw [List.takeWhile_cons] at hc
      split at hc
      · simpa using hc
      · simp at hc

theorem spelled_lexeme {xs : List Str} {text : Str} (h : Spelled xs text) : ∀ x ∈ xs, isLexeme x := by
  induction h with
  | done => simp
  | more w x xs text _ hx _ _ ih =>
    intro y hy
    rcases List.mem_cons.1 hy with rfl | hy
    · exact hx
    · exact ih y hy

/-! ## Types of tokens -/

/-- The type of the token of a word. -/
theorem type_word {x : Str} (h : isWord x) :
    (∃ k ∈ sqlKeywords, spells x k ∧ (lexemeToken x).type = k) ∨
      (isName x ∧ (lexemeToken x).type = Token.Literal) := by
  by_cases hn : ∃ k ∈ sqlKeywords, spells x k
  · obtain ⟨k, hk, hs⟩ := hn
    exact .inl ⟨k, hk, hs, by rw [lexemeToken_word h, lookup_keyword h.2 hk hs]⟩
  · have : isName x := ⟨h, fun k hk hs => hn ⟨k, hk, hs⟩⟩
    exact .inr ⟨this, by rw [token_name this]⟩

theorem symbolType_cases (c : Char) : symbolType c ∈
    [s%"*", s%"=", s%";", s%",", s%":", s%"(", s%")", s%"Illegal"] := by
  unfold symbolType
  repeat' split
  all_goals decide

theorem type_name {x : Str} (h : isLexeme x) : (lexemeToken x).type = Token.Literal ↔ isName x := by
  refine ⟨fun e => ?_, fun hn => by rw [token_name hn]⟩
  rcases h with h | ⟨c, hc, rfl⟩
  · rcases type_word h with ⟨k, hk, -, e'⟩ | ⟨hn, -⟩
    · rw [e'] at e
      subst e
      exact absurd hk (by decide)
    · exact hn
  · rw [lexemeToken_symbol hc] at e
    have := symbolType_cases c
    rw [show symbolType c = Token.Literal from e] at this
    exact absurd this (by decide)

theorem type_keyword {x : Str} (h : isLexeme x) {k : Str} (hk : k ∈ sqlKeywords) (hw : isWord k) :
    (lexemeToken x).type = k ↔ spells x k := by
  refine ⟨fun e => ?_, fun hs => by rw [token_keyword hs hk hw]⟩
  rcases h with h | ⟨c, hc, rfl⟩
  · rcases type_word h with ⟨k', -, hs, e'⟩ | ⟨-, e'⟩
    · rw [e'] at e
      exact e ▸ hs
    · rw [e'] at e
      exact absurd (e ▸ hk) (by decide)
  · rw [lexemeToken_symbol hc] at e
    have := symbolType_cases c
    rw [show symbolType c = k from e] at this
    have hd : ∀ y ∈ [s%"*", s%"=", s%";", s%",", s%":", s%"(", s%")", s%"Illegal"],
        y ∉ sqlKeywords := by decide
    exact absurd hk (hd k this)

theorem symbolType_eq (c d : Char) (hd : d ∈ ['=', '(', ')']) : symbolType c = [d] ↔ c = d := by
  simp only [List.mem_cons, List.not_mem_nil, or_false] at hd
  constructor
  · intro h
    unfold symbolType at h
    repeat' split at h
    all_goals (rcases hd with rfl | rfl | rfl <;> first | assumption | exact absurd h (by decide))
  · rintro rfl
    rcases hd with rfl | rfl | rfl <;> rfl

theorem type_symbol {x : Str} (h : isLexeme x) {d : Char} (hd : d ∈ ['=', '(', ')']) :
    (lexemeToken x).type = [d] ↔ x = [d] := by
  rcases h with h | ⟨c, hc, rfl⟩
  · constructor
    · intro e
      rcases type_word h with ⟨k, hk, -, e'⟩ | ⟨-, e'⟩
      · rw [e'] at e
        subst e
        simp only [List.mem_cons, List.not_mem_nil, or_false] at hd
        rcases hd with rfl | rfl | rfl <;> exact absurd hk (by decide)
      · rw [e'] at e
        simp only [List.mem_cons, List.not_mem_nil, or_false] at hd
        rcases hd with rfl | rfl | rfl <;> exact absurd e (by decide)
    · rintro rfl
      have := h.2 d (by simp)
      simp only [List.mem_cons, List.not_mem_nil, or_false] at hd
      rcases hd with rfl | rfl | rfl <;> exact absurd this (by decide)
  · rw [lexemeToken_symbol hc]
    simp only [List.cons.injEq, and_true]
    exact symbolType_eq c d hd

/-! ## Items -/

/-- The connective as an operator. -/
theorem parseLoop_link (j : Join) {l : JoinLink} (h : l.good) (toks : List Tok) :
    parseLoop true j (l.lexemes.map lexemeToken ++ toks) = parseLoop true
      { j with
        cond :=
          .infx j.cond (.logical l.conn.word)
            (.onClause { name := l.left } { name := l.right }) } toks := by
  have ht := token_conn h
  simp only [JoinLink.lexemes, List.map_cons, List.map_nil, List.cons_append, List.nil_append]
  rw [ht, token_name h.2.1, token_name h.2.2, token_equals, parseLoop.eq_def]
  cases l.conn <;> rfl

theorem parseLoop_chain (j : Join) (ls : List JoinLink) (h : ∀ l ∈ ls, l.good) (toks : List Tok) :
    parseLoop true j ((ls.flatMap JoinLink.lexemes).map lexemeToken ++ toks)
      = parseLoop true { j with cond := linkExpr j.cond ls } toks := by
  induction ls generalizing j with
  | nil => cases j; rfl
  | cons l ls ih =>
    rw [List.flatMap_cons, List.map_append, List.append_assoc,
      parseLoop_link j (h l List.mem_cons_self), ih _ fun m hm => h m (List.mem_cons_of_mem _ hm)]
    rfl

/-- What an item does to the join. -/
def applyItem (j : Join) : JoinItem → Join
  | .kind _ _ type => { j with type := type }
  | .table t _ => { j with table := { name := t } }
  | .cond a b ls => { j with cond := linkExpr (.onClause { name := a } { name := b }) ls }
  | _ => j

/-- Whether connectives are read after an item. -/
def Spec.JoinItem.isCond : JoinItem → Bool
  | .cond _ _ _ => true
  | _ => false

theorem parseLoop_item (ic : Bool) (j : Join) {i : JoinItem} (h : i.good) (toks : List Tok) :
    parseLoop ic j (i.lexemes.map lexemeToken ++ toks)
      = parseLoop i.isCond (applyItem j i) toks := by
  have hj : ∀ {w : Str}, spells w s%"JOIN" → lexemeToken w = ⟨Token.Join, w⟩ :=
    fun h => token_keyword h (by decide) ⟨by decide, by decide⟩
  have ho : ∀ {w : Str}, spells w s%"ON" → lexemeToken w = ⟨Token.On, w⟩ :=
    fun h => token_keyword h (by decide) ⟨by decide, by decide⟩
  cases i with
  | join w =>
    simp only [JoinItem.lexemes, List.map_cons, List.map_nil, hj h, List.cons_append,
      List.nil_append]
    rw [parseLoop.eq_def]
    cases ic <;> rfl
  | kind k w type =>
    obtain ⟨hk, hw⟩ := h
    simp only [JoinItem.lexemes, List.map_cons, List.map_nil, hj hw, List.cons_append,
      List.nil_append]
    rcases hk with ⟨hk, rfl⟩ | ⟨hk, rfl⟩ | ⟨hk, rfl⟩ <;>
    · rw [token_keyword hk (by decide) ⟨by decide, by decide⟩, parseLoop.eq_def]
      cases ic <;> rfl
  | table t o =>
    obtain ⟨ht, hw⟩ := h
    simp only [JoinItem.lexemes, List.map_cons, List.map_nil, ho hw, token_name ht,
      List.cons_append, List.nil_append]
    rw [parseLoop.eq_def]
    cases ic <;> rfl
  | cond a b ls =>
    obtain ⟨ha, hb, hl⟩ := h
    simp only [JoinItem.lexemes, List.map_cons,
      token_name ha, token_name hb, token_equals, List.cons_append, List.nil_append]
    have := parseLoop_chain { j with cond := .onClause { name := a } { name := b } } ls hl toks
    rw [parseLoop.eq_def]
    cases ic <;> exact this
  | on o =>
    simp only [JoinItem.lexemes, List.map_cons, List.map_nil, ho h, List.cons_append,
      List.nil_append]
    rw [parseLoop.eq_def]
    cases ic <;> rfl
  | paren p =>
    rcases h with rfl | rfl
    · rw [show JoinItem.lexemes (.paren s%"(") = [s%"("] from rfl, List.map_cons,
        lexemeToken_symbol ⟨by decide, by decide, by decide⟩, List.cons_append, parseLoop.eq_def]
      cases ic <;> rfl
    · rw [show JoinItem.lexemes (.paren s%")") = [s%")"] from rfl, List.map_cons,
        lexemeToken_symbol ⟨by decide, by decide, by decide⟩, List.cons_append, parseLoop.eq_def]
      cases ic <;> rfl

theorem parseLoop_items (ic : Bool) (j : Join) {items : List JoinItem} (h : ∀ i ∈ items, i.good)
    (toks : List Tok) :
    parseLoop ic j ((items.flatMap JoinItem.lexemes).map lexemeToken ++ toks)
      = parseLoop (endsInCond ic items) (items.foldl applyItem j) toks := by
  induction items generalizing ic j with
  | nil => rfl
  | cons i items ih =>
    rw [List.flatMap_cons, List.map_append, List.append_assoc,
      parseLoop_item ic j (h i List.mem_cons_self), ih _ _ fun k hk => h k (List.mem_cons_of_mem _ hk)]
    cases i <;> rfl

/-! ## The rest -/

/-- The result of the parser. -/
def verdictResult (j : Join) : JoinVerdict → Go (Option Join)
  | .accepted => .ok (some j)
  | .refused => .ok none
  | .crash => .error .index

theorem isKind_iff {x : Str} :
    isKind x ↔ spells x s%"INNER" ∨ spells x s%"LEFT" ∨ spells x s%"RIGHT" := by
  constructor
  · rintro ⟨t, ⟨h, -⟩ | ⟨h, -⟩ | ⟨h, -⟩⟩
    · exact .inl h
    · exact .inr (.inl h)
    · exact .inr (.inr h)
  · rintro (h | h | h)
    · exact ⟨_, .inl ⟨h, rfl⟩⟩
    · exact ⟨_, .inr (.inl ⟨h, rfl⟩)⟩
    · exact ⟨_, .inr (.inr ⟨h, rfl⟩)⟩

/-- The type of the token of a lexeme decides. -/
theorem types {x : Str} (h : isLexeme x) :
    ((lexemeToken x).type = Token.Literal ↔ isName x) ∧
    ((lexemeToken x).type = Token.And ↔ spells x s%"AND") ∧
    ((lexemeToken x).type = Token.Or ↔ spells x s%"OR") ∧
    ((lexemeToken x).type = Token.Join ↔ spells x s%"JOIN") ∧
    ((lexemeToken x).type = Token.Inner ↔ spells x s%"INNER") ∧
    ((lexemeToken x).type = Token.Left ↔ spells x s%"LEFT") ∧
    ((lexemeToken x).type = Token.Right ↔ spells x s%"RIGHT") ∧
    ((lexemeToken x).type = Token.On ↔ spells x s%"ON") ∧
    ((lexemeToken x).type = Token.Equals ↔ x = s%"=") ∧
    ((lexemeToken x).type = Token.LParen ↔ x = s%"(") ∧
    ((lexemeToken x).type = Token.RParen ↔ x = s%")") := by
  refine ⟨type_name h, ?_, ?_, ?_, ?_, ?_, ?_, ?_, ?_, ?_, ?_⟩
  iterate 7 exact type_keyword h (by decide) ⟨by decide, by decide⟩
  all_goals exact type_symbol h (by decide)

theorem parseLoop_rest {ic : Bool} {r : List Str} {v : JoinVerdict} (h : JoinRest ic r v)
    (hr : ∀ x ∈ r, isLexeme x) (j : Join) :
    parseLoop ic j (r.map lexemeToken) = verdictResult j v := by
  have hconn : ∀ {x : Str}, isConnective x →
      ((lexemeToken x).type = Token.And ∨ (lexemeToken x).type = Token.Or) := by
    rintro x (h | h)
    · rw [token_keyword h (by decide) ⟨by decide, by decide⟩]; exact .inl rfl
    · rw [token_keyword h (by decide) ⟨by decide, by decide⟩]; exact .inr rfl
  cases h with
  | done => rfl
  | other _ x r h1 h2 h3 h4 h5 h6 h7 =>
    obtain ⟨t1, t2, t3, t4, t5, t6, t7, t8, -, t10, t11⟩ := types (hr x List.mem_cons_self)
    rw [isKind_iff, not_or, not_or] at h2
    rw [List.map_cons, parseLoop.eq_def]
    simp only
    rw [if_neg ?_, if_neg (mt t4.1 h3), if_neg (mt t5.1 h2.1), if_neg (mt t6.1 h2.2.1),
      if_neg (mt t7.1 h2.2.2), if_neg (mt t1.1 h1), if_neg ?_]
    · rfl
    · simp only [Bool.or_eq_true, decide_eq_true_eq, t8, t10, t11]
      rintro ((h | h) | h)
      · exact h4 h
      · exact h5 h
      · exact h6 h
    · simp only [Bool.and_eq_true, Bool.or_eq_true, decide_eq_true_eq, t2, t3]
      rintro ⟨hi, h⟩
      exact h7 hi h
  | noJoin _ x r h1 h2 =>
    rw [isKind_iff] at h1
    cases r with
    | nil =>
      rcases h1 with h1 | h1 | h1 <;>
      · rw [List.map_cons, token_keyword h1 (by decide) ⟨by decide, by decide⟩, parseLoop.eq_def]
        cases ic <;> rfl
    | cons y r =>
      obtain ⟨-, -, -, t4, -⟩ := types (hr y (by simp))
      have hn := mt t4.1 (h2 y rfl)
      rcases h1 with h1 | h1 | h1 <;>
      · rw [List.map_cons, token_keyword h1 (by decide) ⟨by decide, by decide⟩, List.map_cons]
        generalize lexemeToken y = ty at hn
        rw [parseLoop.eq_def]
        cases ic <;> exact if_neg hn
  | noOn _ x r h1 h2 =>
    rw [List.map_cons, token_name h1]
    cases r with
    | nil =>
      rw [List.map_nil, parseLoop.eq_def]
      cases ic <;> rfl
    | cons y r =>
      obtain ⟨-, -, -, -, -, -, -, t8, t9, -⟩ := types (hr y (by simp))
      have hn := mt t8.1 (h2 y rfl).1
      have he := mt t9.1 (h2 y rfl).2
      rw [List.map_cons]
      generalize lexemeToken y = ty at hn he
      rw [parseLoop.eq_def]
      cases ic <;> exact (if_neg hn).trans (if_neg he)
  | noRight _ x r h1 h2 =>
    rw [List.map_cons, List.map_cons, token_name h1, token_equals]
    cases r with
    | nil =>
      rw [List.map_nil, parseLoop.eq_def]
      cases ic <;> rfl
    | cons y r =>
      obtain ⟨t1, -⟩ := types (hr y (by simp))
      have hn := mt t1.1 (h2 y rfl)
      rw [List.map_cons]
      generalize lexemeToken y = ty at hn
      rw [parseLoop.eq_def]
      cases ic <;> exact if_pos hn
  | linkNoLeft x r h1 h2 =>
    have hc := hconn h1
    rw [List.map_cons]
    generalize lexemeToken x = tx at hc
    cases r with
    | nil =>
      rw [List.map_nil, parseLoop.eq_def]
      simp only
      rw [if_pos (by simpa using hc)]
      rfl
    | cons y r =>
      obtain ⟨t1, -⟩ := types (hr y (by simp))
      have hn := mt t1.1 (h2 y rfl)
      rw [List.map_cons]
      generalize lexemeToken y = ty at hn
      rw [parseLoop.eq_def]
      simp only
      rw [if_pos (by simpa using hc), if_pos hn]
      rfl
  | linkNoEquals x a y r h1 ha hy =>
    have hc := hconn h1
    obtain ⟨-, -, -, -, -, -, -, -, t9, -⟩ := types (hr y (by simp))
    have hn := mt t9.1 hy
    rw [List.map_cons, List.map_cons, List.map_cons, token_name ha]
    generalize lexemeToken x = tx at hc
    generalize lexemeToken y = ty at hn
    rw [parseLoop.eq_def]
    simp only
    rw [if_pos (by simpa using hc), if_neg (by simp), if_pos hn]
    rfl
  | linkNoRight x a r h1 ha h2 =>
    have hc := hconn h1
    rw [List.map_cons, List.map_cons, List.map_cons, token_name ha, token_equals]
    generalize lexemeToken x = tx at hc
    cases r with
    | nil =>
      rw [List.map_nil, parseLoop.eq_def]
      simp only
      rw [if_pos (by simpa using hc), if_neg (by simp), if_neg (by simp)]
      rfl
    | cons y r =>
      obtain ⟨t1, -⟩ := types (hr y (by simp))
      have hn := mt t1.1 (h2 y rfl)
      rw [List.map_cons]
      generalize lexemeToken y = ty at hn
      rw [parseLoop.eq_def]
      simp only
      rw [if_pos (by simpa using hc), if_neg (by simp), if_neg (by simp), if_pos hn]
      rfl
  | linkEnds x a h1 ha =>
    have hc := hconn h1
    rw [List.map_cons, List.map_cons, List.map_nil, token_name ha]
    generalize lexemeToken x = tx at hc
    rw [parseLoop.eq_def]
    simp only
    rw [if_pos (by simpa using hc), if_neg (by simp)]
    rfl

/-! ## Every sequence of lexemes is items and a rest -/

/-- As many further comparisons as there are. -/
theorem links_exist (n : Nat) : ∀ xs : List Str, xs.length ≤ n →
    ∃ (ls : List JoinLink) (r : List Str), (∀ l ∈ ls, l.good) ∧
      xs = ls.flatMap JoinLink.lexemes ++ r ∧
      ((∀ y, r.head? = some y → ¬ isConnective y) ∨ ∃ v, JoinRest true r v) := by
  induction n with
  | zero =>
    intro xs hn
    cases List.length_eq_zero_iff.1 (Nat.le_zero.1 hn)
    exact ⟨[], [], by simp, rfl, .inl (by simp)⟩
  | succ n ih =>
    intro xs hn
    match xs, hn with
    | [], _ => exact ⟨[], [], by simp, rfl, .inl (by simp)⟩
    | x :: xs, hn =>
      by_cases hx : isConnective x
      · match xs, hn with
        | [], _ => exact ⟨[], [x], by simp, rfl, .inr ⟨_, .linkNoLeft x [] hx (by simp)⟩⟩
        | a :: xs, hn =>
          by_cases ha : isName a
          · match xs, hn with
            | [], _ => exact ⟨[], [x, a], by simp, rfl, .inr ⟨_, .linkEnds x a hx ha⟩⟩
            | e :: xs, hn =>
              by_cases he : e = s%"="
              · subst he
                match xs, hn with
                | [], _ => exact ⟨[], [x, a, s%"="], by simp, rfl,
                    .inr ⟨_, .linkNoRight x a [] hx ha (by simp)⟩⟩
                | b :: xs, hn =>
                  by_cases hb : isName b
                  · obtain ⟨ls, r, hl, rfl, hr⟩ := ih xs (by simp only [List.length_cons] at hn; omega)
                    rcases hx with hx | hx
                    · exact ⟨⟨x, .and, a, b⟩ :: ls, r, by simpa using ⟨⟨hx, ha, hb⟩, hl⟩, rfl, hr⟩
                    · exact ⟨⟨x, .or, a, b⟩ :: ls, r, by simpa using ⟨⟨hx, ha, hb⟩, hl⟩, rfl, hr⟩
                  · exact ⟨[], _, by simp, rfl, .inr ⟨_, .linkNoRight x a (b :: xs) hx ha (by simpa using hb)⟩⟩
              · exact ⟨[], _, by simp, rfl, .inr ⟨_, .linkNoEquals x a e xs hx ha he⟩⟩
          · exact ⟨[], _, by simp, rfl, .inr ⟨_, .linkNoLeft x (a :: xs) hx (by simpa using ha)⟩⟩
      · exact ⟨[], x :: xs, by simp, rfl, .inl (by simpa using hx)⟩

theorem items_exist (n : Nat) : ∀ (ic : Bool) (xs : List Str), xs.length ≤ n →
    (ic = true → ∀ y, xs.head? = some y → ¬ isConnective y) →
    ∃ (items : List JoinItem) (r : List Str) (v : JoinVerdict), (∀ i ∈ items, i.good) ∧
      xs = items.flatMap JoinItem.lexemes ++ r ∧ JoinRest (endsInCond ic items) r v := by
  induction n with
  | zero =>
    intro ic xs hn _
    cases List.length_eq_zero_iff.1 (Nat.le_zero.1 hn)
    exact ⟨[], [], _, by simp, rfl, .done _⟩
  | succ n ih =>
    intro ic xs hn hic
    have step : ∀ (i : JoinItem) (ys : List Str), i.good → i.isCond = false → i.lexemes ≠ [] →
        xs = i.lexemes ++ ys →
        ∃ (items : List JoinItem) (r : List Str) (v : JoinVerdict), (∀ i ∈ items, i.good) ∧
          xs = items.flatMap JoinItem.lexemes ++ r ∧ JoinRest (endsInCond ic items) r v := by
      intro i ys hi hc hne e
      have hlen : ys.length ≤ n := by
        have := List.length_pos_iff.2 hne
        rw [e, List.length_append] at hn
        omega
      obtain ⟨items, r, v, h1, h2, h3⟩ := ih false ys hlen (by simp)
      refine ⟨i :: items, r, v, by simpa using ⟨hi, h1⟩, ?_, ?_⟩
      · rw [e, h2, List.flatMap_cons, List.append_assoc]
      · cases i <;> first | exact h3 | cases hc
    match xs, hn, hic, step with
    | [], _, _, _ => exact ⟨[], [], _, by simp, rfl, .done _⟩
    | x :: xs, hn, hic, step =>
      by_cases hj : spells x s%"JOIN"
      · exact step (.join x) xs hj rfl (by simp [JoinItem.lexemes]) rfl
      by_cases ho : spells x s%"ON"
      · exact step (.on x) xs ho rfl (by simp [JoinItem.lexemes]) rfl
      by_cases hl : x = s%"("
      · exact step (.paren x) xs (.inl hl) rfl (by simp [JoinItem.lexemes]) rfl
      by_cases hp : x = s%")"
      · exact step (.paren x) xs (.inr hp) rfl (by simp [JoinItem.lexemes]) rfl
      by_cases hk : isKind x
      · match xs, step with
        | [], _ => exact ⟨[], [x], _, by simp, rfl, .noJoin _ x [] hk (by simp)⟩
        | y :: xs, step =>
          by_cases hy : spells y s%"JOIN"
          · obtain ⟨type, hk⟩ := hk
            exact step (.kind x y type) xs ⟨hk, hy⟩ rfl (by simp [JoinItem.lexemes]) rfl
          · exact ⟨[], _, _, by simp, rfl, .noJoin _ x (y :: xs) hk (by simpa using hy)⟩
      by_cases hn' : isName x
      · match xs, hn, step with
        | [], _, _ => exact ⟨[], [x], _, by simp, rfl, .noOn _ x [] hn' (by simp)⟩
        | y :: xs, hn, step =>
          by_cases hy : spells y s%"ON"
          · exact step (.table x y) xs ⟨hn', hy⟩ rfl (by simp [JoinItem.lexemes]) rfl
          by_cases he : y = s%"="
          · subst he
            match xs, hn with
            | [], _ => exact ⟨[], _, _, by simp, rfl, .noRight _ x [] hn' (by simp)⟩
            | b :: xs, hn =>
              by_cases hb : isName b
              · obtain ⟨ls, r, h1, e, h3⟩ := links_exist xs.length xs (Nat.le_refl _)
                have hlen : r.length ≤ n := by
                  simp only [e, List.length_cons, List.length_append] at hn
                  omega
                rcases h3 with h3 | ⟨v, h3⟩
                · obtain ⟨items, r', v, h4, h5, h6⟩ := ih true r hlen (fun _ => h3)
                  refine ⟨.cond x b ls :: items, r', v, by simpa using ⟨⟨hn', hb, h1⟩, h4⟩, ?_, h6⟩
                  rw [e, h5]
                  simp [JoinItem.lexemes]
                · refine ⟨[.cond x b ls], r, v, by simpa using ⟨hn', hb, h1⟩, ?_, h3⟩
                  rw [e]
                  simp [JoinItem.lexemes]
              · exact ⟨[], _, _, by simp, rfl, .noRight _ x (b :: xs) hn' (by simpa using hb)⟩
          · exact ⟨[], _, _, by simp, rfl, .noOn _ x (y :: xs) hn' (by simpa using ⟨hy, he⟩)⟩
      · exact ⟨[], _, _, by simp, rfl, .other _ x xs hn' hk hj ho hl hp fun h => hic h x rfl⟩

/-! ## The join of the items -/

theorem foldl_type (items : List JoinItem) (j : Join) :
    (items.foldl applyItem j).type = typeOfItems items j.type := by
  induction items generalizing j with
  | nil => rfl
  | cons i items ih =>
    rw [List.foldl_cons, ih]
    cases i <;> rfl

theorem foldl_table (items : List JoinItem) (j : Join) (t : Str) (h : j.table = { name := t }) :
    (items.foldl applyItem j).table = { name := tableOfItems items t } := by
  induction items generalizing j t with
  | nil => exact h
  | cons i items ih =>
    rw [List.foldl_cons]
    cases i with
    | table t' o => exact ih _ t' rfl
    | _ => exact ih _ t h

theorem foldl_cond (items : List JoinItem) (j : Join) (c : Option (Cond (Str × Str)))
    (h : onTree j.cond = c ∧ (c = none → j.cond = .nil)) :
    onTree (items.foldl applyItem j).cond = condOfItems items c ∧
      (condOfItems items c = none → (items.foldl applyItem j).cond = .nil) := by
  induction items generalizing j c with
  | nil => exact h
  | cons i items ih =>
    rw [List.foldl_cons]
    cases i with
    | cond a b ls =>
      exact ih _ _ ⟨onTree_link _ _ (by simp [onTree]) ls, fun h => by cases h⟩
    | _ => exact ih _ c h

end Verif
