import Verif.Lemmas.Lexer
import Verif.Model.ParseJoin
import Verif.Spec.JoinText

/-!
# Parsing join strings
-/

namespace Verif
open Spec

theorem wordRune_of_toUpper {c : Char} (h : wordRune c.toUpper = true) : wordRune c = true := by
  by_cases hc : 'a'.toNat ≤ c.toNat ∧ c.toNat ≤ 'z'.toNat
  · rw [← isWordRune_eq]
    unfold isWordRune isLetter
    have h1 : decide ('a'.toNat ≤ c.toNat) = true := by simp only [decide_eq_true_eq]; exact hc.1
    have h2 : decide (c.toNat ≤ 'z'.toNat) = true := by simp only [decide_eq_true_eq]; exact hc.2
    rw [h1, h2]
    rfl
  · rw [← upperRune_eq, upperRune, if_neg hc] at h
    exact h

theorem isWord_of_spells {w k : Str} (hs : spells w k) (hk : isWord k) : isWord w := by
  constructor
  · rintro rfl
    exact hk.1 hs.symm
  · intro c hc
    refine wordRune_of_toUpper (hk.2 _ ?_)
    rw [← hs]
    exact List.mem_map_of_mem hc

theorem token_keyword {w k : Str} (hs : spells w k) (hk : k ∈ sqlKeywords) (hw : isWord k) :
    lexemeToken w = ⟨k, w⟩ := by
  have := isWord_of_spells hs hw
  rw [lexemeToken_word this, lookup_keyword this.2 hk hs]

theorem token_name {w : Str} (h : isName w) : lexemeToken w = ⟨Token.Literal, w⟩ := by
  rw [lexemeToken_word h.1, lookup_name h]

theorem token_equals : lexemeToken s%"=" = ⟨Token.Equals, s%"="⟩ := by
  rw [lexemeToken_symbol ⟨by decide, by decide, by decide⟩]; rfl

theorem token_conn {l : JoinLink} (h : l.good) : lexemeToken l.word = ⟨l.conn.word, l.word⟩ := by
  have h1 := h.1
  cases hc : l.conn with
  | and => rw [hc] at h1; exact token_keyword h1 (by decide) ⟨by decide, by decide⟩
  | or => rw [hc] at h1; exact token_keyword h1 (by decide) ⟨by decide, by decide⟩

/-- The parsed condition. -/
def linkExpr (acc : Expr) : List JoinLink → Expr
  | [] => acc
  | l :: ls =>
    linkExpr
      (.infx acc (.logical l.conn.word) (.onClause { name := l.left } { name := l.right })) ls

theorem parseLoop_links (j : Join) (ls : List JoinLink) (h : ∀ l ∈ ls, l.good) :
    parseLoop true j ((ls.flatMap JoinLink.lexemes).map lexemeToken)
      = .ok (some { j with cond := linkExpr j.cond ls }) := by
  induction ls generalizing j with
  | nil => show parseLoop true j [] = _; rw [parseLoop]; cases j; rfl
  | cons l ls ih =>
    have hl := h l List.mem_cons_self
    have ht := token_conn hl
    rw [List.flatMap_cons, List.map_append]
    show parseLoop true j (lexemeToken l.word :: lexemeToken l.left :: lexemeToken s%"=" ::
      lexemeToken l.right :: (ls.flatMap JoinLink.lexemes).map lexemeToken) = _
    rw [ht, token_name hl.2.1, token_name hl.2.2, token_equals, parseLoop.eq_def]
    have ih' := ih
      { j with
        cond :=
          .infx j.cond (.logical l.conn.word)
            (.onClause { name := l.left } { name := l.right }) }
      (fun m hm => h m (List.mem_cons_of_mem _ hm))
    cases hc : l.conn with
    | and => rw [hc] at ih'; rw [linkExpr, hc]; exact ih'
    | or => rw [hc] at ih'; rw [linkExpr, hc]; exact ih'

theorem parseLoop_cond (j : Join) (a b : Str) (ha : isName a) (hb : isName b) (ls : List JoinLink)
    (h : ∀ l ∈ ls, l.good) :
    parseLoop false j (([a, s%"=", b] ++ ls.flatMap JoinLink.lexemes).map lexemeToken)
      = .ok (some { j with cond := linkExpr (.onClause { name := a } { name := b }) ls }) := by
  show parseLoop false j (lexemeToken a :: lexemeToken s%"=" :: lexemeToken b ::
      (ls.flatMap JoinLink.lexemes).map lexemeToken) = _
  rw [token_name ha, token_name hb, token_equals, parseLoop.eq_def]
  exact parseLoop_links { j with cond := .onClause { name := a } { name := b } } ls h

theorem parseLoop_head {head : List Str} {type table : Str} (hh : JoinHead head type table)
    (toks : List Tok) :
    parseLoop false { type := Types.InnerJoin, table := { name := [] }, cond := .nil }
        (head.map lexemeToken ++ toks)
      = parseLoop false { type := type, table := { name := table }, cond := .nil } toks := by
  have hj : ∀ {w : Str}, spells w s%"JOIN" → lexemeToken w = ⟨Token.Join, w⟩ :=
    fun h => token_keyword h (by decide) ⟨by decide, by decide⟩
  have ho : ∀ {w : Str}, spells w s%"ON" → lexemeToken w = ⟨Token.On, w⟩ :=
    fun h => token_keyword h (by decide) ⟨by decide, by decide⟩
  cases hh with
  | kind k j _ o _ hk hsj ht hso =>
    simp only [List.map_cons, List.map_nil, hj hsj, ho hso, token_name ht, List.cons_append,
      List.nil_append]
    rcases hk with ⟨hk, rfl⟩ | ⟨hk, rfl⟩ | ⟨hk, rfl⟩
    · rw [token_keyword hk (by decide) ⟨by decide, by decide⟩, parseLoop.eq_def]
      show parseLoop false _ (_ :: _ :: _) = _
      rw [parseLoop.eq_def]; rfl
    · rw [token_keyword hk (by decide) ⟨by decide, by decide⟩, parseLoop.eq_def]
      show parseLoop false _ (_ :: _ :: _) = _
      rw [parseLoop.eq_def]; rfl
    · rw [token_keyword hk (by decide) ⟨by decide, by decide⟩, parseLoop.eq_def]
      show parseLoop false _ (_ :: _ :: _) = _
      rw [parseLoop.eq_def]; rfl
  | plain j _ o hsj ht hso =>
    simp only [List.map_cons, List.map_nil, hj hsj, ho hso, token_name ht, List.cons_append,
      List.nil_append]
    rw [parseLoop.eq_def]
    show parseLoop false _ (_ :: _ :: _) = _
    rw [parseLoop.eq_def]; rfl
  | table _ o ht hso =>
    simp only [List.map_cons, List.map_nil, ho hso, token_name ht, List.cons_append,
      List.nil_append]
    rw [parseLoop.eq_def]; rfl
  | on o hso =>
    simp only [List.map_cons, List.map_nil, ho hso, List.cons_append, List.nil_append]
    rw [parseLoop.eq_def]; rfl
  | bare => rfl

theorem parseJoin_text {head : List Str} {type table : Str} (hh : JoinHead head type table)
    {a b : Str} (ha : isName a) (hb : isName b) {ls : List JoinLink} (h : ∀ l ∈ ls, l.good)
    {text : Str} (ht : Spelled (head ++ [a, s%"=", b] ++ ls.flatMap JoinLink.lexemes) text) :
    parseJoin text = .ok (some ⟨type, { name := table },
      linkExpr (.onClause { name := a } { name := b }) ls⟩) := by
  unfold parseJoin
  rw [lexAll_spelled ht, List.append_assoc, List.map_append, parseLoop_head hh,
    parseLoop_cond _ a b ha hb ls h]

end Verif
