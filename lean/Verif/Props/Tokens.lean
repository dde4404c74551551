import Verif.Lemmas.TokenText
import Verif.Props.Placeholders
import Verif.Props.Sample

/-!
# C53 and C54: values and names cannot change the structure of a statement
-/

set_option linter.unusedSectionVars false

namespace Verif.Props
open Spec

section
variable [GoRuntime]

theorem query_tokens (b : Bool) (s : Stmt) (h : TameStmt b s) (q : Str) (args : List Val)
    (hq : s.write.query = .ok (q, args)) :
    args = arguments (layout (uncommented s)) ∧
    tokens b q = some (pieceTokens b (fun i _ => [.param (numeral i)]) 1 (layout (uncommented s))
      ++ if (commentOf s).isEmpty then [] else [.sym ';']) := by
  obtain ⟨-, hr⟩ := query_ok hq
  cases hr
  refine ⟨(arguments_uncommented s).symm, ?_⟩
  rw [render_uncommented]
  exact tokens_comment (lexes_render (joined_layout _) h.1 (fun v _ k => lexes_dollar k v) 1) h.2

omit [GoRuntime] in
theorem params_comment (c : Str) :
    params (if c.isEmpty then [] else [.sym ';']) = [] := by split <;> rfl

/-! ## C53 -/

/-- C53. The values of a statement cannot change its structure. If the names of a statement contain
no double quote and its raw fragments are self-contained, then a SQL tokenizer reads the text of
`String` as the text of `Query` with the `i`-th placeholder replaced by the tokens of the literal of
the `i`-th value alone: one string literal for a string whatever it contains, a number for an
integer and so on. There is one placeholder for each value, in order. (Without backslash escapes,
strings with a quote are excepted by `TameVal`; see C11.) -/
theorem C53_values (b : Bool) (s : Stmt) (h : TameStmt b s) (q : Str) (args : List Val) (t : Str)
    (hq : s.write.query = .ok (q, args)) (ht : s.write.string = .ok t)
    (hv : ∀ v ∈ args, TameVal b v) :
    ∃ ts lits, tokens b q = some ts ∧ tokens b t = some (fillTokens lits ts) ∧
      params ts = (List.range' 1 args.length).map numeral ∧
      lits.length = args.length ∧
      ∀ (i : Nat) v l, args[i]? = some v → lits[i]? = some l →
        LiteralShape b v l ∧ ∃ x, formatValue v = .ok x ∧ tokens b x = some l := by
  obtain ⟨ha, htoks⟩ := query_tokens b s h q args hq
  have hpar : params (pieceTokens b (fun i _ => [.param (numeral i)]) 1 (layout (uncommented s))
      ++ if (commentOf s).isEmpty then [] else [.sym ';'])
      = (List.range' 1 args.length).map numeral := by
    rw [params_append, params_comment, List.append_nil, params_pieces (joined_layout _) h.1, ha]
  refine ⟨_, args.map fun v => (tokens b (literal 1 v)).getD [], htoks, ?_, hpar, by simp, ?_⟩
  · have hr := rawText_render ((stmt_string s t).1 ht).2 1
    subst hr
    rw [render_uncommented]
    have hl : ∀ v ∈ arguments (layout (uncommented s)), ∀ k : Nat,
        Lexes b (literal k v) ((tokens b (literal 1 v)).getD []) := by
      intro v hm k
      obtain ⟨o, ho, -⟩ := lexes_literal k (hv v (ha ▸ hm))
      have : tokens b (literal 1 v) = some o := ho.tokens
      rw [this]
      exact ho
    rw [tokens_comment (lexes_render (joined_layout _) h.1 hl 1) h.2, fillTokens_append,
      fillTokens_none _ (params_comment _)]
    congr 2
    refine (fill_pieces (joined_layout _) h.1 0 ?_).symm
    intro i v hi
    rw [← ha] at hi
    simp [hi]
  · intro i v l hi hl
    simp only [List.getElem?_map, hi, Option.map_some, Option.some.injEq] at hl
    have hm : v ∈ args := List.mem_of_getElem? hi
    obtain ⟨o, ho, hs⟩ := lexes_literal 1 (hv v hm)
    rw [ho.tokens] at hl
    cases hl
    refine ⟨hs, ?_⟩
    rcases C03_renderings_agree s with ⟨p, _, h1, -⟩ | ⟨frags, as, -, h1, -, h3⟩
    · rw [hq] at h1; cases h1
    · rw [hq] at h1
      cases h1
      rcases h3 with ⟨lits, h4, -⟩ | ⟨w, -, p, r, -, h5⟩
      · have : formatValue v ∈ args.map formatValue := List.mem_map_of_mem hm
        rw [h4] at this
        obtain ⟨x, -, hx⟩ := List.mem_map.1 this
        refine ⟨x, hx.symm, ?_⟩
        have hx' : literal 1 v = x := by rw [literal, ← hx]
        rw [← hx']
        exact ho.tokens
      · rw [ht] at h5; cases h5

/-- C53 for `NamedQuery`: its tokens are those of `Query` with `$i` replaced by `:arg_i`. -/
theorem C53_named (b : Bool) (s : Stmt) (h : TameStmt b s) (q : Str) (args : List Val) (t : Str)
    (m : Option (List (Str × Val)))
    (hq : s.write.query = .ok (q, args)) (ht : s.write.namedQuery = .ok (t, m)) :
    ∃ ts, tokens b q = some ts ∧ tokens b t = some
      (fillTokens ((List.range' 1 args.length).map
        fun i => [.sym ':', .word (s%"arg_" ++ numeral i)]) ts) := by
  obtain ⟨ha, htoks⟩ := query_tokens b s h q args hq
  refine ⟨_, htoks, ?_⟩
  obtain ⟨-, hr⟩ := namedQuery_ok ht
  cases hr
  rw [render_uncommented, tokens_comment (lexes_render (joined_layout _) h.1
    (fun v _ k => lexes_colon k v) 1) h.2, fillTokens_append, fillTokens_none _ (params_comment _)]
  congr 2
  refine (fill_pieces (what := fun k _ => [.sym ':', .word (s%"arg_" ++ numeral k)])
    (joined_layout _) h.1 0 ?_).symm
  intro i v hi
  rw [← ha] at hi
  have hlt : i < args.length := (List.getElem?_eq_some_iff.1 hi).1
  simp [List.getElem?_range' hlt]

/-! ## C54 -/

/-- C54. What the tokens of `Query` are: those of its fixed text and raw fragments, for each name
the quoted names between its dots, `NULL` for nil and one placeholder for each value. The comment
is not seen, except for the semicolon before it. -/
theorem C54_tokens (b : Bool) (s : Stmt) (h : TameStmt b s) (q : Str) (args : List Val)
    (hq : s.write.query = .ok (q, args)) :
    tokens b q = some (pieceTokens b (fun i _ => [.param (numeral i)]) 1 (layout (uncommented s))
      ++ if (commentOf s).isEmpty then [] else [.sym ';']) :=
  (query_tokens b s h q args hq).2

/-- C54. The names of a statement cannot change its structure: if the pieces of two statements
differ only in the names (not in how many parts a name has), then a SQL tokenizer reads their
`Query` texts as the same tokens, except for what is between the double quotes. -/
theorem C54_names (b : Bool) (s s' : Stmt) (h : TameStmt b s) (h' : TameStmt b s')
    (q q' : Str) (args args' : List Val)
    (hq : s.write.query = .ok (q, args)) (hq' : s'.write.query = .ok (q', args'))
    (hsame : SameButNames (layout (uncommented s)) (layout (uncommented s')))
    (hc : commentOf s = commentOf s') :
    ∃ ts ts', tokens b q = some ts ∧ tokens b q' = some ts' ∧
      ts.map SqlTok.anonymous = ts'.map SqlTok.anonymous := by
  refine ⟨_, _, (query_tokens b s h q args hq).2, (query_tokens b s' h' q' args' hq').2, ?_⟩
  rw [List.map_append, List.map_append, hc, sameButNames_tokens hsame]

/-- C54. A name made of dot-separated parts of printable ASCII without double quote and backslash
is read as quoted names whose contents are exactly these parts. -/
theorem C54_name (b : Bool) (parts : List Str) (hne : parts ≠ [])
    (h : ∀ p ∈ parts, ∀ c ∈ p, ordinary c) :
    tokens b (quote (List.intercalate s%"." parts)) =
      some ((parts.map fun p => [SqlTok.name p]).intersperse [.sym '.']).flatten := by
  have hq : '"' ∉ List.intercalate ['.'] parts := by
    clear hne
    induction parts with
    | nil => simp [List.intercalate]
    | cons p l ih =>
      have hp : '"' ∉ p := fun hc => (h p List.mem_cons_self _ hc).2.2.1 rfl
      have ih := ih fun x hx => h x (List.mem_cons_of_mem _ hx)
      cases l with
      | nil => simpa [List.intercalate] using hp
      | cons r l =>
        have e : List.intercalate ['.'] (p :: r :: l)
            = p ++ '.' :: List.intercalate ['.'] (r :: l) := by
          simp [List.intercalate, List.intersperse]
        rw [e]
        simp only [List.mem_append, List.mem_cons, not_or]
        exact ⟨hp, by decide, ih⟩
  rw [(lexes_quote hq).tokens,
    splitOn_intercalate hne fun p hp hc => (h p hp _ hc).2.2.2.2 rfl]
  congr 1
  clear hq hne
  induction parts with
  | nil => rfl
  | cons p l ih =>
    have hp : p.flatMap quoteRune = p :=
      flatMap_plain fun c hc => ordinary_plain (h p List.mem_cons_self c hc)
    cases l with
    | nil => simp [nameTokens, hp]
    | cons r l =>
      rw [nameTokens, hp, ih fun x hx => h x (List.mem_cons_of_mem _ hx)]
      simp

end

/-! ### The hypotheses can be met -/

section
attribute [local instance] Runtime.sample

/-- A condition with a hostile value. -/
def hostileCondition : SelectStmt :=
  { SelectStmt.zero with
    exprs := [.column { name := s%"a.id" }]
    tables := [.table { name := s%"a" }]
    whr := .infx (.ident (.str s%"n")) (.comparison s%"=") (.value (.str s%"'; DROP TABLE a; --")) }

example : TameStmt true (.select hostileCondition) := by decide

example : (Stmt.select hostileCondition).write.query =
    .ok (s%"SELECT \"a\".\"id\" FROM \"a\" WHERE (\"n\" = $1)", [.str s%"'; DROP TABLE a; --"]) := by rfl

example : (Stmt.select hostileCondition).write.string =
    .ok (s%"SELECT \"a\".\"id\" FROM \"a\" WHERE (\"n\" = '\\'; DROP TABLE a; --')") := by rfl

/-- What C53 says of it. -/
example : tokens true s%"SELECT \"a\".\"id\" FROM \"a\" WHERE (\"n\" = $1)" =
    some [.word s%"SELECT", .name s%"a", .sym '.', .name s%"id", .word s%"FROM", .name s%"a",
      .word s%"WHERE", .sym '(', .name s%"n", .sym '=', .param s%"1", .sym ')'] := by decide +kernel

example : tokens true s%"SELECT \"a\".\"id\" FROM \"a\" WHERE (\"n\" = '\\'; DROP TABLE a; --')" =
    some [.word s%"SELECT", .name s%"a", .sym '.', .name s%"id", .word s%"FROM", .name s%"a",
      .word s%"WHERE", .sym '(', .name s%"n", .sym '=', .literal s%"\\'; DROP TABLE a; --",
      .sym ')'] := by decide +kernel

/-- Without backslash escapes (`standard_conforming_strings`, which is the default) the same text has
further tokens, so that C53 needs `TameVal`; see C11. -/
example : tokens false s%"SELECT '\\'; DROP TABLE a; --'" =
    some [.word s%"SELECT", .literal s%"\\", .sym ';', .word s%"DROP", .word s%"TABLE", .word s%"a",
      .sym ';'] := by decide +kernel

/-- The same statement over other names. -/
def otherNames : SelectStmt :=
  { SelectStmt.zero with
    exprs := [.column { name := s%"x; --.y'" }]
    tables := [.table { name := s%"$1" }]
    whr := .infx (.ident (.str s%"OR 1=1")) (.comparison s%"=") (.value (.str s%"'; DROP TABLE a; --")) }

example : TameStmt true (.select otherNames) := by decide

example : SameButNames (layout (uncommented (.select hostileCondition)))
    (layout (uncommented (.select otherNames))) := by
  repeat
    first
    | exact SameButNames.nil
    | refine SameButNames.cons _ ?_
    | refine SameButNames.name (by decide) ?_

/-- C54_name for a name of two parts. -/
example : tokens true (quote s%"a.b c") = some [.name s%"a", .sym '.', .name s%"b c"] :=
  C54_name true [s%"a", s%"b c"] (by simp) (by decide)

end

end Verif.Props
