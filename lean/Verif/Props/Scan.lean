import Verif.Lemmas.ScanText
import Verif.Props.Sample

/-!
# C06, C07 and C48: what a SQL scanner sees
-/

set_option linter.unusedSectionVars false

namespace Verif.Props
open Spec

section
variable [GoRuntime]

/-! ## C06 -/

/-- C06, for statements whose sub-selects have no comment and whose own comment is on one line.
If the names of the statement contain no double quote and its raw fragments are self-contained,
then a SQL scanner reading the text of `Query` finds exactly the placeholders `$1`, ..., `$n` in
this order, where `n` is the number of arguments, and ends outside of quotes and parentheses (in
the comment, if there is one). This holds whether or not a backslash escapes.

Missing: comments of sub-selects and comments with a line break, for which it is false
(`C06_false`). -/
theorem C06_scanner_partial (b : Bool) (s : Stmt) (h : TameStmt b s) (text : Str) (args : List Val)
    (hq : s.write.query = .ok (text, args)) :
    EndsWith b text ((List.range' 1 args.length).map numeral) ∧
    (commentOf s = [] → ClosedWith b text ((List.range' 1 args.length).map numeral)) := by
  obtain ⟨-, hr⟩ := query_ok hq
  cases hr
  have hc := closed_layout (uncommented s)
    (good_dollar fun p hp => tame_butComments (h.1 p hp)) (noNote_of_tame h.1) 1
  rw [arguments_uncommented] at hc
  have e : (List.range' 1 (arguments (layout s)).length).flatMap (fun k => [numeral k])
      = (List.range' 1 (arguments (layout s)).length).map numeral := by
    rw [List.map_eq_flatMap]
  rw [e] at hc
  rw [render_uncommented]
  refine ⟨endsWith_comment hc h.2, fun h0 => ?_⟩
  rw [h0, commentText]
  simpa using hc

/-- The same for an expression on its own. -/
theorem C06_expression (b : Bool) (e : Expr) (h : ∀ p ∈ exprL e, Tame b p) (text : Str)
    (args : List Val) (hq : e.write.query = .ok (text, args)) :
    ClosedWith b text ((List.range' 1 args.length).map numeral) := by
  obtain ⟨-, hr⟩ := denotes_query (denotes_expr e) hq
  cases hr
  have := (runs_expr e (good_dollar (fun p hp => tame_butComments (h p hp)))).1
      (noNote_of_tame h) 1 0 []
  rw [← List.map_eq_flatMap] at this
  simpa [ClosedWith, Scan.init] using this

/-! ## C07 -/

/-- C07, under the same conditions: what a statement opens it closes. In the text of `NamedQuery`
and, when the values can be written as literals, in the text of `String`, all quotes and all
parentheses are closed at the end, no parenthesis is closed that has not been opened, and no
placeholder of another kind has appeared.

Missing: comments of sub-selects and comments with a line break, for which it is false
(`C07_false`). -/
theorem C07_closed_partial (b : Bool) (s : Stmt) (h : TameStmt b s) :
    (∀ text args, s.write.query = .ok (text, args) → ∃ ps, EndsWith b text ps ∧
      (commentOf s = [] → ClosedWith b text ps)) ∧
    (∀ text args, s.write.namedQuery = .ok (text, args) → EndsWith b text [] ∧
      (commentOf s = [] → ClosedWith b text [])) ∧
    ((∀ v ∈ arguments (layout s), TameVal b v) →
      ∀ text, s.write.string = .ok text → EndsWith b text [] ∧
        (commentOf s = [] → ClosedWith b text [])) := by
  refine ⟨fun text args hq => ⟨_, C06_scanner_partial b s h text args hq⟩, ?_, ?_⟩
  · intro text args hq
    obtain ⟨-, hr⟩ := namedQuery_ok hq
    cases hr
    have hc := closed_layout (uncommented s)
      (good_colon fun p hp => tame_butComments (h.1 p hp)) (noNote_of_tame h.1) 1
    simp only [flatMap_none] at hc
    rw [render_uncommented]
    refine ⟨endsWith_comment hc h.2, fun h0 => ?_⟩
    rw [h0, commentText]
    simpa using hc
  · intro hv text ht
    have hr := rawText_render ((stmt_string s text).1 ht).2 1
    cases hr
    have hc := closed_layout (uncommented s)
      (good_literal (fun p hp => tame_butComments (h.1 p hp))
        (by rw [arguments_uncommented]; exact hv)) (noNote_of_tame h.1) 1
    simp only [flatMap_none] at hc
    rw [render_uncommented]
    refine ⟨endsWith_comment hc h.2, fun h0 => ?_⟩
    rw [h0, commentText]
    simpa using hc

/-- C07 for an expression on its own, in each of the three renderings. -/
theorem C07_expression (b : Bool) (e : Expr) (h : ∀ p ∈ exprL e, Tame b p) :
    (∀ text args, e.write.query = .ok (text, args) →
      ∃ ps, ClosedWith b text ps) ∧
    (∀ text args, e.write.namedQuery = .ok (text, args) → SelfContained b text) ∧
    ((∀ v ∈ arguments (exprL e), TameVal b v) →
      ∀ text, e.write.string = .ok text → SelfContained b text) := by
  refine ⟨fun text args hq => ⟨_, C06_expression b e h text args hq⟩, ?_, ?_⟩
  · intro text args hq
    obtain ⟨-, hr⟩ := denotes_namedQuery (denotes_expr e) hq
    cases hr
    have := (runs_expr e (good_colon (fun p hp => tame_butComments (h p hp)))).1
      (noNote_of_tame h) 1 0 []
    simp only [flatMap_none] at this
    exact this
  · intro hv text ht
    have hr := rawText_render ((expr_string e text).1 ht).2 1
    cases hr
    have := (runs_expr e (good_literal (fun p hp => tame_butComments (h p hp)) hv)).1
      (noNote_of_tame h) 1 0 []
    simp only [flatMap_none] at this
    exact this

/-! ## C48 -/

/-- C48, first half: setting a comment adds `; -- ` and the comment at the end of each rendering
and changes nothing else, neither the text before it nor the arguments. -/
theorem C48_appended (s : Stmt) (hc : commentOf s ≠ []) :
    (∀ text args, s.write.query = .ok (text, args) ↔
      ∃ body, (uncommented s).write.query = .ok (body, args) ∧
        text = body ++ (s%"; -- " ++ commentOf s)) ∧
    (∀ text args, s.write.namedQuery = .ok (text, args) ↔
      ∃ body, (uncommented s).write.namedQuery = .ok (body, args) ∧
        text = body ++ (s%"; -- " ++ commentOf s)) ∧
    (∀ text, s.write.string = .ok text ↔
      ∃ body, (uncommented s).write.string = .ok body ∧
        text = body ++ (s%"; -- " ++ commentOf s)) := by
  have hok : okStmt (uncommented s) = okStmt s := by
    cases s with
    | select s => cases s; rfl
    | insert i => rfl
    | update u => rfl
    | delete d => rfl
  have hct : commentText (commentOf s) = s%"; -- " ++ commentOf s := by
    rw [commentText, if_neg (by simpa using hc)]
  refine ⟨?_, ?_, ?_⟩
  · intro text args
    constructor
    · intro hq
      obtain ⟨h1, h2⟩ := query_ok hq
      cases h2
      refine ⟨_, query_eq _ (hok.trans h1) |>.trans (by rw [arguments_uncommented]), ?_⟩
      rw [render_uncommented, hct]
    · rintro ⟨body, hq, rfl⟩
      obtain ⟨h1, h2⟩ := query_ok hq
      cases h2
      rw [query_eq _ (hok.symm.trans h1), render_uncommented, hct, arguments_uncommented]
  · intro text args
    constructor
    · intro hq
      obtain ⟨h1, h2⟩ := namedQuery_ok hq
      cases h2
      refine ⟨_, namedQuery_eq _ (hok.trans h1) |>.trans (by rw [arguments_uncommented]), ?_⟩
      rw [render_uncommented, hct]
    · rintro ⟨body, hq, rfl⟩
      obtain ⟨h1, h2⟩ := namedQuery_ok hq
      cases h2
      rw [namedQuery_eq _ (hok.symm.trans h1), render_uncommented, hct, arguments_uncommented]
  · intro text
    have hraw : ∀ t, rawText (commentL (commentOf s)) = .ok t ↔ t = s%"; -- " ++ commentOf s := by
      intro t
      rw [commentL, if_neg (by simpa using hc)]
      simp only [rawText, Piece.rawText, Except.ok.injEq, List.append_nil]
      exact eq_comm
    rw [stmt_string, layout_uncommented]
    constructor
    · rintro ⟨h1, h2⟩
      obtain ⟨x, y, hx, hy, rfl⟩ := rawText_append_inv h2
      refine ⟨x, (stmt_string _ _).2 ⟨hok.trans h1, hx⟩, ?_⟩
      rw [(hraw y).1 hy]
    · rintro ⟨body, hb, rfl⟩
      obtain ⟨h1, h2⟩ := (stmt_string _ _).1 hb
      exact ⟨hok.symm.trans h1, rawText_append_ok h2 ((hraw _).2 rfl)⟩

/-- C48, second half, for statements with quote-free names and self-contained raw fragments and
comments on one line: a reader who skips comments sees the query without the comment, followed by a
semicolon and a space.

Missing: comments with a line break, for which it is false (`C48_false`). -/
theorem C48_invisible_partial (b : Bool) (s : Stmt) (h : TameStmt b s) (hc : commentOf s ≠ [])
    (text : Str) (args : List Val) (hq : s.write.query = .ok (text, args)) :
    ∃ body, (uncommented s).write.query = .ok (body, args) ∧
      visible b .init text = visible b .init body ++ s%"; " := by
  obtain ⟨body, h1, rfl⟩ := ((C48_appended s hc).1 text args).1 hq
  refine ⟨body, h1, visible_comment (ps := (List.range' 1 args.length).map numeral) ?_ h.2⟩
  have h0 : uncommented (uncommented s) = uncommented s := by
    cases s with
    | select s => cases s; rfl
    | insert i => rfl
    | update u => rfl
    | delete d => rfl
  have h0' : commentOf (uncommented s) = [] := by
    cases s with
    | select s => cases s; rfl
    | insert i => rfl
    | update u => rfl
    | delete d => rfl
  refine (C06_scanner_partial b (uncommented s) ⟨by rw [h0]; exact h.1, ?_⟩ body args h1).2 h0'
  rw [h0']
  exact ⟨by simp, by simp⟩

private theorem closed_body {b : Bool} {s : Stmt}
    (h : ∀ p ∈ layout (uncommented s), Tame b p) {body : Str} {args : List Val}
    (hq : (uncommented s).write.query = .ok (body, args)) :
    ClosedWith b body ((List.range' 1 args.length).map numeral) := by
  have h0 : uncommented (uncommented s) = uncommented s := by
    cases s with
    | select s => cases s; rfl
    | insert i => rfl
    | update u => rfl
    | delete d => rfl
  have h0' : commentOf (uncommented s) = [] := by
    cases s with
    | select s => cases s; rfl
    | insert i => rfl
    | update u => rfl
    | delete d => rfl
  refine (C06_scanner_partial b (uncommented s) ⟨by rw [h0]; exact h, ?_⟩ body args hq).2 h0'
  rw [h0']
  exact ⟨by simp, by simp⟩

/-- C48, exactly, for every comment: a reader who skips comments sees the query without the comment,
a semicolon and a space, and then everything of the comment from its first line break on, read as
SQL. -/
theorem C48_exact (b : Bool) (s : Stmt) (h : ∀ p ∈ layout (uncommented s), Tame b p)
    (hc : commentOf s ≠ []) (text : Str) (args : List Val)
    (hq : s.write.query = .ok (text, args)) :
    ∃ body, (uncommented s).write.query = .ok (body, args) ∧
      visible b .init text
        = visible b .init body ++ s%"; " ++ visible b .init (fromLineBreak (commentOf s)) := by
  obtain ⟨body, h1, rfl⟩ := ((C48_appended s hc).1 text args).1 hq
  exact ⟨body, h1, visible_comment_exact (closed_body h h1)⟩

/-- C48: the comment is invisible exactly when it is on one line. -/
theorem C48_invisible_iff (b : Bool) (s : Stmt) (h : ∀ p ∈ layout (uncommented s), Tame b p)
    (hc : commentOf s ≠ []) (text body : Str) (args : List Val)
    (hq : s.write.query = .ok (text, args))
    (hb : (uncommented s).write.query = .ok (body, args)) :
    visible b .init text = visible b .init body ++ s%"; " ↔
      '\n' ∉ commentOf s ∧ '\r' ∉ commentOf s := by
  obtain ⟨body', h1, h2⟩ := C48_exact b s h hc text args hq
  rw [hb] at h1
  cases h1
  rw [h2, List.append_right_eq_self]
  refine Iff.trans ?_ (oneLine_iff (commentOf s)).symm
  constructor
  · intro hv
    cases hf : fromLineBreak (commentOf s) with
    | nil => rfl
    | cons x r =>
      have hx : x = '\n' ∨ x = '\r' := by
        have := List.head?_dropWhile_not (fun c => c ≠ '\n' && c ≠ '\r') (commentOf s)
        rw [show (commentOf s).dropWhile (fun c => c ≠ '\n' && c ≠ '\r') = x :: r from hf] at this
        simp only [List.head?_cons, Bool.and_eq_false_iff] at this
        simpa using this
      rw [hf] at hv
      rcases hx with rfl | rfl <;> cases b <;> exact absurd hv (by simp [visible, Scan.step, Scan.start, Scan.init, wordStart])
  · intro hf
    rw [hf]
    rfl

/-- C06, exactly, for a comment with a line break: the scanner finds the placeholders `$1`, ...,
`$n` of the arguments and then those of the comment after its first line break, and it ends in the
state in which it ends after this part of the comment alone. So the placeholders are not matched by
the arguments exactly when the comment brings some of its own. -/
theorem C06_comment (b : Bool) (s : Stmt) (h : ∀ p ∈ layout (uncommented s), Tame b p)
    (hc : fromLineBreak (commentOf s) ≠ []) (text : Str) (args : List Val)
    (hq : s.write.query = .ok (text, args)) :
    scan b .init text = { scan b .init (fromLineBreak (commentOf s)) with
      found := (List.range' 1 args.length).map numeral ++
        (scan b .init (fromLineBreak (commentOf s))).found } := by
  have hne : commentOf s ≠ [] := by
    intro e
    rw [e] at hc
    exact hc rfl
  obtain ⟨body, h1, rfl⟩ := ((C48_appended s hne).1 text args).1 hq
  exact scan_comment_exact (closed_body h h1) hc

/-! ## C06 and C07, exactly, for comments of sub-selects -/

/-- C06, exactly, for statements with comments anywhere, that of the statement itself and those of its
sub-selects. The pieces `A` of the statement before its first comment `c` are read as they should be,
with all their placeholders; then the scanner is in a comment, inside of the `e` parentheses that `A`
has opened, and reads `c` and everything after it in this state. -/
theorem C06_exact (b : Bool) (s : Stmt) (h : ∀ p ∈ layout s, TameButComments b p) (text : Str)
    (args : List Val) (hq : s.write.query = .ok (text, args)) (A B : List Piece) (c : Str)
    (hl : layout s = A ++ .note c :: B) (hn : ∀ x, .note x ∉ A) :
    ∃ before after e, text = before ++ s%"; -- " ++ c ++ after ∧
      ClosedUpTo b before e ((List.range' 1 (arguments A).length).map numeral) ∧
      args = arguments A ++ arguments B ∧
      scan b .init text
        = scan b ⟨.comment, e, (List.range' 1 (arguments A).length).map numeral⟩ (c ++ after) := by
  obtain ⟨-, hr⟩ := query_ok hq
  cases hr
  obtain ⟨e, h1, h2, h3⟩ := scan_note (good_dollar h) hl hn
  rw [← List.map_eq_flatMap] at h1 h3
  exact ⟨_, _, e, h2, h1, by rw [hl, arguments_append]; rfl, h3⟩

/-- So in a text on one line all that comes after the first comment is hidden. Exactly the
placeholders before it are seen, and C06 holds exactly if the comment is outside of all parentheses
and no argument comes after it. -/
theorem C06_hidden (b : Bool) (s : Stmt) (h : ∀ p ∈ layout s, TameButComments b p) (text : Str)
    (args : List Val) (hq : s.write.query = .ok (text, args)) (A B : List Piece) (c : Str)
    (hl : layout s = A ++ .note c :: B) (hn : ∀ x, .note x ∉ A) (ho : OneLine text) :
    ∃ e, scan b .init text = ⟨.comment, e, (List.range' 1 (arguments A).length).map numeral⟩ ∧
      (EndsWith b text ((List.range' 1 args.length).map numeral) ↔ e = 0 ∧ arguments B = []) := by
  obtain ⟨before, after, e, rfl, -, rfl, h2⟩ := C06_exact b s h text args hq A B c hl hn
  have h3 := oneLine_tail ho
  rw [scan_oneLine h3] at h2
  refine ⟨e, h2, ?_⟩
  rw [endsWith_inComment h2]
  refine and_congr_right fun _ => ?_
  rw [List.length_append]
  constructor
  · intro he
    have := congrArg List.length he
    simp only [List.length_map, List.length_range'] at this
    exact List.length_eq_zero_iff.1 (by omega)
  · intro he
    rw [he]
    simp

/-- C07, exactly, for a text on one line: from the first comment on everything is hidden, so that the
`e` parentheses that are open before it stay open; the text is closed exactly if there are none. -/
theorem C07_exact (b : Bool) (s : Stmt) (h : ∀ p ∈ layout s, TameButComments b p)
    (A B : List Piece) (c : Str) (hl : layout s = A ++ .note c :: B) (hn : ∀ x, .note x ∉ A) :
    (∀ text args, s.write.namedQuery = .ok (text, args) → OneLine text →
      ∃ before after e, text = before ++ s%"; -- " ++ c ++ after ∧ ClosedUpTo b before e [] ∧
        scan b .init text = ⟨.comment, e, []⟩ ∧ (EndsWith b text [] ↔ e = 0)) ∧
    ((∀ v ∈ arguments (layout s), TameVal b v) →
      ∀ text, s.write.string = .ok text → OneLine text →
        ∃ before after e, text = before ++ s%"; -- " ++ c ++ after ∧ ClosedUpTo b before e [] ∧
          scan b .init text = ⟨.comment, e, []⟩ ∧ (EndsWith b text [] ↔ e = 0)) := by
  have key : ∀ ph : Nat → Val → Str, AllGood b ph (fun _ => []) (layout s) →
      OneLine (render ph 1 (layout s)) →
      ∃ before after e, render ph 1 (layout s) = before ++ s%"; -- " ++ c ++ after ∧
        ClosedUpTo b before e [] ∧ scan b .init (render ph 1 (layout s)) = ⟨.comment, e, []⟩ ∧
        (EndsWith b (render ph 1 (layout s)) [] ↔ e = 0) := by
    intro ph hg ho
    obtain ⟨e, h1, h2, h3⟩ := scan_note hg hl hn
    simp only [flatMap_none] at h1 h3
    rw [h2] at ho
    rw [scan_oneLine (oneLine_tail ho)] at h3
    refine ⟨_, _, e, h2, h1, h3, ?_⟩
    rw [endsWith_inComment h3]
    simp
  constructor
  · intro text args hq ho
    obtain ⟨-, hr⟩ := namedQuery_ok hq
    cases hr
    exact key _ (good_colon h) ho
  · intro hv text ht ho
    have hr := rawText_render ((stmt_string s text).1 ht).2 1
    cases hr
    exact key _ (good_literal h hv) ho

end

/-! ## Where the properties fail, and samples -/

section
attribute [local instance] Runtime.sample

/-- `SELECT "id" FROM "a" WHERE ("id" IN (SELECT "id" FROM "b"; -- note) AND ("x" = 1))`, built with
the API. -/
def noted : Go SelectStmt := do
  let sub ← select [.val (.str s%"id")]
  let sub ← sub.From [.val (.str s%"b")]
  let sub ← sub.Comment s%"note"
  let c ← Ident.In (.str s%"id") [.selectB sub]
  let d ← Ident.Equal (.str s%"x") (.val (.int .int 1))
  let b ← select [.val (.str s%"id")]
  let b ← b.From [.val (.str s%"a")]
  let b ← b.Where c
  b.And d

/-- The text of `noted`: the comment of the sub-select swallows the end of the query. -/
theorem noted_text : (do let s ← noted; (Stmt.select s).write.query) =
    .ok (s%"SELECT \"id\" FROM \"a\" WHERE ((\"id\" IN (SELECT \"id\" FROM \"b\"; -- note)) AND (\"x\" = $1))",
      [.int .int 1]) := by rfl

private def notNote : Piece → Bool
  | .note _ => false
  | _ => true

set_option maxRecDepth 4000 in
/-- `noted` meets the hypotheses of `C06_exact`, `C06_hidden` and `C07_exact`. -/
example (b : Bool) : ∃ s A B, noted = .ok s ∧ layout (.select s) = A ++ .note s%"note" :: B ∧
    (∀ x, .note x ∉ A) ∧ (∀ p ∈ layout (.select s), TameButComments b p) ∧
    (∀ v ∈ arguments (layout (.select s)), TameVal b v) ∧ arguments B = [.int .int 1] ∧
    OneLine s%"SELECT \"id\" FROM \"a\" WHERE ((\"id\" IN (SELECT \"id\" FROM \"b\"; -- note)) AND (\"x\" = $1))" := by
  have key : ∀ s, noted = .ok s → layout (.select s) = (layout (.select s)).takeWhile notNote
      ++ .note s%"note" :: ((layout (.select s)).dropWhile notNote).drop 1 ∧
      ((layout (.select s)).takeWhile notNote).all notNote = true ∧
      (∀ p ∈ layout (.select s), TameButComments b p) ∧
      arguments (layout (.select s)) = [.int .int 1] ∧
      arguments (((layout (.select s)).dropWhile notNote).drop 1) = [.int .int 1] := by
    intro s hs
    cases hs
    refine ⟨rfl, rfl, ?_, rfl, rfl⟩
    cases b <;> decide
  obtain ⟨h1, h2, h3, h4, h5⟩ := key _ rfl
  refine ⟨_, _, _, rfl, h1, ?_, h3, ?_, h5, by unfold OneLine; decide +kernel⟩
  · intro x hx
    exact absurd (List.all_eq_true.1 h2 _ hx) (by simp [notNote])
  · rw [h4]
    intro v hv
    cases List.mem_singleton.1 hv
    exact trivial

set_option maxRecDepth 4000 in
/-- C06 is false in general: all names of this statement, built with the API, are free of double
quotes and all raw fragments (there are only operators) self-contained, but a scanner does not see
the placeholder of its argument, because it is hidden by the comment of the sub-select. -/
theorem C06_false (b : Bool) : ∃ s, noted = .ok s ∧
    (∀ p ∈ layout (.select s), TameButComments b p) ∧
    ∃ text v, (Stmt.select s).write.query = .ok (text, [v]) ∧
      (scan b .init text).found = [] ∧ ¬ EndsWith b text [numeral 1] := by
  refine ⟨_, rfl, ?_, _, _, noted_text, ?_, ?_⟩
  · cases b <;> decide
  · cases b <;> rfl
  · cases b <;> decide

set_option maxRecDepth 4000 in
/-- C07 is false in general: in the same statement three parentheses stay open. -/
theorem C07_false (b : Bool) : ∃ s, noted = .ok s ∧
    (∀ p ∈ layout (.select s), TameButComments b p) ∧
    ∃ text v, (Stmt.select s).write.query = .ok (text, [v]) ∧
      (scan b .init text).depth = 3 ∧ ∀ ps, ¬ EndsWith b text ps := by
  refine ⟨_, rfl, ?_, _, _, noted_text, ?_, ?_⟩
  · cases b <;> decide
  · cases b <;> rfl
  · intro ps h
    have hd : ∀ s : Scan, s.depth = 3 → s.settle.depth = 3 := by
      intro s hs
      obtain ⟨m, d, fs⟩ := s
      cases m with
      | dollar ds => simp only [Scan.settle]; split <;> exact hs
      | _ => exact hs
    have h2 : (scan b .init s%"SELECT \"id\" FROM \"a\" WHERE ((\"id\" IN (SELECT \"id\" FROM \"b\"; -- note)) AND (\"x\" = $1))").depth = 3 := by
      cases b <;> rfl
    rcases h with h | h
    · have := hd _ h2
      rw [h] at this
      cases this
    · rw [h] at h2
      cases h2

/-- `DELETE FROM "a"` with a comment that contains a line break. -/
def breaking : Go DeleteStmt := do
  let b ← delete (.val (.str s%"a"))
  b.Comment s%"x\nDROP TABLE a"

/-- C48 is false in general: what follows a line break in the comment is not a comment. A reader
who skips comments sees a second statement. -/
theorem C48_false (b : Bool) : ∃ s, breaking = .ok s ∧
    (∀ p ∈ layout (uncommented (.delete s)), Tame b p) ∧
    ∃ text, (Stmt.delete s).write.query = .ok (text, []) ∧
      visible b .init text = s%"DELETE FROM \"a\"; \nDROP TABLE a" := by
  refine ⟨_, rfl, ?_, s%"DELETE FROM \"a\"; -- x\nDROP TABLE a", rfl, ?_⟩
  · cases b <;> decide
  · cases b <;> rfl

/-- The hypotheses of `C48_exact` and `C06_comment` are met by this statement. -/
example (b : Bool) (s : DeleteStmt) (hs : breaking = .ok s) :
    (∀ p ∈ layout (uncommented (.delete s)), Tame b p) ∧
    fromLineBreak (commentOf (.delete s)) = s%"\nDROP TABLE a" := by
  cases hs
  cases b <;> decide

/-! ### The hypotheses can be met -/

example : TameStmt true (.select Sample.users) := by decide
example : TameStmt false (.select Sample.users) := by decide
example : TameStmt true (.insert Sample.insertUsers) := by decide
example : TameStmt true (.update Sample.updateUsers) := by decide
example : TameStmt true (.delete Sample.deleteUsers) ∧ commentOf (.delete Sample.deleteUsers) ≠ [] := by
  decide

/-- Names may contain placeholders, parentheses, quotes of literals and comment signs, raw fragments
may contain literals. -/
def spiky : SelectStmt :=
  { SelectStmt.zero with
    exprs := [.column { name := s%"$1 (--" }, .raw s%"lower('it''s ($2')"]
    tables := [.table { name := s%"t'(" }]
    whr := .infx (.ident (.str s%"a")) (.comparison s%"=") (.value (.str s%"o'neil ("))
    comment := s%"it's ($3" }

example : TameStmt true (.select spiky) ∧ TameStmt false (.select spiky) := by decide

/-- Its text, with exactly one placeholder for the scanner. -/
example : (Stmt.select spiky).write.query =
    .ok (s%"SELECT \"$1 (--\", lower('it''s ($2') FROM \"t'(\" WHERE (\"a\" = $1); -- it's ($3",
      [.str s%"o'neil ("]) := by rfl

/-- All values of the samples can be written as literals, if backslashes escape. -/
example : ∀ v ∈ arguments (layout (.select Sample.users)), TameVal true v := by
  intro v hv
  have : arguments (layout (.select Sample.users))
    = [.int .int 18, .bool true, .str s%"o'neil"] := rfl
  rw [this] at hv
  simp only [List.mem_cons, List.not_mem_nil, or_false] at hv
  rcases hv with rfl | rfl | rfl <;> simp [TameVal]

/-- Without backslash escapes the literal of `o'neil` would not be closed. -/
example : ¬ SelfContained false (literal 1 (.str s%"o'neil")) := by decide

/-- A condition over any nesting is closed: here with three levels. -/
example : ∀ p ∈ exprL Sample.users.whr, Tame true p := by decide

end

end Verif.Props
