import Verif.Lemmas.CondText
import Verif.Lemmas.JoinCond
import Verif.Lemmas.JoinGrammar

/-!
# C41-C44: join strings
-/

set_option linter.unusedSectionVars false

namespace Verif.Props
open Spec

/-- C41. A well-formed join string, with any spacing and any case of its keywords, is parsed
to the type of join and the table it names, and to exactly its comparisons and connectives, in
their order, grouped from the left. -/
theorem C41_well_formed {head : List Str} {type table : Str} (hh : JoinHead head type table)
    {a b : Str} (ha : isName a) (hb : isName b) {ls : List JoinLink} (hls : ∀ l ∈ ls, l.good)
    {text : Str} (ht : Spelled (head ++ [a, s%"=", b] ++ ls.flatMap JoinLink.lexemes) text) :
    ∃ j, parseJoin text = .ok (some j) ∧ j.type = type ∧ j.table = { name := table } ∧
      onTree j.cond
        = some (leftTree (.atom (a, b)) (ls.map fun l => (l.conn, (l.left, l.right)))) := by
  refine ⟨_, parseJoin_text hh ha hb hls ht, rfl, rfl, ?_⟩
  exact onTree_link _ _ (by simp [onTree]) ls

/-- The lexemes `left jOIN t on a.x = b OR c = d` spelled with odd spacing. -/
example : ∃ j, parseJoin s%"left  jOIN t on\ta.x=b\n OR c =d " = .ok (some j) ∧
    j.type = s%"LEFT JOIN" ∧ j.table = { name := s%"t" } ∧
    onTree j.cond = some (.or (.atom (s%"a.x", s%"b")) (.atom (s%"c", s%"d"))) := by
  have hn : ∀ x ∈ [s%"t", s%"a.x", s%"b", s%"c", s%"d"], isName x := by
    intro x hx
    simp only [List.mem_cons, List.not_mem_nil, or_false] at hx
    rcases hx with rfl | rfl | rfl | rfl | rfl <;> exact ⟨⟨by decide, by decide⟩, by decide⟩
  have hk : ∀ x ∈ [s%"left", s%"jOIN", s%"on", s%"OR"], isWord x := by
    intro x hx
    simp only [List.mem_cons, List.not_mem_nil, or_false] at hx
    rcases hx with rfl | rfl | rfl | rfl <;> exact ⟨by decide, by decide⟩
  have hw : ∀ x, isWord x → isLexeme x := fun x h => .inl h
  refine C41_well_formed (text := s%"left  jOIN t on\ta.x=b\n OR c =d ")
    (.kind s%"left" s%"jOIN" s%"t" s%"on" s%"LEFT JOIN"
      (.inr (.inl ⟨by decide, rfl⟩)) (by decide) (hn _ (by simp)) (by decide))
    (hn s%"a.x" (by simp)) (hn s%"b" (by simp)) (ls := [⟨s%"OR", .or, s%"c", s%"d"⟩]) ?_ ?_
  · intro l hl
    rw [List.mem_singleton.1 hl]
    exact ⟨by decide, hn _ (by simp), hn _ (by simp)⟩
  · refine Spelled.more [] s%"left" _ _ (by decide) (hw _ (hk _ (by simp))) ?_
      (by rintro - c h; cases h; rfl)
    refine Spelled.more s%"  " s%"jOIN" _ s%" t on\ta.x=b\n OR c =d " (by decide)
      (hw _ (hk _ (by simp))) ?_ (by rintro - c h; cases h; rfl)
    refine Spelled.more s%" " s%"t" _ s%" on\ta.x=b\n OR c =d " (by decide)
      (hw _ (hn _ (by simp)).1) ?_ (by rintro - c h; cases h; rfl)
    refine Spelled.more s%" " s%"on" _ s%"\ta.x=b\n OR c =d " (by decide)
      (hw _ (hk _ (by simp))) ?_ (by rintro - c h; cases h; rfl)
    refine Spelled.more s%"\t" s%"a.x" _ s%"=b\n OR c =d " (by decide)
      (hw _ (hn _ (by simp)).1) ?_ (by rintro - c h; cases h; rfl)
    refine Spelled.more [] s%"=" _ s%"b\n OR c =d " (by decide)
      (.inr ⟨'=', ⟨by decide, by decide, by decide⟩, rfl⟩) ?_
      (by intro h; exact absurd (h.2 '=' (by simp)) (by decide))
    refine Spelled.more [] s%"b" _ s%"\n OR c =d " (by decide)
      (hw _ (hn _ (by simp)).1) ?_ (by rintro - c h; cases h; rfl)
    refine Spelled.more s%"\n " s%"OR" _ s%" c =d " (by decide)
      (hw _ (hk _ (by simp))) ?_ (by rintro - c h; cases h; rfl)
    refine Spelled.more s%" " s%"c" _ s%" =d " (by decide)
      (hw _ (hn _ (by simp)).1) ?_ (by rintro - c h; cases h; rfl)
    refine Spelled.more s%" " s%"=" _ s%"d " (by decide)
      (.inr ⟨'=', ⟨by decide, by decide, by decide⟩, rfl⟩) ?_
      (by intro h; exact absurd (h.2 '=' (by simp)) (by decide))
    exact Spelled.more [] s%"d" _ s%" " (by decide) (hw _ (hn _ (by simp)).1)
      (.done _ (by decide)) (by rintro - c h; cases h; rfl)

theorem atoms_leftTree {α : Type} (t : Cond α) (l : List (Conn × α)) :
    (leftTree t l).atoms = t.atoms ++ l.map (·.2) := by
  induction l generalizing t with
  | nil => simp [leftTree]
  | cons x l ih =>
    obtain ⟨c, a⟩ := x
    rw [leftTree, ih]
    cases c <;> simp [Cond.join, Cond.atoms]

section
variable [GoRuntime]

/-- C41/C42. The condition of a well-formed join string is rendered to a text without
arguments which, read with SQL precedence, is the left-grouped tree of the comparisons. -/
theorem C42_rendered {head : List Str} {type table : Str} (hh : JoinHead head type table)
    {a b : Str} (ha : isName a) (hb : isName b) {ls : List JoinLink} (hls : ∀ l ∈ ls, l.good)
    {text : Str} (ht : Spelled (head ++ [a, s%"=", b] ++ ls.flatMap JoinLink.lexemes) text)
    (parts : Str → List Str) (hp : ∀ x ∈ a :: b :: ls.flatMap (fun l => [l.left, l.right]),
      dotted x (parts x)) :
    ∃ j sql, parseJoin text = .ok (some j) ∧ j.cond.write.query = .ok (sql, []) ∧
      readCond sql = some (leftTree (.atom ⟨.name (parts a), s%"=", .name (parts b)⟩)
        (ls.map fun l => (l.conn, ⟨.name (parts l.left), s%"=", .name (parts l.right)⟩))) := by
  have hname : ∀ l ∈ ls, dotted l.left (parts l.left) ∧ dotted l.right (parts l.right) := by
    intro l hl
    constructor
    · exact hp _ (List.mem_cons_of_mem _ (List.mem_cons_of_mem _
        (List.mem_flatMap.2 ⟨l, hl, by simp⟩)))
    · exact hp _ (List.mem_cons_of_mem _ (List.mem_cons_of_mem _
        (List.mem_flatMap.2 ⟨l, hl, by simp⟩)))
  refine ⟨_, render dollar 1 (exprL (linkExpr (.onClause { name := a } { name := b }) ls)),
    parseJoin_text hh ha hb hls ht, ?_, ?_⟩
  · have hok := okE_linkExpr (.onClause { name := a } { name := b }) ls rfl
      (by simp [blank, ha.1.1, hb.1.1]) (fun l hl => ⟨(hls l hl).2.1.1.1, (hls l hl).2.2.1.1⟩)
    rw [expr_query _ hok.1, arguments_linkExpr _ _ (arguments_on _ _)]
  · refine readCond_shows (shows_links
      (fun l => ⟨.name (parts l.left), s%"=", .name (parts l.right)⟩) ls _ _ (arguments_on _ _) ?_ ?_)
    · exact shows_on (hp a (by simp)) (hp b (by simp))
    · intro l hl
      exact shows_on (hname l hl).1 (hname l hl).2

end

example : dotted s%"users.id" [s%"users", s%"id"] := ⟨rfl, by decide, by decide⟩

/-! ## C42 -/

theorem leftTree_flat {α : Type} (a : α) (l : List (Conn × α)) (h : noAndAfterOr (l.map (·.1)))
    (ν : α → Truth) : (leftTree (.atom a) l).eval ν = flatEval ν (ν a) l := by
  rw [eval_leftTree]; exact leftEval_flat ν l h _

example : noAndAfterOr [.and, .and, .or, .or] ∧ ¬ noAndAfterOr [.and, .or, .and] := by
  simp [noAndAfterOr]

theorem leftTree_criterion {α : Type} (a : α) (l : List (Conn × α)) (hnd : (a :: l.map (·.2)).Nodup) :
    (∀ ν, (leftTree (.atom a) l).eval ν = flatEval ν (ν a) l) ↔ noAndAfterOr (l.map (·.1)) := by
  refine ⟨fun h => ?_, fun h ν => leftTree_flat a l h ν⟩
  refine Classical.byContradiction fun hn => ?_
  obtain ⟨l1, b, m, c, l3, hl, hand⟩ := split_and_after_or l hn
  classical
  let ν : α → Truth := fun x => if x ∈ a :: l1.map (·.2) then .yes else .no
  have hnd' : ((a :: l1.map (·.2)) ++ (b :: (m.map (·.2) ++ c :: l3.map (·.2)))).Nodup := by
    rw [hl] at hnd
    simpa using hnd
  have hno : ∀ x ∈ b :: (m.map (·.2) ++ c :: l3.map (·.2)), ν x = .no := by
    intro x hx
    have := (List.nodup_append.1 hnd').2.2
    refine if_neg fun hx' => ?_
    exact this x hx' x hx rfl
  have h1 := h ν
  have ha : ν a = .yes := if_pos List.mem_cons_self
  rw [eval_leftTree] at h1
  have hflat : flatEval ν (ν a) l = .yes := by
    rw [ha, hl]
    refine flatEval_yes ν l1 _ b (fun x hx => ⟨hand x hx, ?_⟩)
    exact if_pos (List.mem_cons_of_mem _ (List.mem_map_of_mem hx))
  have hleft : leftEval ν ((Cond.atom a).eval ν) l = .no := by
    have hsplit : l = (l1 ++ (.or, b) :: m) ++ (.and, c) :: l3 := by rw [hl]; simp
    rw [hsplit, leftEval_append, leftEval]
    have hc : ν c = .no := hno c (by simp)
    rw [hc]
    have hand : ∀ t : Truth, t.and .no = .no := by intro t; cases t <;> rfl
    rw [hand]
    exact leftEval_no ν l3 (fun x hx => hno x.2 (by
      refine List.mem_cons_of_mem _ (List.mem_append_right _ (List.mem_cons_of_mem _ ?_))
      exact List.mem_map_of_mem hx))
  rw [hflat, hleft] at h1
  cases h1

section
variable [GoRuntime]

/-- The comparison `x = y` of two names. -/
def onNames (parts : Str → List Str) (x y : Str) : Comparison :=
  ⟨.name (parts x), s%"=", .name (parts y)⟩

/-- The text is a well-formed join string on the comparison of `a` and `b` and those of `ls`, of which
the names have these parts. -/
structure JoinString (text a b : Str) (ls : List JoinLink) (parts : Str → List Str) : Prop where
  spelled : ∃ head type table, JoinHead head type table ∧
    Spelled (head ++ [a, s%"=", b] ++ ls.flatMap JoinLink.lexemes) text
  left : isName a
  right : isName b
  links : ∀ l ∈ ls, l.good
  names : ∀ x ∈ a :: b :: ls.flatMap (fun l => [l.left, l.right]), dotted x (parts x)

/-- What is sent for the condition of the join is read, with SQL precedence, as `t`. -/
def SentCondition (text : Str) (t : Cond Comparison) : Prop :=
  ∃ j sql, parseJoin text = .ok (some j) ∧ j.cond.write.query = .ok (sql, []) ∧
    readCond sql = some t

theorem sentCondition_unique {text : Str} {t u : Cond Comparison} (h : SentCondition text t)
    (h' : SentCondition text u) : t = u := by
  obtain ⟨j, sql, h1, h2, h3⟩ := h
  obtain ⟨j', sql', h1', h2', h3'⟩ := h'
  rw [h1] at h1'; cases h1'
  rw [h2] at h2'; cases h2'
  rw [h3] at h3'; cases h3'
  rfl

theorem joinString_sent {text a b : Str} {ls : List JoinLink} {parts : Str → List Str}
    (h : JoinString text a b ls parts) :
    SentCondition text (leftTree (.atom (onNames parts a b))
      (ls.map fun l => (l.conn, onNames parts l.left l.right))) := by
  obtain ⟨head, type, table, hh, hs⟩ := h.spelled
  exact C42_rendered hh h.left h.right h.links hs parts h.names

/-- C41. The condition that is sent has all comparisons of the string, in their order, and no others. -/
theorem C41_nothing_lost {text a b : Str} {ls : List JoinLink} {parts : Str → List Str}
    (h : JoinString text a b ls parts) :
    ∃ t, SentCondition text t ∧
      t.atoms = onNames parts a b :: ls.map fun l => onNames parts l.left l.right := by
  refine ⟨_, joinString_sent h, ?_⟩
  rw [atoms_leftTree]
  simp [Cond.atoms]

/-- C42, what holds: when no `AND` comes after an `OR`, the condition that is sent has the value that
SQL gives to the string, for every assignment of SQL truth values to its comparisons. What is missing
from C42: strings where an `AND` comes after an `OR` (there C42 is false, see `C42_criterion`). -/
theorem C42_partial {text a b : Str} {ls : List JoinLink} {parts : Str → List Str}
    (h : JoinString text a b ls parts) (ho : noAndAfterOr (ls.map (·.conn))) :
    ∃ t, SentCondition text t ∧ ∀ ν, t.eval ν = flatEval ν (ν (onNames parts a b))
      (ls.map fun l => (l.conn, onNames parts l.left l.right)) := by
  refine ⟨_, joinString_sent h, fun ν => leftTree_flat _ _ ?_ ν⟩
  simpa [Function.comp_def] using ho

/-- C42, exactly, for pairwise different comparisons: the condition that is sent has the SQL value
under all assignments if and only if no `AND` comes after an `OR`. -/
theorem C42_criterion {text a b : Str} {ls : List JoinLink} {parts : Str → List Str}
    (h : JoinString text a b ls parts)
    (hnd : (onNames parts a b :: ls.map fun l => onNames parts l.left l.right).Nodup) :
    (∃ t, SentCondition text t ∧ ∀ ν, t.eval ν = flatEval ν (ν (onNames parts a b))
      (ls.map fun l => (l.conn, onNames parts l.left l.right))) ↔
    noAndAfterOr (ls.map (·.conn)) := by
  refine ⟨fun ⟨t, ht, hv⟩ => ?_, C42_partial h⟩
  cases sentCondition_unique ht (joinString_sent h)
  have := (leftTree_criterion (onNames parts a b)
    (ls.map fun l => (l.conn, onNames parts l.left l.right)) (by simpa [Function.comp_def] using hnd)).1 hv
  simpa [Function.comp_def] using this

/-- `JOIN t ON a=b AND c=d OR a=d`: an `OR` after an `AND`. -/
example : JoinString s%"JOIN t ON a=b AND c=d OR a=d" s%"a" s%"b"
    [⟨s%"AND", .and, s%"c", s%"d"⟩, ⟨s%"OR", .or, s%"a", s%"d"⟩] (fun x => [x]) := by
  have hn : ∀ x ∈ [s%"t", s%"a", s%"b", s%"c", s%"d"], isName x := by
    intro x hx
    simp only [List.mem_cons, List.not_mem_nil, or_false] at hx
    rcases hx with rfl | rfl | rfl | rfl | rfl <;> exact ⟨⟨by decide, by decide⟩, by decide⟩
  have w : ∀ {x : Str}, isWord x → isLexeme x := .inl
  have e : isLexeme s%"=" := .inr ⟨'=', ⟨by decide, by decide, by decide⟩, rfl⟩
  refine ⟨⟨[s%"JOIN", s%"t", s%"ON"], s%"INNER JOIN", s%"t", ?_, ?_⟩, hn _ (by simp), hn _ (by simp), ?_, ?_⟩
  · exact .plain s%"JOIN" s%"t" s%"ON" (by decide) (hn _ (by simp)) (by decide)
  · refine .more [] s%"JOIN" _ s%" t ON a=b AND c=d OR a=d" (by decide)
      (w ⟨by decide, by decide⟩) ?_ (by rintro - c h; cases h; rfl)
    refine .more s%" " s%"t" _ s%" ON a=b AND c=d OR a=d" (by decide)
      (w ⟨by decide, by decide⟩) ?_ (by rintro - c h; cases h; rfl)
    refine .more s%" " s%"ON" _ s%" a=b AND c=d OR a=d" (by decide)
      (w ⟨by decide, by decide⟩) ?_ (by rintro - c h; cases h; rfl)
    refine .more s%" " s%"a" _ s%"=b AND c=d OR a=d" (by decide)
      (w ⟨by decide, by decide⟩) ?_ (by rintro - c h; cases h; rfl)
    refine .more [] s%"=" _ s%"b AND c=d OR a=d" (by decide)
      e ?_ (fun h => absurd (h.2 '=' (by simp)) (by decide))
    refine .more [] s%"b" _ s%" AND c=d OR a=d" (by decide)
      (w ⟨by decide, by decide⟩) ?_ (by rintro - c h; cases h; rfl)
    refine .more s%" " s%"AND" _ s%" c=d OR a=d" (by decide)
      (w ⟨by decide, by decide⟩) ?_ (by rintro - c h; cases h; rfl)
    refine .more s%" " s%"c" _ s%"=d OR a=d" (by decide)
      (w ⟨by decide, by decide⟩) ?_ (by rintro - c h; cases h; rfl)
    refine .more [] s%"=" _ s%"d OR a=d" (by decide)
      e ?_ (fun h => absurd (h.2 '=' (by simp)) (by decide))
    refine .more [] s%"d" _ s%" OR a=d" (by decide)
      (w ⟨by decide, by decide⟩) ?_ (by rintro - c h; cases h; rfl)
    refine .more s%" " s%"OR" _ s%" a=d" (by decide)
      (w ⟨by decide, by decide⟩) ?_ (by rintro - c h; cases h; rfl)
    refine .more s%" " s%"a" _ s%"=d" (by decide)
      (w ⟨by decide, by decide⟩) ?_ (by rintro - c h; cases h; rfl)
    refine .more [] s%"=" _ s%"d" (by decide)
      e ?_ (fun h => absurd (h.2 '=' (by simp)) (by decide))
    exact .more [] s%"d" _ [] (by decide) (w ⟨by decide, by decide⟩) (.done _ (by decide))
      (by rintro - c h; cases h)
  · intro l hl
    simp only [List.mem_cons, List.not_mem_nil, or_false] at hl
    rcases hl with rfl | rfl <;> exact ⟨by decide, hn _ (by simp), hn _ (by simp)⟩
  · intro x hx
    simp only [List.flatMap_cons, List.flatMap_nil, List.cons_append, List.nil_append, List.mem_cons,
      List.not_mem_nil, or_false] at hx
    rcases hx with rfl | rfl | rfl | rfl | rfl | rfl <;> exact ⟨rfl, by decide, by decide⟩

end

/-- C42 is false: this join string is accepted, and its condition rendered as
`(("a" = "b" OR "c" = "d") AND "e" = "f")`, which is false where SQL makes the string true. -/
theorem C42_false [GoRuntime] :
    ∃ (j : Join) (sql : Str) (t : Cond Comparison) (ν : Comparison → Truth) (x y z : Comparison),
      parseJoin s%"JOIN t ON a = b OR c = d AND e = f" = .ok (some j) ∧
      j.cond.write.query = .ok (sql, []) ∧ readCond sql = some t ∧
      t.atoms = [x, y, z] ∧
      flatEval ν (ν x) [(.or, y), (.and, z)] = .yes ∧ t.eval ν = .no := by
  let cmp (a b : Str) : Comparison := ⟨.name [a], s%"=", .name [b]⟩
  let j : Join := ⟨s%"INNER JOIN", { name := s%"t" },
    linkExpr (.onClause { name := s%"a" } { name := s%"b" })
      [⟨s%"OR", .or, s%"c", s%"d"⟩, ⟨s%"AND", .and, s%"e", s%"f"⟩]⟩
  have hd : ∀ x ∈ [s%"a", s%"b", s%"c", s%"d", s%"e", s%"f"], dotted x [x] := by
    intro x hx
    simp only [List.mem_cons, List.not_mem_nil, or_false] at hx
    rcases hx with rfl | rfl | rfl | rfl | rfl | rfl <;>
      exact ⟨rfl, by decide, by decide⟩
  refine ⟨j, render dollar 1 (exprL j.cond),
    leftTree (.atom (cmp s%"a" s%"b")) [(.or, cmp s%"c" s%"d"), (.and, cmp s%"e" s%"f")],
    fun c => if c = cmp s%"e" s%"f" then .no else .yes, cmp s%"a" s%"b", cmp s%"c" s%"d",
    cmp s%"e" s%"f", rfl, ?_, ?_, rfl, by decide, by decide⟩
  · rw [expr_query _ (by decide)]; rfl
  · refine readCond_shows (shows_links (fun l => cmp l.left l.right)
      [⟨s%"OR", .or, s%"c", s%"d"⟩, ⟨s%"AND", .and, s%"e", s%"f"⟩]
      (.onClause { name := s%"a" } { name := s%"b" }) (.atom (cmp s%"a" s%"b"))
      (arguments_on _ _) ?_ ?_)
    · exact shows_on (hd _ (by simp)) (hd _ (by simp))
    · intro l hl
      simp only [List.mem_cons, List.not_mem_nil, or_false] at hl
      rcases hl with rfl | rfl
      · exact shows_on (hd _ (by simp)) (hd _ (by simp))
      · exact shows_on (hd _ (by simp)) (hd _ (by simp))

/-! ## C43 -/

/-- C43 is false: this text makes the parser read past its last token. -/
theorem C43_false : parseJoin s%"JOIN t ON a = b AND c" = .error .index := by rfl

/-- C43, what holds: the parser never crashes unless the last two tokens of the text are `AND`
or `OR` and a name. What is missing from C43: texts that end this way. -/
theorem C43_partial (text : Str) (p : Panic) (h : parseJoin text = .error p) :
    p = .index ∧ ∃ toks c n, lexAll text = toks ++ [c, n] ∧
      (c.type = s%"AND" ∨ c.type = s%"OR") ∧ n.type = s%"Literal" := by
  have key : ∀ (n : Nat) (inCond : Bool) (j : Join) (toks : List Tok), toks.length = n →
      parseLoop inCond j toks = .error p → p = .index ∧ ∃ pre c n, toks = pre ++ [c, n] ∧
      (c.type = s%"AND" ∨ c.type = s%"OR") ∧ n.type = s%"Literal" := by
    intro n
    induction n using Nat.strongRecOn with
    | _ n ih =>
      have step : ∀ (ic : Bool) (j : Join) (pre toks : List Tok), pre ≠ [] →
          (pre ++ toks).length = n → parseLoop ic j toks = .error p →
          p = .index ∧ ∃ pre' c n, pre ++ toks = pre' ++ [c, n] ∧
            (c.type = s%"AND" ∨ c.type = s%"OR") ∧ n.type = s%"Literal" := by
        intro ic j pre toks hp hlen h
        have hlt : toks.length < n := by
          have := List.length_pos_iff.2 hp
          rw [← hlen, List.length_append]; omega
        obtain ⟨h1, pre', c, m, h2, h3⟩ := ih _ hlt ic j toks rfl h
        exact ⟨h1, pre ++ pre', c, m, by rw [h2, List.append_assoc], h3⟩
      intro inCond j toks hlen h
      cases toks with
      | nil => rw [parseLoop] at h; cases h
      | cons e rest =>
        rw [parseLoop.eq_def] at h
        simp only at h
        split at h
        · rename_i hcond
          simp only [Bool.and_eq_true, Bool.or_eq_true, decide_eq_true_eq] at hcond
          split at h
          · cases h
          · rename_i l rest
            split at h
            · cases h
            · rename_i hl
              split at h
              · injection h with h
                refine ⟨h.symm, [], e, l, rfl, hcond.2, ?_⟩
                exact Classical.byContradiction fun hn => hl hn
              · split at h
                · cases h
                · split at h
                  · cases h
                  · split at h
                    · cases h
                    · rename_i eq _ _ r rest _
                      exact step _ _ [e, l, eq, r] rest (by simp) (by simpa using hlen) h
        · split at h
          · exact step _ _ [e] rest (by simp) (by simpa using hlen) h
          · split at h
            · split at h
              · cases h
              · rename_i x rest
                split at h
                · exact step _ _ [e, x] rest (by simp) (by simpa using hlen) h
                · cases h
            · split at h
              · split at h
                · cases h
                · rename_i x rest
                  split at h
                  · exact step _ _ [e, x] rest (by simp) (by simpa using hlen) h
                  · cases h
              · split at h
                · split at h
                  · cases h
                  · rename_i x rest
                    split at h
                    · exact step _ _ [e, x] rest (by simp) (by simpa using hlen) h
                    · cases h
                · split at h
                  · split at h
                    · cases h
                    · rename_i x rest
                      split at h
                      · exact step _ _ [e, x] rest (by simp) (by simpa using hlen) h
                      · split at h
                        · split at h
                          · cases h
                          · rename_i y rest
                            split at h
                            · cases h
                            · exact step _ _ [e, x, y] rest (by simp) (by simpa using hlen) h
                        · cases h
                  · split at h
                    · exact step _ _ [e] rest (by simp) (by simpa using hlen) h
                    · cases h
  exact key _ _ _ _ rfl h

/-! ## C44 -/

/-- C44 is false: the parentheses are skipped, and what comes after the closing one is
dropped; the join is accepted without its last comparison. -/
theorem C44_false : ∃ j, parseJoin s%"JOIN t ON (a = b OR c = d) AND e = f" = .ok (some j) ∧
    onTree j.cond = some (.or (.atom (s%"a", s%"b")) (.atom (s%"c", s%"d"))) ∧
    comparisons (lexAll s%"JOIN t ON (a = b OR c = d) AND e = f")
      = [(s%"a", s%"b"), (s%"c", s%"d"), (s%"e", s%"f")] := ⟨_, rfl, rfl, rfl⟩

/-- C44, what holds: nothing is invented and nothing is reordered. The condition of an
accepted join string is empty or is made, with `AND` and `OR`, of comparisons that occur in
the text, in the order of the text. For well-formed strings it has all of them (`C41_well_formed`,
`C41_nothing_lost`); `C44_exact` tells for every text what is kept. What is missing from C44: other
accepted texts, of which a part may be ignored. -/
theorem C44_partial (text : Str) (j : Join) (h : parseJoin text = .ok (some j)) :
    j.cond = .nil ∨
      ∃ t, onTree j.cond = some t ∧ List.Sublist t.atoms (comparisons (lexAll text)) := by
  have := parseLoop_comparisons (lexAll text).length (lexAll text) rfl false _ [] j
    (Or.inl ⟨rfl, rfl⟩) h
  simpa using this

/-! ## C43 and C44, exactly -/

/-- What `ParseJoin` makes of a text of these items, `v` being the verdict on the lexemes after
them. -/
def JoinOutcome (text : Str) (items : List JoinItem) : JoinVerdict → Prop
  | .accepted => ∃ j, parseJoin text = .ok (some j) ∧ j.type = typeOfItems items s%"INNER JOIN" ∧
      j.table = { name := tableOfItems items [] } ∧ onTree j.cond = condOfItems items none ∧
      (condOfItems items none = none → j.cond = .nil)
  | .refused => parseJoin text = .ok none
  | .crash => parseJoin text = .error .index

theorem join_text_items (text : Str) :
    ∃ (items : List JoinItem) (rest : List Str) (v : JoinVerdict),
      Spelled (items.flatMap JoinItem.lexemes ++ rest) (text.takeWhile (· ≠ '\x00')) ∧
      (∀ i ∈ items, i.good) ∧ JoinRest (endsInCond false items) rest v := by
  obtain ⟨xs, hs⟩ := spelled_exists text
  obtain ⟨items, r, v, h1, rfl, h3⟩ := items_exist xs.length false xs (Nat.le_refl _) (by simp)
  exact ⟨items, r, v, hs, h1, h3⟩

/-- C43/C44, exactly. What becomes of a text: the rest decides whether it is accepted, refused or
crashes the parser; if it is accepted, then the type, the table and the condition are those given
last by the items, and the rest is ignored. With `C44_every_text` this tells for every text what
`ParseJoin` does with it. -/
theorem C44_exact (text : Str) (items : List JoinItem) (rest : List Str) (v : JoinVerdict)
    (hs : Spelled (items.flatMap JoinItem.lexemes ++ rest) (text.takeWhile (· ≠ '\x00')))
    (hi : ∀ i ∈ items, i.good) (hr : JoinRest (endsInCond false items) rest v) :
    JoinOutcome text items v := by
  have hl : ∀ x ∈ rest, isLexeme x := fun x hx =>
    spelled_lexeme hs x (List.mem_append_right _ hx)
  have h : parseJoin text = verdictResult
      (items.foldl applyItem { type := Types.InnerJoin, table := { name := [] }, cond := .nil }) v := by
    rw [parseJoin, ← lexAll_untilNul, lexAll_spelled hs, List.map_append, parseLoop_items _ _ hi,
      parseLoop_rest hr hl]
  cases v with
  | accepted =>
    obtain ⟨h1, h2⟩ := foldl_cond items
      { type := Types.InnerJoin, table := { name := [] }, cond := .nil } none ⟨rfl, fun _ => rfl⟩
    exact ⟨_, h, foldl_type items _, foldl_table items _ [] rfl, h1, h2⟩
  | refused => exact h
  | crash => exact h

/-- C43/C44, exactly. Every text is, up to a NUL, a sequence of items of join strings and a rest, and
these decide what becomes of it. -/
theorem C44_every_text (text : Str) :
    ∃ (items : List JoinItem) (rest : List Str) (v : JoinVerdict),
      Spelled (items.flatMap JoinItem.lexemes ++ rest) (text.takeWhile (· ≠ '\x00')) ∧
      (∀ i ∈ items, i.good) ∧ JoinRest (endsInCond false items) rest v ∧
      JoinOutcome text items v := by
  obtain ⟨items, rest, v, hs, hi, hr⟩ := join_text_items text
  exact ⟨items, rest, v, hs, hi, hr, C44_exact text items rest v hs hi hr⟩

/-- C43, exactly: the texts that crash the parser are those that go on after a condition with AND or
OR and a name, and end there. -/
theorem C43_exact (text : Str) :
    (∃ p, parseJoin text = .error p) ↔
      ∃ (items : List JoinItem) (x a : Str),
        Spelled (items.flatMap JoinItem.lexemes ++ [x, a]) (text.takeWhile (· ≠ '\x00')) ∧
        (∀ i ∈ items, i.good) ∧ endsInCond false items = true ∧ isConnective x ∧ isName a := by
  constructor
  · rintro ⟨p, h⟩
    obtain ⟨items, r, v, hs, hi, hr⟩ := join_text_items text
    have ho := C44_exact text items r v hs hi hr
    cases v with
    | accepted =>
      obtain ⟨j, hj, -⟩ := ho
      rw [hj] at h
      cases h
    | refused =>
      rw [show parseJoin text = .ok none from ho] at h
      cases h
    | crash =>
      generalize he : endsInCond false items = e at hr
      cases hr with
      | linkEnds x a hx ha => exact ⟨items, x, a, hs, hi, he, hx, ha⟩
  · rintro ⟨items, x, a, hs, hi, he, hx, ha⟩
    exact ⟨.index, C44_exact text items [x, a] .crash hs hi (he ▸ .linkEnds x a hx ha)⟩

/-- The text of `C44_false`: items, and a rest that is ignored. -/
example : JoinOutcome s%"JOIN t ON (a = b OR c = d) AND e = f"
    [.join s%"JOIN", .table s%"t" s%"ON", .paren s%"(", .cond s%"a" s%"b" [⟨s%"OR", .or, s%"c", s%"d"⟩],
      .paren s%")"] .accepted := by
  have hn : ∀ x ∈ [s%"t", s%"a", s%"b", s%"c", s%"d", s%"e", s%"f"], isName x := by
    intro x hx
    simp only [List.mem_cons, List.not_mem_nil, or_false] at hx
    rcases hx with rfl | rfl | rfl | rfl | rfl | rfl | rfl <;> exact ⟨⟨by decide, by decide⟩, by decide⟩
  refine C44_exact _ _ [s%"AND", s%"e", s%"=", s%"f"] .accepted ?_ ?_ ?_
  · have w : ∀ {x : Str}, isWord x → isLexeme x := .inl
    have sy : ∀ {c : Char}, symbolRune c → isLexeme [c] := fun h => .inr ⟨_, h, rfl⟩
    refine .more [] s%"JOIN" _ s%" t ON (a = b OR c = d) AND e = f" (by decide)
      (w ⟨by decide, by decide⟩) ?_ (by rintro - c h; cases h; rfl)
    refine .more s%" " s%"t" _ s%" ON (a = b OR c = d) AND e = f" (by decide)
      (w ⟨by decide, by decide⟩) ?_ (by rintro - c h; cases h; rfl)
    refine .more s%" " s%"ON" _ s%" (a = b OR c = d) AND e = f" (by decide)
      (w ⟨by decide, by decide⟩) ?_ (by rintro - c h; cases h; rfl)
    refine .more s%" " s%"(" _ s%"a = b OR c = d) AND e = f" (by decide)
      (sy ⟨by decide, by decide, by decide⟩) ?_ (fun h => absurd (h.2 '(' (by simp)) (by decide))
    refine .more [] s%"a" _ s%" = b OR c = d) AND e = f" (by decide)
      (w ⟨by decide, by decide⟩) ?_ (by rintro - c h; cases h; rfl)
    refine .more s%" " s%"=" _ s%" b OR c = d) AND e = f" (by decide)
      (sy ⟨by decide, by decide, by decide⟩) ?_ (fun h => absurd (h.2 '=' (by simp)) (by decide))
    refine .more s%" " s%"b" _ s%" OR c = d) AND e = f" (by decide)
      (w ⟨by decide, by decide⟩) ?_ (by rintro - c h; cases h; rfl)
    refine .more s%" " s%"OR" _ s%" c = d) AND e = f" (by decide)
      (w ⟨by decide, by decide⟩) ?_ (by rintro - c h; cases h; rfl)
    refine .more s%" " s%"c" _ s%" = d) AND e = f" (by decide)
      (w ⟨by decide, by decide⟩) ?_ (by rintro - c h; cases h; rfl)
    refine .more s%" " s%"=" _ s%" d) AND e = f" (by decide)
      (sy ⟨by decide, by decide, by decide⟩) ?_ (fun h => absurd (h.2 '=' (by simp)) (by decide))
    refine .more s%" " s%"d" _ s%") AND e = f" (by decide)
      (w ⟨by decide, by decide⟩) ?_ (by rintro - c h; cases h; rfl)
    refine .more [] s%")" _ s%" AND e = f" (by decide)
      (sy ⟨by decide, by decide, by decide⟩) ?_ (fun h => absurd (h.2 ')' (by simp)) (by decide))
    refine .more s%" " s%"AND" _ s%" e = f" (by decide)
      (w ⟨by decide, by decide⟩) ?_ (by rintro - c h; cases h; rfl)
    refine .more s%" " s%"e" _ s%" = f" (by decide)
      (w ⟨by decide, by decide⟩) ?_ (by rintro - c h; cases h; rfl)
    refine .more s%" " s%"=" _ s%" f" (by decide)
      (sy ⟨by decide, by decide, by decide⟩) ?_ (fun h => absurd (h.2 '=' (by simp)) (by decide))
    exact .more s%" " s%"f" [] [] (by decide) (w ⟨by decide, by decide⟩) (.done [] (by simp)) (by simp)
  · intro i hi
    simp only [List.mem_cons, List.not_mem_nil, or_false] at hi
    rcases hi with rfl | rfl | rfl | rfl | rfl
    · show spells _ _; decide
    · exact ⟨hn _ (by simp), by show spells _ _; decide⟩
    · exact .inl rfl
    · refine ⟨hn _ (by simp), hn _ (by simp), fun l hl => ?_⟩
      cases List.mem_singleton.1 hl
      exact ⟨by show spells _ _; decide, hn _ (by simp), hn _ (by simp)⟩
    · exact .inr rfl
  · refine .other false s%"AND" _ (fun h => h.2 s%"AND" (by decide) (by decide)) ?_ (by decide)
      (by decide) (by decide) (by decide) (by simp)
    rw [isKind_iff]
    decide

end Verif.Props
