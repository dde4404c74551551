import Verif.Lemmas.Shape
import Verif.Props.Machine
import Verif.Props.Readback

/-!
# C71: the text sent determines the statement, up to the values bound in it
-/

set_option linter.unusedSectionVars false

namespace Verif.Props
open Spec

section
variable [GoRuntime]

private theorem forget_nil : NilPreserving forget := by intro v; cases v <;> simp [forget]

/-- Statements that are the same once the values are made equal have the same shape. -/
private theorem sameShape_of {s s' : Stmt}
    (h : meanStmt (mapStmt forget s) = meanStmt (mapStmt forget s')) :
    (meanStmt s).SameShape (meanStmt s') := by
  rw [meanStmt_map forget_nil, meanStmt_map forget_nil] at h
  have := congrArg (SqlStmt.mapValues fun _ => .nil) h
  rwa [SqlStmt.mapValues_mapValues, SqlStmt.mapValues_mapValues] at this

private theorem forget_all {l : List Val} (h : ∀ v ∈ l, v ≠ .nil) :
    l.map forget = List.replicate l.length (.bool true) := by
  rw [List.eq_replicate_iff]
  refine ⟨by simp, fun w hw => ?_⟩
  obtain ⟨v, hv, rfl⟩ := List.mem_map.1 hw
  have := h v hv
  cases v <;> first | rfl | exact absurd rfl this

/-- C71, `Query`. If two statements (of the fragment of C55) are sent as the same text, then they
have the same number of arguments and are the same statement except for the values: a prepared
statement kept under its text is the right one. -/
theorem C71_query (s s' : Stmt) (hs : plainStmt (uncommented s) = true)
    (hs' : plainStmt (uncommented s') = true) (hc : OneLine (commentOf s))
    (hc' : OneLine (commentOf s')) (text : Str) (args args' : List Val)
    (hq : s.write.query = .ok (text, args)) (hq' : s'.write.query = .ok (text, args')) :
    args.length = args'.length ∧ (meanStmt s).SameShape (meanStmt s') := by
  have hlen : args.length = args'.length := by
    obtain ⟨ha, ht⟩ := query_tokens true s ⟨tame_layout hs, hc⟩ text args hq
    obtain ⟨ha', ht'⟩ := query_tokens true s' ⟨tame_layout hs', hc'⟩ text args' hq'
    rw [ht] at ht'
    have := congrArg (fun o => (params (Option.getD o [])).length) ht'
    simp only [Option.getD_some, params_append, params_comment, List.append_nil,
      params_pieces (joined_layout _) (tame_layout (b := true) hs),
      params_pieces (joined_layout _) (tame_layout (b := true) hs'), List.length_map,
      List.length_range'] at this
    rw [ha, ha', this]
  refine ⟨hlen, sameShape_of ?_⟩
  have h1 := (C04_substitution forget forget_nil s).1 text args hq
  have h2 := (C04_substitution forget forget_nil s').1 text args' hq'
  have hn : ∀ {s : Stmt} {args : List Val}, s.write.query = .ok (text, args) →
      ∀ v ∈ args, v ≠ .nil := by
    intro s args hq
    obtain ⟨-, hr⟩ := query_ok hq
    cases hr
    exact arguments_ne_nil _
  rw [forget_all (hn hq)] at h1
  rw [forget_all (hn hq'), ← hlen] at h2
  refine C55_faithful _ _ ?_ ?_ ?_ ?_ _ h1 h2
  · rw [uncommented_map, plainStmt_map]; exact hs
  · rw [uncommented_map, plainStmt_map]; exact hs'
  · rw [commentOf_map]; exact hc
  · rw [commentOf_map]; exact hc'

/-- C71, `NamedQuery`. -/
theorem C71_named (s s' : Stmt) (hs : plainStmt (uncommented s) = true)
    (hs' : plainStmt (uncommented s') = true) (hc : OneLine (commentOf s))
    (hc' : OneLine (commentOf s')) (text : Str) (args args' : Option (List (Str × Val)))
    (hq : s.write.namedQuery = .ok (text, args)) (hq' : s'.write.namedQuery = .ok (text, args')) :
    (meanStmt s).SameShape (meanStmt s') := by
  obtain ⟨-, hr⟩ := namedQuery_ok hq
  obtain ⟨-, hr'⟩ := namedQuery_ok hq'
  have hr : text = render colon 1 (layout s) := (Prod.mk.inj hr).1
  have hr' : text = render colon 1 (layout s') := (Prod.mk.inj hr').1
  refine sameShape_of ?_
  let N := (arguments (layout s)).length + (arguments (layout s')).length
  let m : List (Str × Val) := (namedArgs (List.replicate N (.bool true))).getD []
  have key : ∀ {s : Stmt}, plainStmt (uncommented s) = true → OneLine (commentOf s) →
      (arguments (layout s)).length ≤ N →
      readNamed true (render colon 1 (layout s)) m = some (meanStmt (mapStmt forget s)) := by
    intro s hs hc hN
    have h1 := readNamed_map true (mapStmt forget s)
      (by rw [uncommented_map, plainStmt_map]; exact hs) (by rw [commentOf_map]; exact hc) m
      (fun i v hv => by
        refine argumentNamed_at ?_
        rw [layout_map, arguments_map forget_nil, forget_all (arguments_ne_nil _)] at hv
        rw [List.getElem?_replicate] at hv ⊢
        split at hv
        · rw [if_pos (by omega)]; exact hv
        · cases hv)
    rwa [layout_map, render_map forget_nil colon (fun _ _ _ => rfl)] at h1
  have h1 := key hs hc (by omega)
  have h2 := key hs' hc' (by omega)
  rw [← hr] at h1
  rw [← hr', h1] at h2
  exact Option.some.inj h2

/-- C71, `String`. If the values are strings, byte strings, booleans and 64-bit integers, then the
text determines the statement with its values. -/
theorem C71_string (b : Bool) (s s' : Stmt) (hs : plainStmt (uncommented s) = true)
    (hs' : plainStmt (uncommented s') = true) (hc : OneLine (commentOf s))
    (hc' : OneLine (commentOf s')) (q q' text : Str) (args args' : List Val)
    (hq : s.write.query = .ok (q, args)) (hq' : s'.write.query = .ok (q', args'))
    (hv : ∀ v ∈ args, Exact v = true ∧ Legible b v) (hv' : ∀ v ∈ args', Exact v = true ∧ Legible b v)
    (hd : ∀ ts, tokens b q = some ts → .word s%"decode" ∉ ts)
    (hd' : ∀ ts, tokens b q' = some ts → .word s%"decode" ∉ ts)
    (ht : s.write.string = .ok text) (ht' : s'.write.string = .ok text) :
    meanStmt s = meanStmt s' := by
  have named : ∀ {s : Stmt} {r : Str × List Val}, s.write.query = .ok r →
      ∃ u m, s.write.namedQuery = .ok (u, m) := by
    intro s r h
    exact ⟨_, _, namedQuery_eq s (query_ok h).1⟩
  obtain ⟨u, m, hu⟩ := named hq
  obtain ⟨u', m', hu'⟩ := named hq'
  have h1 := (C63_all b s hs hc q args text u m hq hu ht hv hd).2.2
  have h2 := (C63_all b s' hs' hc' q' args' text u' m' hq' hu' ht' hv' hd').2.2
  rw [h1] at h2
  exact Option.some.inj h2

/-- C71 for programs: if two sequences of calls, in any order, send the same text, then the calls
describe the same query, except for the values. -/
theorem C71_select (items items' : List SqlItem) (hi : fitsItems items = true)
    (hi' : fitsItems items' = true) (hne : items ≠ []) (hne' : items' ≠ [])
    (steps steps' : List SelStep) (hs : steps.all SelStep.fits = true)
    (hs' : steps'.all SelStep.fits = true) (hd : oneDistinct steps = true)
    (hd' : oneDistinct steps' = true) (s s' : SelectStmt)
    (hr : (selectOf items >>= runAll SelStep.apply steps) = .ok s)
    (hr' : (selectOf items' >>= runAll SelStep.apply steps') = .ok s') (text : Str)
    (args args' : List Val) (hq : (Stmt.select s).write.query = .ok (text, args))
    (hq' : (Stmt.select s').write.query = .ok (text, args')) :
    ∃ q q', runSteps SelStep.on steps (selectStart items) = some q ∧
      runSteps SelStep.on steps' (selectStart items') = some q' ∧
      (SqlStmt.select q).SameShape (.select q') := by
  have key : ∀ {items : List SqlItem} {steps : List SelStep} {s : SelectStmt},
      fitsItems items = true → items ≠ [] → steps.all SelStep.fits = true →
      oneDistinct steps = true → (selectOf items >>= runAll SelStep.apply steps) = .ok s →
      ∃ q, runSteps SelStep.on steps (selectStart items) = some q ∧
        OneLine (commentOf (.select s)) ∧ plainStmt (uncommented (.select s)) = true ∧
        meanStmt (.select s) = .select q := by
    intro items steps s hi hne hs hd hr
    obtain ⟨s0, h1, h2⟩ := selectOf_ok hi hne
    have h3 := selSteps_ok steps hs h2 hd
    rw [h1, go_bind] at hr
    split at h3
    · next q hq =>
      obtain ⟨s1, h4, h5⟩ := h3
      rw [hr] at h4
      cases h4
      exact ⟨q, hq, (holds_select h5).1, (holds_select h5).2.1, (holds_select h5).2.2.1⟩
    · next hq =>
      obtain ⟨p, h4⟩ := h3
      rw [hr] at h4
      cases h4
  obtain ⟨q, h1, h2, h3, h4⟩ := key hi hne hs hd hr
  obtain ⟨q', h1', h2', h3', h4'⟩ := key hi' hne' hs' hd' hr'
  refine ⟨q, q', h1, h1', ?_⟩
  rw [← h4, ← h4']
  exact (C71_query _ _ h3 h3' h2 h2' text args args' hq hq').2

end

/-! ## The hypotheses can be met -/

section
attribute [local instance] Runtime.sample

private def byId (n : Val) (c : Str) : SelectStmt :=
  { SelectStmt.zero with
    exprs := [.column { name := s%"name" }]
    tables := [.table { name := s%"users" }]
    whr := .infx (.infx (.ident (.str s%"id")) (.comparison s%"=") (.wrapper (.value n))) (.logical s%"AND")
      (.infx (.ident (.str s%"note")) (.comparison s%"IS") (.value .nil))
    comment := c }

/-- Two statements with different values, sent as the same text. -/
example : plainStmt (uncommented (.select (byId (.int .int64 1) s%"x"))) = true ∧
    plainStmt (uncommented (.select (byId (.str s%"a") s%"x"))) = true ∧
    (Stmt.select (byId (.int .int64 1) s%"x")).write.query.toOption.map (·.1) =
      (Stmt.select (byId (.str s%"a") s%"x")).write.query.toOption.map (·.1) ∧
    ((Stmt.select (byId (.int .int64 1) s%"x")).write.query.toOption.map (·.1)).isSome = true ∧
    (Stmt.select (byId (.int .int64 1) s%"x")).write.namedQuery.toOption.map (·.1) =
      (Stmt.select (byId (.str s%"a") s%"x")).write.namedQuery.toOption.map (·.1) := by
  decide +kernel

/-- A value in the place of NULL makes another shape. -/
example : ¬ (meanStmt (.select (byId (.int .int64 1) []))).SameShape
    (meanStmt (.select (byId .nil []))) := by
  intro h
  simp [SqlStmt.SameShape, meanStmt, SqlStmt.mapValues, byId, meanSelect, SqlSelect.mapValues,
    blank, Sql.mapOption, meanExpr, Sql.mapValues, identBlank, opBlank] at h

private def eqId (n : Int) : Sql := .binary s%"=" (.ref (.quoted [s%"id"])) (.value (.int .int64 n))
private def fromT : SelStep := .from [⟨false, .quoted [s%"t"], none⟩]
private def one : List SqlItem := [.mk (.ref (.quoted [s%"x"])) none]

/-- The calls in another order and with other values. -/
example : fitsItems one = true ∧
    [fromT, .where (eqId 1), .limit 5].all SelStep.fits = true ∧
    [.limit 5, .where (eqId 2), fromT].all SelStep.fits = true ∧
    ((selectOf one >>= runAll SelStep.apply [fromT, .where (eqId 1), .limit 5]).bind
      fun s => (Stmt.select s).write.query).toOption.map (·.1) =
    ((selectOf one >>= runAll SelStep.apply [.limit 5, .where (eqId 2), fromT]).bind
      fun s => (Stmt.select s).write.query).toOption.map (·.1) ∧
    (((selectOf one >>= runAll SelStep.apply [fromT, .where (eqId 1), .limit 5]).bind
      fun s => (Stmt.select s).write.query).toOption.map (·.1)).isSome = true := by decide +kernel

end

end Verif.Props
