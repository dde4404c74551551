import Verif.Lemmas.Sqlx
import Verif.Lemmas.Weave
import Verif.Model.Api
import Verif.Props.Sample

/-!
# C75: sqlx sends for NamedQuery what Query says
-/

namespace Verif.Props
open Spec

section
variable [GoRuntime]

/-- C75, exactly: what sqlx sends to the database for the text and the map of `NamedQuery` is the
text and the arguments of `Query`, if and only if every colon in the text of `Query` is followed by
an equals sign. -/
theorem C75_exact (s : Stmt) (text q : Str) (m : Option (List (Str × Val))) (args : List Val)
    (hn : s.write.namedQuery = .ok (text, m)) (hq : s.write.query = .ok (q, args)) :
    Sqlx.send text m = some (utf8 q, args) ↔ ColonsAssign q := by
  obtain ⟨-, hr⟩ := query_ok hq
  cases hr
  obtain ⟨-, hr⟩ := namedQuery_ok hn
  cases hr
  rw [namedMap_eq]
  exact send_iff s

/-- C75, if no name, raw fragment, operator or comment that the user gave contains a colon; values
may contain any characters.

Missing: texts with colons, for which it is false (`C75_false`) except where an equals sign follows
(`C75_exact`). -/
theorem C75_partial (s : Stmt) (h : ∀ p ∈ layout s, ':' ∉ givenText p) (text : Str)
    (m : Option (List (Str × Val))) (hn : s.write.namedQuery = .ok (text, m)) :
    ∃ q args, s.write.query = .ok (q, args) ∧ Sqlx.send text m = some (utf8 q, args) := by
  obtain ⟨hok, -⟩ := namedQuery_ok hn
  refine ⟨_, _, query_eq s hok, (C75_exact s _ _ _ _ hn (query_eq s hok)).2 ?_⟩
  intro a b e
  exact absurd (by rw [e]; simp) (render_colon (fixed_layout s) h 1)

end

/-! ## It is false in general -/

attribute [local instance] Runtime.sample

/-- `Select("a").From("t").Where(Raw("b::date = now()::date"))` -/
private def cast : Go SelectStmt := do
  (← (← Verif.select [.val (.str s%"a")]).From [.val (.str s%"t")]).Where
    (Api.Raw s%"b::date = now()::date")

/-- `Select("a").From("t").Where(Condition("b").Equal(1)).Comment("see http://host/")` -/
private def link : Go SelectStmt := do
  (← (← (← Verif.select [.val (.str s%"a")]).From [.val (.str s%"t")]).Where
    (← (Api.Condition (.val (.str s%"b"))).Equal (.val (.int .int64 1)))).Comment s%"see http://host/"

/-- `Select("a").From("t").Where(Raw("a = ':arg_1'")).And(Condition("b").Equal(1))` -/
private def inLiteral : Go SelectStmt := do
  (← (← (← Verif.select [.val (.str s%"a")]).From [.val (.str s%"t")]).Where
    (Api.Raw s%"a = ':arg_1'")).And (← (Api.Condition (.val (.str s%"b"))).Equal (.val (.int .int64 1)))

/-- What sqlx sends for a program. -/
private def sentBySqlx (p : Go SelectStmt) : Option (Bytes × List Val) :=
  match p with
  | .error _ => none
  | .ok s =>
    match (Stmt.select s).write.namedQuery with
    | .error _ => none
    | .ok (t, m) => Sqlx.send t m

/-- C75 is false. sqlx takes one colon away from each cast of PostgreSQL, which leaves SQL that is
wrong, takes the colon of an address in a comment for the beginning of a name, for which it finds
no value, and puts a placeholder into a literal. -/
theorem C75_false :
    (∃ s, cast = .ok s ∧ (∃ q, (Stmt.select s).write.query = .ok (q, [])) ∧
      sentBySqlx cast = some (utf8 s%"SELECT \"a\" FROM \"t\" WHERE b:date = now():date", [])) ∧
    (∃ s, link = .ok s ∧
      (∃ q, (Stmt.select s).write.query = .ok (q, [.int .int64 1])) ∧ sentBySqlx link = none) ∧
    (∃ s, inLiteral = .ok s ∧
      (∃ q, (Stmt.select s).write.query = .ok (q, [.int .int64 1])) ∧
      sentBySqlx inLiteral
        = some (utf8 s%"SELECT \"a\" FROM \"t\" WHERE (a = '$1' AND (\"b\" = $2))",
            [.int .int64 1, .int .int64 1])) := by
  refine ⟨⟨_, rfl, ⟨_, rfl⟩, ?_⟩, ⟨_, rfl, ⟨_, rfl⟩, ?_⟩, ⟨_, rfl, ⟨_, rfl⟩, ?_⟩⟩
  · rfl
  · rfl
  · rfl

/-! ## The hypotheses can be met -/

/-- `Select("é").From("t").Where(Condition("b").Equal(":arg_7 ::")).Comment("hello")` -/
private def noColon : Go SelectStmt := do
  (← (← (← Verif.select [.val (.str s%"é")]).From [.val (.str s%"t")]).Where
    (← (Api.Condition (.val (.str s%"b"))).Equal (.val (.str s%":arg_7 ::")))).Comment s%"hello"

example : ∃ s, noColon = .ok s ∧ (∀ p ∈ layout (.select s), ':' ∉ givenText p) ∧
    ∃ r, (Stmt.select s).write.namedQuery = .ok r :=
  ⟨_, rfl, by decide +kernel, _, rfl⟩

/-- Values with colons are no trouble, and neither is an assignment operator. -/
private def fine : Go SelectStmt := do
  (← (← (← Verif.select [.val (.str s%"é")]).From [.val (.str s%"t")]).Where
    (Api.Raw s%"@x := 1")).And
    (← (Api.Condition (.val (.str s%"b"))).Equal (.val (.str s%":arg_7 ::")))

example : ∃ s t m, fine = .ok s ∧ (Stmt.select s).write.namedQuery = .ok (t, m) ∧
    (∃ q, (Stmt.select s).write.query = .ok (q, [.str s%":arg_7 ::"]) ∧
      Sqlx.send t m = some (utf8 q, [.str s%":arg_7 ::"])) :=
  ⟨_, _, _, rfl, rfl, _, rfl, rfl⟩

end Verif.Props
