import Verif.Lemmas.ProgramStmt
import Verif.Model.Runtime
import Verif.Props.Sql

/-!
# C61: every query can be written, and is sent as the query it is
-/

set_option linter.unusedSectionVars false

namespace Verif.Props
open Spec

section
variable [GoRuntime]

/-- C61. Take any statement of SQL of the fragment `fitsStmt`: a query with common table expressions,
DISTINCT or DISTINCT ON, columns and aggregates with aliases, tables, joins on equalities, a
condition of any depth with comparisons, IN, BETWEEN, EXISTS, function calls and sub-queries, groups,
a condition on groups, orders, limit and offset; an INSERT with rows, ON CONFLICT and RETURNING; an
UPDATE with assignments (`a = x, b = y` or `(a, b) = (x, y)`), FROM, condition and RETURNING; a
DELETE. The calls of loukoum's functions given by `buildStmt` do not panic, and the text and the
arguments of the statement they make are read by a SQL parser as exactly that statement. -/
theorem C61_expressible (b : Bool) (m : SqlStmt) (h : fitsStmt m = true) :
    ∃ s text args, buildStmt m = .ok s ∧ s.write.query = .ok (text, args) ∧
      readStmt b text args = some m := by
  obtain ⟨s, h1, h2⟩ := buildStmt_ok m h
  refine ⟨s, _, _, h1, query_eq s h2.ok, ?_⟩
  rw [← h2.mean]
  refine C55_roundtrip b s (by rw [h2.uncommented]; exact h2.plain) ?_ _ _ (query_eq s h2.ok)
  rw [h2.comment]
  exact ⟨fun h => absurd h List.not_mem_nil, fun h => absurd h List.not_mem_nil⟩

/-- C61, consequence: different statements are sent as different queries. -/
theorem C61_injective (m m' : SqlStmt) (h : fitsStmt m = true) (h' : fitsStmt m' = true)
    (s s' : Stmt) (hs : buildStmt m = .ok s) (hs' : buildStmt m' = .ok s')
    (he : s.write.query = s'.write.query) : m = m' := by
  obtain ⟨t, q, args, h1, h2, h3⟩ := C61_expressible true m h
  obtain ⟨t', q', args', h1', h2', h3'⟩ := C61_expressible true m' h'
  rw [hs] at h1
  rw [hs'] at h1'
  cases h1
  cases h1'
  rw [h2, h2'] at he
  cases he
  rw [h3] at h3'
  exact Option.some.inj h3'

end

/-! ## The hypotheses can be met -/

section
attribute [local instance] Runtime.sample

private def col (parts : List Str) : Sql := .ref (.quoted parts)
private def int (n : Int) : Sql := .value (.int .int64 n)

/-- `SELECT "id" FROM "bans" WHERE (("user" = 'x') OR ("until" IS NULL))` with the value bound. -/
private def banned : SqlSelect :=
  .mk [] .no [.mk (col [s%"user"]) none] [⟨false, .quoted [s%"bans"], none⟩] []
    (some (.binary s%"OR" (.binary s%"=" (col [s%"until"]) (.value (.str s%"x' OR 1=1")))
      (.binary s%"IS" (col [s%"until"]) .null))) [] none [] none none

/-- A query with most clauses. -/
private def report : SqlSelect :=
  .mk [.mk s%"b" banned] (.on [.quoted [s%"u", s%"id"]])
    [.mk (col [s%"u", s%"id"]) (some (.quoted [s%"user"])),
     .mk (.call s%"COUNT" true [.ref (.bare [s%"g", s%"id"])]) (some (.bare [s%"n"])),
     .mk (.exist banned) none]
    [⟨true, .quoted [s%"users"], some (.quoted [s%"u"])⟩]
    [.mk s%"LEFT JOIN" ⟨false, .quoted [s%"groups"], some (.quoted [s%"g"])⟩
      (.binary s%"AND" (.binary s%"=" (col [s%"u", s%"gid"]) (col [s%"g", s%"id"]))
        (.binary s%"=" (col [s%"u", s%"org"]) (col [s%"g", s%"org"])))]
    (some (.binary s%"AND"
      (.binary s%"OR" (.isIn true (col [s%"u", s%"id"]) (.query banned))
        (.binary s%"=" (col [s%"a"]) (.query banned)))
      (.binary s%"OR" (.between false (col [s%"age"]) (int 18) (int 65))
        (.binary s%"AND" (.isIn false (col [s%"kind"]) (.list [int 1, .null]))
          (.binary s%"LIKE" (.call s%"lower" false [col [s%"name"]]) (.value (.str s%"%a%")))))))
    [.quoted [s%"u", s%"id"]]
    (some (.binary s%">" (.call s%"count" false [.ref (.bare [s%"x"])]) (int 2)))
    [⟨.bare [s%"n"], true⟩] (some 10) (some 20)

example : fitsStmt (.select report) = true := by decide +kernel

/-- The text of that query. -/
example : ((buildStmt (.select report)).bind fun s => s.write.query).toOption.map (·.1) = some
    s%"WITH b AS (SELECT \"user\" FROM \"bans\" WHERE ((\"until\" = $1) OR (\"until\" IS NULL))) SELECT DISTINCT ON (\"u\".\"id\") \"u\".\"id\" AS \"user\", COUNT(DISTINCT g.id) AS n, EXISTS (SELECT \"user\" FROM \"bans\" WHERE ((\"until\" = $2) OR (\"until\" IS NULL))) FROM ONLY \"users\" AS \"u\" LEFT JOIN \"groups\" AS \"g\" ON (\"u\".\"gid\" = \"g\".\"id\" AND \"u\".\"org\" = \"g\".\"org\") WHERE (((\"u\".\"id\" NOT IN (SELECT \"user\" FROM \"bans\" WHERE ((\"until\" = $3) OR (\"until\" IS NULL)))) OR (\"a\" = (SELECT \"user\" FROM \"bans\" WHERE ((\"until\" = $4) OR (\"until\" IS NULL))))) AND ((\"age\" BETWEEN $5 AND $6) OR ((\"kind\" IN ($7, NULL)) AND (lower(\"name\") LIKE $8)))) GROUP BY \"u\".\"id\" HAVING (count(x) > $9) ORDER BY n DESC LIMIT 10 OFFSET 20" := by decide +kernel

private def upsert : SqlStmt :=
  .insert ⟨false, .quoted [s%"t"], none⟩ [.quoted [s%"a"], .quoted [s%"b"]]
    [[int 1, .null], [.call s%"now" false [], int 4]]
    (some ([.quoted [s%"a"]], .update (.pairs [(.quoted [s%"b"], .query banned),
      (.quoted [s%"c"], .binary s%"=" (col [s%"x"]) (int 5))])))
    [.mk (col [s%"a"]) none]

example : fitsStmt upsert = true := by decide +kernel

example : ((buildStmt upsert).bind fun s => s.write.query).toOption.map (·.1) = some
    s%"INSERT INTO \"t\" (\"a\", \"b\") VALUES ($1, NULL), (now(), $2) ON CONFLICT (\"a\") DO UPDATE SET \"b\" = (SELECT \"user\" FROM \"bans\" WHERE ((\"until\" = $3) OR (\"until\" IS NULL))), \"c\" = (\"x\" = $4) RETURNING \"a\"" := by decide +kernel

private def change : SqlStmt :=
  .update [.mk s%"b" banned] ⟨true, .quoted [s%"t"], none⟩
    (.columns [.quoted [s%"a"], .quoted [s%"b"]] (.list [int 1, int 2]))
    [⟨false, .quoted [s%"u"], none⟩]
    (some (.binary s%"=" (col [s%"t", s%"id"]) (col [s%"u", s%"id"]))) []

example : fitsStmt change = true := by decide +kernel

example : ((buildStmt change).bind fun s => s.write.query).toOption.map (·.1) = some
    s%"WITH b AS (SELECT \"user\" FROM \"bans\" WHERE ((\"until\" = $1) OR (\"until\" IS NULL))) UPDATE ONLY \"t\" SET (\"a\", \"b\") = ($2, $3) FROM \"u\" WHERE (\"t\".\"id\" = \"u\".\"id\")" := by decide +kernel

private def remove : SqlStmt :=
  .delete [⟨true, .quoted [s%"t"], none⟩] [⟨false, .quoted [s%"u"], none⟩]
    (some (.not (.exist banned))) [.mk (col [s%"id"]) none]

example : fitsStmt remove = true := by decide +kernel

example : ((buildStmt remove).bind fun s => s.write.query).toOption.map (·.1) = some
    s%"DELETE FROM ONLY \"t\" USING \"u\" WHERE (NOT EXISTS (SELECT \"user\" FROM \"bans\" WHERE ((\"until\" = $1) OR (\"until\" IS NULL)))) RETURNING \"id\"" := by decide +kernel

end

end Verif.Props
