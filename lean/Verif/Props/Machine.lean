import Verif.Lemmas.MachineStmt
import Verif.Model.Runtime
import Verif.Props.Sql

/-!
# C62: any sequence of method calls builds the statement that the calls describe
-/

set_option linter.unusedSectionVars false

namespace Verif.Props
open Spec

section
variable [GoRuntime]

/-- The program panics, or gives a builder for which `P` holds, as `o` says. -/
def Outcome {S T : Type} (program : Go S) (o : Option T) (P : S → T → Prop) : Prop :=
  match o with
  | some t => ∃ s, program = .ok s ∧ P s t
  | none => ∃ p, program = .error p

/-- The statement is sent as text and arguments that a SQL parser reads as `m`. -/
def SentAs (backslash : Bool) (s : Stmt) (m : SqlStmt) : Prop :=
  ∃ text args, s.write.query = .ok (text, args) ∧ readStmt backslash text args = some m

theorem sentAs_of {b : Bool} {s : Stmt} {m : SqlStmt} (h : OneLine (commentOf s) ∧
    plainStmt (uncommented s) = true ∧ meanStmt s = m ∧ okStmt s = true) : SentAs b s m := by
  obtain ⟨h1, h2, rfl, h4⟩ := h
  exact ⟨_, _, query_eq s h4, C55_roundtrip b s h2 h1 _ _ (query_eq s h4)⟩

/-- C62, SELECT. Call `Select` and then any methods, any number of times, in any order. `SelStep.on`
says for each call, in terms of SQL alone, how it changes the query, or that it is refused. The
program panics exactly if one of the calls is refused; otherwise what is sent reads as the query the
calls add up to. -/
theorem C62_select (b : Bool) (items : List SqlItem) (hi : fitsItems items = true)
    (hne : items ≠ []) (steps : List SelStep) (hs : steps.all SelStep.fits = true)
    (hd : oneDistinct steps = true) :
    Outcome (selectOf items >>= runAll SelStep.apply steps)
      (runSteps SelStep.on steps (selectStart items))
      fun s q => SentAs b (.select s) (.select q) := by
  obtain ⟨s, h1, h2⟩ := selectOf_ok hi hne
  have h3 := selSteps_ok steps hs h2 hd
  rw [h1, go_bind]
  unfold Outcome
  split at h3
  · next q hq =>
    obtain ⟨s', h4, h5⟩ := h3
    rw [hq]
    exact ⟨s', h4, sentAs_of (holds_select h5)⟩
  · next hq =>
    rw [hq]
    exact h3

/-- C62, DELETE. -/
theorem C62_delete (b : Bool) (t : SqlTable) (ht : fitsFrom t = true) (steps : List DelStep)
    (hs : steps.all DelStep.fits = true) :
    Outcome (delete (buildFrom t) >>= runAll DelStep.apply steps)
      (runSteps DelStep.on steps (deleteStart t)) fun s d => SentAs b (.delete s) d.stmt := by
  obtain ⟨s, h1, h2⟩ := deleteOf_ok ht
  have h3 := tracks_all delStep_ok steps hs h2
  rw [h1, go_bind]
  unfold Outcome
  split at h3
  · next q hq =>
    obtain ⟨s', h4, h5⟩ := h3
    rw [hq]
    exact ⟨s', h4, sentAs_of (delState_stmt h5)⟩
  · next hq =>
    rw [hq]
    exact h3

/-- C62, UPDATE. Rendering panics exactly if the calls left nothing to set. Assignments are in the
order of the names; a later value for a column replaces an earlier one. -/
theorem C62_update (b : Bool) (t : SqlTable) (ht : fitsTable t = true) (ho : t.only = false)
    (steps : List UpdStep) (hs : steps.all UpdStep.fits = true) :
    Outcome (update (.table (buildTable t)) >>= runAll UpdStep.apply steps)
      (runSteps UpdStep.on steps (updateStart t)) fun s u =>
        (∀ m, u.stmt = some m → SentAs b (.update s) m) ∧
        (u.stmt = none → ∃ p, (Stmt.update s).write.query = .error p) := by
  obtain ⟨s, h1, h2⟩ := updateOf_ok ht ho
  have h3 := tracks_all updStep_ok steps hs h2
  rw [h1, go_bind]
  unfold Outcome
  split at h3
  · next q hq =>
    obtain ⟨s', h4, h5⟩ := h3
    rw [hq]
    exact ⟨s', h4, fun m hm => sentAs_of (updState_stmt h5 hm), updState_refused h5⟩
  · next hq =>
    rw [hq]
    exact h3

/-- C62, INSERT. `Set` gives the columns, in the order of the names, and one row. -/
theorem C62_insert (b : Bool) (t : SqlTable) (ht : fitsTable t = true) (steps : List InsStep)
    (hs : steps.all InsStep.fits = true) :
    Outcome (insert (.table (buildTable t)) >>= runAll InsStep.apply steps)
      (runSteps InsStep.on steps (insertStart t)) fun s i => SentAs b (.insert s) i.stmt := by
  obtain ⟨s, h1, h2⟩ := insertOf_ok ht
  have h3 := tracks_all insStep_ok steps hs h2
  rw [h1, go_bind]
  unfold Outcome
  split at h3
  · next q hq =>
    obtain ⟨s', h4, h5⟩ := h3
    rw [hq]
    exact ⟨s', h4, sentAs_of (insState_stmt h5)⟩
  · next hq =>
    rw [hq]
    exact h3

end

/-! ## The hypotheses can be met -/

section
attribute [local instance] Runtime.sample

private def col (parts : List Str) : Sql := .ref (.quoted parts)
private def int (n : Int) : Sql := .value (.int .int64 n)
private def table (name : Str) : SqlTable := ⟨false, .quoted [name], none⟩
private def eq (name : Str) (n : Int) : Sql := .binary s%"=" (col [name]) (int n)

private def ids : SqlSelect :=
  .mk [] .no [.mk (col [s%"id"]) none] [table s%"v"] [] (some (eq s%"k" 7)) [] none [] none none

/-- `Columns`, `Where` and `OrderBy` are called again; the comment comes first. -/
private def selSteps : List SelStep :=
  [.comment s%"a -- b", .limit 5, .where (eq s%"a" 1), .orderBy [⟨.bare [s%"n"], true⟩],
   .from [table s%"t"], .or (.exist ids), .where (eq s%"b" 2), .columns [.mk (col [s%"y"]) none],
   .orderBy [⟨.bare [s%"m"], false⟩], .with [.mk s%"w" ids]]

example : fitsItems [.mk (col [s%"x"]) none] = true ∧ selSteps.all SelStep.fits = true ∧
    oneDistinct selSteps = true := by decide +kernel

example : ((selectOf [.mk (col [s%"x"]) none] >>= runAll SelStep.apply selSteps).bind
      fun s => (Stmt.select s).write.query).toOption.map (·.1) = some
    s%"WITH w AS (SELECT \"id\" FROM \"v\" WHERE (\"k\" = $1)) SELECT \"y\" FROM \"t\" WHERE (((\"a\" = $2) OR (EXISTS (SELECT \"id\" FROM \"v\" WHERE (\"k\" = $3)))) AND (\"b\" = $4)) ORDER BY n DESC, m ASC LIMIT 5; -- a -- b" := by decide +kernel

/-- The second call of `Limit` is refused. -/
example : (runSteps SelStep.on (selSteps ++ [.limit 6])
    (selectStart [.mk (col [s%"x"]) none])).isNone = true := by decide +kernel

private def delSteps : List DelStep :=
  [.where (eq s%"a" 1), .using [table s%"u"], .returning [.mk (col [s%"id"]) none],
   .or (eq s%"b" 2), .and (eq s%"c" 3), .comment s%"x"]

example : fitsFrom (table s%"t") = true ∧ delSteps.all DelStep.fits = true := by decide +kernel

example : ((delete (buildFrom (table s%"t")) >>= runAll DelStep.apply delSteps).bind
      fun s => (Stmt.delete s).write.query).toOption.map (·.1) = some
    s%"DELETE FROM \"t\" USING \"u\" WHERE (((\"a\" = $1) OR (\"b\" = $2)) AND (\"c\" = $3)) RETURNING \"id\"; -- x" := by decide +kernel

private def updSteps : List UpdStep :=
  [.set [(.quoted [s%"b"], int 1), (.quoted [s%"c"], int 2)], .where (eq s%"a" 1), .only,
   .set [(.quoted [s%"a"], .null), (.quoted [s%"c"], .query ids)], .from (table s%"u"),
   .or (eq s%"b" 2)]

example : fitsTable (table s%"t") = true ∧ (table s%"t").only = false ∧
    updSteps.all UpdStep.fits = true := by decide +kernel

example : ((update (.table (buildTable (table s%"t"))) >>= runAll UpdStep.apply updSteps).bind
      fun s => (Stmt.update s).write.query).toOption.map (·.1) = some
    s%"UPDATE ONLY \"t\" SET \"a\" = NULL, \"b\" = $1, \"c\" = (SELECT \"id\" FROM \"v\" WHERE (\"k\" = $2)) FROM \"u\" WHERE ((\"a\" = $3) OR (\"b\" = $4))" := by decide +kernel

/-- Columns, and then their values. -/
private def updColumns : List UpdStep :=
  [.setColumns [.quoted [s%"b"]], .using [int 1], .setColumns [.quoted [s%"a"]], .using [.null]]

example : updColumns.all UpdStep.fits = true := by decide +kernel

example : ((update (.table (buildTable (table s%"t"))) >>= runAll UpdStep.apply updColumns).bind
      fun s => (Stmt.update s).write.query).toOption.map (·.1) = some
    s%"UPDATE \"t\" SET (\"b\", \"a\") = ($1, NULL)" := by decide +kernel

/-- Columns after assignments by name are refused. -/
example : (runSteps UpdStep.on (updSteps ++ updColumns) (updateStart (table s%"t"))).isNone = true := by
  decide +kernel

private def insSteps : List InsStep :=
  [.returning [.mk (col [s%"id"]) none],
   .set [(.quoted [s%"b"], int 1), (.quoted [s%"a"], int 2), (.quoted [s%"b"], int 3)],
   .conflictUpdate [.quoted [s%"a"]] [(.quoted [s%"z"], int 4), (.quoted [s%"y"], int 5)],
   .comment s%"upsert"]

example : insSteps.all InsStep.fits = true := by decide +kernel

example : ((insert (.table (buildTable (table s%"t"))) >>= runAll InsStep.apply insSteps).bind
      fun s => (Stmt.insert s).write.query).toOption.map (·.1) = some
    s%"INSERT INTO \"t\" (\"a\", \"b\") VALUES ($1, $2) ON CONFLICT (\"a\") DO UPDATE SET \"y\" = $3, \"z\" = $4 RETURNING \"id\"; -- upsert" := by decide +kernel

private def insRows : List InsStep :=
  [.conflictNothing [], .values [[int 1, .null], [.call s%"now" false [], int 4]],
   .columns [.quoted [s%"a"], .quoted [s%"b"]]]

example : insRows.all InsStep.fits = true := by decide +kernel

example : ((insert (.table (buildTable (table s%"t"))) >>= runAll InsStep.apply insRows).bind
      fun s => (Stmt.insert s).write.query).toOption.map (·.1) = some
    s%"INSERT INTO \"t\" (\"a\", \"b\") VALUES ($1, NULL), (now(), $2) ON CONFLICT DO NOTHING" := by decide +kernel

end

end Verif.Props
