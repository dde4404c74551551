import Verif.Lemmas.SqlTame
import Verif.Props.Tokens

/-!
# C55: a rendered statement reads back as the statement that was built
-/

set_option linter.unusedSectionVars false

namespace Verif.Props
open Spec

section
variable [GoRuntime]

theorem joinedAppend_supply {args : List Val} {ts : List SqlTok} {ls : List Lexeme}
    (h : supply args ts = some ls) (c : Str) :
    supply args (ts ++ if c.isEmpty then [] else [.sym ';'])
      = some (ls ++ if c.isEmpty then [] else [.tok (.sym ';')]) := by
  induction ts generalizing ls with
  | nil =>
    cases h
    split <;> rfl
  | cons t ts ih =>
    cases t
    case param ds =>
      simp only [supply] at h
      split at h
      · next k hk =>
        split at h
        · next v r hv hr =>
          cases h
          rw [List.cons_append, supply, hk]
          simp only [hv, ih hr, List.cons_append]
        · cases h
      · cases h
    all_goals
      simp only [supply] at h
      split at h
      · next r hr =>
        cases h
        rw [List.cons_append, supply, ih hr]
        · rfl
        · nofun
      · cases h

/-- C55. Full round trip. Take a statement without prefix, suffix and free SQL fragments: names are
printable ASCII without double quote and backslash, raw fragments are names, operators are those of
the library, sub-selects stand between parentheses, DISTINCT and DISTINCT ON are not combined,
LIMIT and OFFSET are not negative, SET assigns something, and the comment is one line. Then a SQL
parser that is given the text and the arguments of `Query` reads exactly the statement that was
built: with the same common table expressions, columns, tables, joins, conditions (nested in the
same way, whatever the precedence of the operators), groups, orders, limits, rows, assignments,
conflict clause, and each value in its own place. -/
theorem C55_roundtrip (b : Bool) (s : Stmt) (hs : plainStmt (uncommented s) = true)
    (hc : OneLine (commentOf s)) (q : Str) (args : List Val)
    (hq : s.write.query = .ok (q, args)) :
    readStmt b q args = some (meanStmt s) := by
  have ht : TameStmt b s := ⟨tame_layout hs, hc⟩
  obtain ⟨ha, htoks⟩ := query_tokens b s ht q args hq
  have hsup := supply_pieces (b := b) (args := args) (joined_layout (uncommented s)) ht.1 0
    (fun i v hv => by rw [ha]; simpa using hv)
  have hsup := joinedAppend_supply hsup (commentOf s)
  rw [readStmt, htoks]
  simp only [hsup]
  generalize hls : lexemes b (layout (uncommented s)) = ls
  have hr : Heads stopEnd (if (commentOf s).isEmpty then [] else [Lexeme.tok (.sym ';')]) := by
    split
    · exact .inl rfl
    · exact heads_cons (by decide) _
  have := read_any (b := b) hs (10 * (ls ++ if (commentOf s).isEmpty then []
    else [Lexeme.tok (.sym ';')]).length + 10) _ (by
      rw [hls, List.length_append]; omega) hr
  rw [hls] at this
  rw [this]
  cases (commentOf s).isEmpty <;> rfl

/-- C55, consequence: statements that mean different things are never sent as the same query. -/
theorem C55_faithful (s s' : Stmt) (hs : plainStmt (uncommented s) = true)
    (hs' : plainStmt (uncommented s') = true) (hc : OneLine (commentOf s))
    (hc' : OneLine (commentOf s')) (r : Str × List Val) (hq : s.write.query = .ok r)
    (hq' : s'.write.query = .ok r) : meanStmt s = meanStmt s' := by
  have h := C55_roundtrip true s hs hc r.1 r.2 hq
  have h' := C55_roundtrip true s' hs' hc' r.1 r.2 hq'
  rw [h] at h'
  exact Option.some.inj h'

end

/-! ## The hypotheses can be met -/

section
attribute [local instance] Runtime.sample

example : plainStmt (uncommented (.select Sample.users)) = true := by decide +kernel
example : plainStmt (uncommented (.insert Sample.insertUsers)) = true := by decide +kernel
example : plainStmt (uncommented (.update Sample.updateUsers)) = true := by decide +kernel
example : plainStmt (uncommented (.delete Sample.deleteUsers)) = true ∧
    OneLine (commentOf (.delete Sample.deleteUsers)) := by unfold OneLine; decide +kernel

/-- The meaning of a sample, spelled out. -/
example : meanStmt (.delete Sample.deleteUsers) =
    .delete [⟨false, .quoted [s%"users"], none⟩] []
      (some (.binary s%"=" (.ref (.quoted [s%"id"])) (.value (.int .int64 7)))) [] := by rfl

example : readStmt true s%"DELETE FROM \"users\" WHERE (\"id\" = $1); -- cleanup" [.int .int64 7] =
    some (meanStmt (.delete Sample.deleteUsers)) := by rfl

/-- The reader tells `a AND (b OR c)` from `(a AND b) OR c`: it is not the parentheses that
decide, but the nesting they mean. -/
example : ∃ x y, readStmt true s%"DELETE FROM \"t\" WHERE \"a\" AND (\"b\" OR \"c\")" [] = some x ∧
    readStmt true s%"DELETE FROM \"t\" WHERE \"a\" AND \"b\" OR \"c\"" [] = some y ∧
    readStmt true s%"DELETE FROM \"t\" WHERE (\"a\" AND \"b\") OR \"c\"" [] = some y ∧
    x = .delete [⟨false, .quoted [s%"t"], none⟩] []
      (some (.binary s%"AND" (.ref (.quoted [s%"a"]))
        (.binary s%"OR" (.ref (.quoted [s%"b"])) (.ref (.quoted [s%"c"]))))) [] ∧
    y = .delete [⟨false, .quoted [s%"t"], none⟩] []
      (some (.binary s%"OR" (.binary s%"AND" (.ref (.quoted [s%"a"])) (.ref (.quoted [s%"b"])))
        (.ref (.quoted [s%"c"])))) [] := ⟨_, _, rfl, rfl, rfl, rfl, rfl⟩

/-- It rejects what is not one statement. -/
example : readStmt true s%"DELETE FROM \"t\"; DELETE FROM \"u\"" [] = none := by rfl
example : readStmt true s%"DELETE FROM \"t\" WHERE" [] = none := by rfl
example : readStmt true s%"DELETE FROM \"t\" WHERE (\"a\" = $2)" [.int .int64 7] = none := by rfl

end

end Verif.Props
