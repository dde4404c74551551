import Verif.Lemmas.Portable
import Verif.Model.Runtime
import Verif.Spec.Machine

/-!
# C73: the text does not depend on the version of Go
-/

namespace Verif.Props
open Spec

/-- C73, partly: two versions of Go render a statement to the same query and arguments, if the
aliases of the columns that it assigns by name do not contradict the order of the names (without
aliases they do not) and the versions call the same characters of its names printable; and to the
same text, if they also print the same for the values that are left to `fmt.Sprint`. -/
theorem C73_partial (r r' : GoRuntime) (s : Stmt) (ha : Agree (assignedColumns s))
    (hn : ∀ n ∈ namesOf (@layout r s), SamePrint r r' n) :
    (∀ q, (@Stmt.write r s).query = .ok q ↔ (@Stmt.write r' s).query = .ok q) ∧
    (∀ q, (@Stmt.write r s).namedQuery = .ok q ↔ (@Stmt.write r' s).namedQuery = .ok q) ∧
    ((∀ v ∈ arguments (@layout r s), SameSprint r r' v) →
      ∀ t, @W.string r (@Stmt.write r s) = .ok t ↔ @W.string r' (@Stmt.write r' s) = .ok t) := by
  have hl := portable_layout r r' ha
  have ho := portable_ok r r' (s := s)
  cases h : @okStmt r s with
  | false =>
    have h' : @okStmt r' s = false := ho ▸ h
    obtain ⟨e, e1, e2, f, e3⟩ := @panics r s h
    obtain ⟨e', e1', e2', f', e3'⟩ := @panics r' s h'
    rw [e1, e2, e3, e1', e2', e3']
    simp
  | true =>
    have h' : @okStmt r' s = true := ho ▸ h
    refine ⟨fun q => ?_, fun q => ?_, fun hv t => ?_⟩
    · rw [@query_eq r s h, @query_eq r' s h', ← hl, portable_render r r' dollar hn]
    · rw [@namedQuery_eq r s h, @namedQuery_eq r' s h', ← hl, portable_render r r' colon hn]
    · rw [@stmt_string r s t, @stmt_string r' s t, ← hl, portable_raw r r' hn hv, h, h']

/-- The names decide: given that the aliases of the assigned columns do not contradict the names,
two versions of Go render a statement to the same query exactly if they call the same characters
of its names printable. -/
theorem C73_exact (r r' : GoRuntime) (s : Stmt) (ha : Agree (assignedColumns s))
    (q : Str × List Val) (hq : (@Stmt.write r s).query = .ok q) :
    (@Stmt.write r' s).query = .ok q ↔ ∀ n ∈ namesOf (@layout r s), SamePrint r r' n := by
  constructor
  · intro hq'
    have hl := portable_layout r r' ha
    have h := (@query_ok r s q hq).2
    have h' := (@query_ok r' s q hq').2
    rw [← hl, h] at h'
    exact portable_names r r' dollar (congrArg Prod.fst h')
  · exact fun hn => ((C73_partial r r' s ha hn).1 q).1 hq

/-- Names of ASCII characters are written in the same way by all versions. -/
theorem C73_ascii (r r' : GoRuntime) (s : Stmt) (ha : Agree (assignedColumns s))
    (hn : ∀ n ∈ namesOf (@layout r s), Ascii n) (q : Str × List Val) :
    (@Stmt.write r s).query = .ok q ↔ (@Stmt.write r' s).query = .ok q :=
  (C73_partial r r' s ha fun n h => portable_ascii r r' (hn n h)).1 q

/-- Building an INSERT sorts, too, in `Set`: sequences of calls build the same statement with all
versions, if the aliases of the columns of each `Set` do not contradict the names. (Building other
statements does not involve the version.) -/
theorem C73_insert (r r' : GoRuntime) (calls : List InsCall)
    (h : ∀ c ∈ calls, Agree c.setColumns) (b : InsertStmt) :
    runAll (@InsCall.apply r) calls b = runAll (@InsCall.apply r') calls b := by
  induction calls generalizing b with
  | nil => rfl
  | cons c l ih =>
    simp only [runAll]
    rw [portable_call r r' (h c (List.mem_cons_self ..))]
    cases @InsCall.apply r' c b with
    | error e => rfl
    | ok b' => exact ih (fun d hd => h d (List.mem_cons_of_mem _ hd)) b'

/-! ## It is false in general -/

/-- `Update("t").Set(Pair(Column("a").As("y"), 1), Pair(Column("b").As("x"), 2))` -/
private def twoAliases : Go UpdateStmt := do
  (← Verif.update (.val (.str s%"t"))).Set
    [Api.Pair (.selExpr (.column ((Api.Column s%"a").as s%"y"))) (.val (.int .int64 1)),
     Api.Pair (.selExpr (.column ((Api.Column s%"b").as s%"x"))) (.val (.int .int64 2))]

/-- `Select("é")` -/
private def accent : Go SelectStmt := Verif.select [.val (.str s%"é")]

/-- What a version of Go makes of a statement. -/
private def sent (r : GoRuntime) (s : Stmt) : Option Str :=
  match (@Stmt.write r s).query with
  | .ok q => some q.1
  | .error _ => none

/-- C73 is false. Columns with different aliases can be put in any order: the comparison says of
both that they are less than the other. And a character outside ASCII that only a later version
calls printable is written differently. -/
theorem C73_false : ∃ r r' : GoRuntime,
    (∃ s, twoAliases = .ok s ∧ (∀ n ∈ namesOf (@layout r (.update s)), SamePrint r r' n) ∧
      sent r' (.update s) = some s%"UPDATE \"t\" SET \"a\" AS \"y\" = $1, \"b\" AS \"x\" = $2" ∧
      sent r (.update s) = some s%"UPDATE \"t\" SET \"b\" AS \"x\" = $1, \"a\" AS \"y\" = $2") ∧
    (∃ s, accent = .ok s ∧ Agree (assignedColumns (.select s)) ∧
      sent r (.select s) = some s%"SELECT \"\\u00e9\"" ∧
      sent r' (.select s) = some s%"SELECT \"é\"") := by
  refine ⟨Runtime.sample, Runtime.other, ⟨_, rfl, ?_, ?_, ?_⟩, ⟨_, rfl, ?_, ?_, ?_⟩⟩
  · unfold SamePrint; decide +kernel
  · decide +kernel
  · decide +kernel
  · decide +kernel
  · decide +kernel
  · decide +kernel

/-! ## The hypotheses can be met -/

/-- An UPDATE with an accent in a name, for two versions that call it printable. -/
private def both : Go UpdateStmt := do
  (← Verif.update (.val (.str s%"t"))).Set
    [Api.Pair (.val (.str s%"b")) (.val (.int .int64 1)),
     Api.Pair (.val (.str s%"é")) (.val (.str s%"x"))]

example : ∃ s, both = .ok s ∧ Agree (assignedColumns (.update s)) ∧
    (∀ n ∈ namesOf (@layout Runtime.other (.update s)),
      SamePrint Runtime.other { Runtime.other with sortSlice := Runtime.sortBy,
                                                   sortSlice_perm := Runtime.sortBy_perm,
                                                   sortSlice_sorted := Runtime.sortBy_sorted } n) ∧
    sent Runtime.other (.update s) = some s%"UPDATE \"t\" SET \"b\" = $1, \"é\" = $2" :=
  ⟨_, rfl, by decide +kernel, fun _ _ _ _ => rfl, by decide +kernel⟩

example : Agree (InsCall.set
    [Api.Pair (.val (.str s%"b")) (.val (.int .int64 1)),
     Api.Pair (.val (.str s%"a")) (.val (.str s%"x"))]).setColumns := by decide +kernel

end Verif.Props
