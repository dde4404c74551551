import Verif.Props.Shape
import Verif.Spec.Script

/-!
# C62, C63 and C71 for programs of all kinds
-/

namespace Verif.Props
open Spec

section
variable [GoRuntime]

/-- The statement is of the fragment of C55, can be rendered, and means `m`. -/
private def Fits (s : Stmt) (m : SqlStmt) : Prop :=
  OneLine (commentOf s) ∧ plainStmt (uncommented s) = true ∧ meanStmt s = m ∧ okStmt s = true

/-- What a program gives. -/
private theorem script_run (p : Script) (hp : p.fits = true) :
    match p.describes with
    | some m => ∃ s, p.run = .ok s ∧ Fits s m
    | none => ∃ e, (p.run >>= fun s => s.write.query) = .error e := by
  cases p with
  | select items steps =>
    simp only [Script.fits, Bool.and_eq_true, Bool.not_eq_true', List.isEmpty_eq_false_iff] at hp
    obtain ⟨⟨⟨h1, h2⟩, h3⟩, h4⟩ := hp
    obtain ⟨s0, e1, e2⟩ := selectOf_ok h1 h2
    have h5 := selSteps_ok steps h3 e2 h4
    simp only [Script.describes, Script.run, e1, go_bind]
    split at h5
    · next q hq =>
      obtain ⟨s, h6, h7⟩ := h5
      rw [hq]
      exact ⟨.select s, by rw [h6]; rfl, holds_select h7⟩
    · next hq =>
      obtain ⟨e, h6⟩ := h5
      rw [hq]
      exact ⟨e, by rw [h6]; rfl⟩
  | insert t steps =>
    simp only [Script.fits, Bool.and_eq_true] at hp
    obtain ⟨s0, e1, e2⟩ := insertOf_ok hp.1
    have h5 := tracks_all insStep_ok steps hp.2 e2
    simp only [Script.describes, Script.run, e1, go_bind]
    split at h5
    · next q hq =>
      obtain ⟨s, h6, h7⟩ := h5
      rw [hq]
      exact ⟨.insert s, by rw [h6]; rfl, insState_stmt h7⟩
    · next hq =>
      obtain ⟨e, h6⟩ := h5
      rw [hq]
      exact ⟨e, by rw [h6]; rfl⟩
  | update t steps =>
    simp only [Script.fits, Bool.and_eq_true, Bool.not_eq_true'] at hp
    obtain ⟨s0, e1, e2⟩ := updateOf_ok hp.1.1 hp.1.2
    have h5 := tracks_all updStep_ok steps hp.2 e2
    simp only [Script.describes, Script.run, e1, go_bind]
    split at h5
    · next q hq =>
      obtain ⟨s, h6, h7⟩ := h5
      rw [hq, Option.bind_some]
      cases hm : q.stmt with
      | some m => exact ⟨.update s, by rw [h6]; rfl, updState_stmt h7 hm⟩
      | none =>
        obtain ⟨e, h8⟩ := updState_refused h7 hm
        exact ⟨e, by rw [h6]; exact h8⟩
    · next hq =>
      obtain ⟨e, h6⟩ := h5
      rw [hq]
      exact ⟨e, by rw [h6]; rfl⟩
  | delete t steps =>
    simp only [Script.fits, Bool.and_eq_true] at hp
    obtain ⟨s0, e1, e2⟩ := deleteOf_ok hp.1
    have h5 := tracks_all delStep_ok steps hp.2 e2
    simp only [Script.describes, Script.run, e1, go_bind]
    split at h5
    · next q hq =>
      obtain ⟨s, h6, h7⟩ := h5
      rw [hq]
      exact ⟨.delete s, by rw [h6]; rfl, delState_stmt h7⟩
    · next hq =>
      obtain ⟨e, h6⟩ := h5
      rw [hq]
      exact ⟨e, by rw [h6]; rfl⟩

/-- A program that is sent describes a statement. -/
private theorem script_sent {p : Script} (hp : p.fits = true) {s : Stmt} {r : Str × List Val}
    (hr : p.run = .ok s) (hq : s.write.query = .ok r) : ∃ m, p.describes = some m ∧ Fits s m := by
  have h := script_run p hp
  cases hd : p.describes with
  | none =>
    rw [hd] at h
    obtain ⟨e, he⟩ := h
    rw [hr] at he
    have he : s.write.query = .error e := he
    rw [hq] at he
    cases he
  | some m =>
    rw [hd] at h
    obtain ⟨s', h1, h2⟩ := h
    rw [hr] at h1
    cases h1
    exact ⟨m, rfl, h2⟩

/-- C62 for programs of all kinds. If the calls describe a statement, then the program runs and what
it sends reads as that statement; otherwise building it or asking for the query panics. -/
theorem C62_program (b : Bool) (p : Script) (hp : p.fits = true) :
    match p.describes with
    | some m => ∃ s, p.run = .ok s ∧ SentAs b s m
    | none => ∃ e, (p.run >>= fun s => s.write.query) = .error e := by
  have h := script_run p hp
  split at h
  · obtain ⟨s, h1, h2⟩ := h
    exact ⟨s, h1, sentAs_of h2⟩
  · exact h

/-- C63 for programs of all kinds: the three renderings read as the statement that the calls
describe. -/
theorem C63_program (b : Bool) (p : Script) (hp : p.fits = true) (s : Stmt) (hr : p.run = .ok s)
    (q : Str) (args : List Val) (t u : Str) (m : Option (List (Str × Val)))
    (hq : s.write.query = .ok (q, args)) (hn : s.write.namedQuery = .ok (u, m))
    (ht : s.write.string = .ok t) (hv : ∀ v ∈ args, Exact v = true ∧ Legible b v)
    (hd : ∀ ts, tokens b q = some ts → .word s%"decode" ∉ ts) :
    ∃ d, p.describes = some d ∧ readStmt b q args = some d ∧ readNamed b u (m.getD []) = some d ∧
      readText b t = some d := by
  obtain ⟨d, h1, h2, h3, rfl, -⟩ := script_sent hp hr hq
  exact ⟨_, h1, C63_all b s h3 h2 q args t u m hq hn ht hv hd⟩

/-- C71 for programs of all kinds: if two sequences of calls, in any order, send the same text, then
the calls describe the same statement, except for the values, with the same number of arguments. -/
theorem C71_program (p p' : Script) (hp : p.fits = true) (hp' : p'.fits = true) (s s' : Stmt)
    (hr : p.run = .ok s) (hr' : p'.run = .ok s') (text : Str) (args args' : List Val)
    (hq : s.write.query = .ok (text, args)) (hq' : s'.write.query = .ok (text, args')) :
    args.length = args'.length ∧ ∃ m m', p.describes = some m ∧ p'.describes = some m' ∧
      m.SameShape m' := by
  obtain ⟨m, h1, h2, h3, rfl, -⟩ := script_sent hp hr hq
  obtain ⟨m', h1', h2', h3', rfl, -⟩ := script_sent hp' hr' hq'
  obtain ⟨h4, h5⟩ := C71_query s s' h3 h3' h2 h2' text args args' hq hq'
  exact ⟨h4, _, _, h1, h1', h5⟩

end

/-! ## The hypotheses can be met -/

section
attribute [local instance] Runtime.sample

private def col (name : Str) : Sql := .ref (.quoted [name])
private def int (n : Int) : Sql := .value (.int .int64 n)
private def table (name : Str) : SqlTable := ⟨false, .quoted [name], none⟩
private def eq (name : Str) (n : Int) : Sql := .binary s%"=" (col name) (int n)

private def upd (x y : Int) : Script := .update (table s%"t")
  [.where (eq s%"k" x), .set [(.quoted [s%"b"], int y), (.quoted [s%"a"], .null)],
   .and (.isIn false (col s%"j") (.list [int 1, int 2]))]

/-- The same, with the calls in another order and other values. -/
private def upd' (x y : Int) : Script := .update (table s%"t")
  [.set [(.quoted [s%"a"], .null)], .where (eq s%"k" x), .where (.isIn false (col s%"j")
    (.list [int 5, int 6])), .set [(.quoted [s%"b"], int 7), (.quoted [s%"b"], int y)]]

private def textOf (p : Script) : Option Str :=
  (p.run.bind fun s => s.write.query).toOption.map (·.1)

example : (upd 1 2).fits = true ∧ (upd' 3 4).fits = true ∧ textOf (upd 1 2) = textOf (upd' 3 4) ∧
    textOf (upd 1 2) =
      some s%"UPDATE \"t\" SET \"a\" = NULL, \"b\" = $1 WHERE ((\"k\" = $2) AND (\"j\" IN ($3, $4)))" := by
  decide +kernel

/-- A program that describes nothing: there is nothing to set. -/
example : (Script.update (table s%"t") [.where (eq s%"k" 1)]).fits = true ∧
    (Script.update (table s%"t") [.where (eq s%"k" 1)]).describes.isNone = true := by decide +kernel

/-- The hypotheses on the values and the text for `C63_program`. -/
example : (Script.delete (table s%"t") [.where (eq s%"k" 1)]).fits = true ∧
    textOf (.delete (table s%"t") [.where (eq s%"k" 1)]) =
      some s%"DELETE FROM \"t\" WHERE (\"k\" = $1)" ∧
    ((tokens true s%"DELETE FROM \"t\" WHERE (\"k\" = $1)").getD []).all
      (fun t => t ≠ .word s%"decode") = true := by decide +kernel

end

end Verif.Props
