import Verif.Lemmas.Where
import Verif.Lemmas.CondText
import Verif.Props.Compare

/-!
# C16-C18: conditions of SELECT, UPDATE and DELETE
-/

set_option linter.unusedSectionVars false

namespace Verif.Props
open Spec

/-- The condition methods of the SELECT builder. -/
def selectCall [GoRuntime] (b : SelectStmt) : CondCall → Expr → Go SelectStmt
  | .whr => b.Where
  | .and => b.And
  | .or => b.Or

/-- The condition methods of the UPDATE builder. -/
def updateCall [GoRuntime] (b : UpdateStmt) : CondCall → Expr → Go UpdateStmt
  | .whr => b.Where
  | .and => b.And
  | .or => b.Or

/-- The condition methods of the DELETE builder. -/
def deleteCall [GoRuntime] (b : DeleteStmt) : CondCall → Expr → Go DeleteStmt
  | .whr => b.Where
  | .and => b.And
  | .or => b.Or

section
variable [GoRuntime]

private theorem select_step {b : SelectStmt} {c : CondCall} {e w : Expr} (hn : e.isNil = false)
    (h : condStep b.whr c e = .ok w) : selectCall b c e = .ok { b with whr := w } := by
  cases c
  · simp only [selectCall, SelectStmt.Where, SelectStmt.And, hn, Bool.false_eq_true, if_false]
    simp only [condStep] at h
    split at h
    · cases h
    · rename_i hu; cases h; simp only [hu]
    · rename_i hu; simp only [hu, h]
  · simp only [condStep] at h
    simp only [selectCall, SelectStmt.And, hn, Bool.false_eq_true, if_false, h]
  · simp only [condStep] at h
    simp only [selectCall, SelectStmt.Or, h]

private theorem select_step_inv (b : SelectStmt) (c : CondCall) (e : Expr) (b' : SelectStmt)
    (h : selectCall b c e = .ok b') :
    ∃ w, condStep b.whr c e = .ok w ∧ b' = { b with whr := w } := by
  cases c
  · simp only [selectCall, SelectStmt.Where, SelectStmt.And] at h
    cases hn : e.isNil with
    | true => simp [hn, Go.panic] at h
    | false =>
      simp only [hn, Bool.false_eq_true, if_false] at h
      simp only [condStep]
      split at h
      · cases h
      · rename_i hu; cases h; exact ⟨_, by simp only [hu], rfl⟩
      · rename_i hu
        split at h
        · cases h
        · rename_i w hw; cases h; exact ⟨w, by simp only [hu, hw], rfl⟩
  · simp only [selectCall, SelectStmt.And] at h
    cases hn : e.isNil with
    | true => simp [hn, Go.panic] at h
    | false =>
      simp only [hn, Bool.false_eq_true, if_false] at h
      split at h
      · cases h
      · rename_i w hw; cases h; exact ⟨w, hw, rfl⟩
  · simp only [selectCall, SelectStmt.Or] at h
    split at h
    · cases h
    · rename_i w hw; cases h; exact ⟨w, hw, rfl⟩

private theorem update_step {b : UpdateStmt} {c : CondCall} {e w : Expr}
    (h : condStep b.whr c e = .ok w) : updateCall b c e = .ok { b with whr := w } := by
  cases c
  · simp only [updateCall, UpdateStmt.Where, UpdateStmt.And]
    simp only [condStep] at h
    split at h
    · cases h
    · rename_i hu; cases h; simp only [hu]
    · rename_i hu; simp only [hu, h]
  · simp only [condStep] at h
    simp only [updateCall, UpdateStmt.And, h]
  · simp only [condStep] at h
    simp only [updateCall, UpdateStmt.Or, h]

private theorem update_step_inv (b : UpdateStmt) (c : CondCall) (e : Expr) (b' : UpdateStmt)
    (h : updateCall b c e = .ok b') :
    ∃ w, condStep b.whr c e = .ok w ∧ b' = { b with whr := w } := by
  cases c
  · simp only [updateCall, UpdateStmt.Where, UpdateStmt.And] at h
    simp only [condStep]
    split at h
    · cases h
    · rename_i hu; cases h; exact ⟨_, by simp only [hu], rfl⟩
    · rename_i hu
      split at h
      · cases h
      · rename_i w hw; cases h; exact ⟨w, by simp only [hu, hw], rfl⟩
  · simp only [updateCall, UpdateStmt.And] at h
    split at h
    · cases h
    · rename_i w hw; cases h; exact ⟨w, hw, rfl⟩
  · simp only [updateCall, UpdateStmt.Or] at h
    split at h
    · cases h
    · rename_i w hw; cases h; exact ⟨w, hw, rfl⟩

private theorem delete_step {b : DeleteStmt} {c : CondCall} {e w : Expr}
    (h : condStep b.whr c e = .ok w) : deleteCall b c e = .ok { b with whr := w } := by
  cases c
  · simp only [deleteCall, DeleteStmt.Where, DeleteStmt.And]
    simp only [condStep] at h
    split at h
    · cases h
    · rename_i hu; cases h; simp only [hu]
    · rename_i hu; simp only [hu, h]
  · simp only [condStep] at h
    simp only [deleteCall, DeleteStmt.And, h]
  · simp only [condStep] at h
    simp only [deleteCall, DeleteStmt.Or, h]

private theorem delete_step_inv (b : DeleteStmt) (c : CondCall) (e : Expr) (b' : DeleteStmt)
    (h : deleteCall b c e = .ok b') :
    ∃ w, condStep b.whr c e = .ok w ∧ b' = { b with whr := w } := by
  cases c
  · simp only [deleteCall, DeleteStmt.Where, DeleteStmt.And] at h
    simp only [condStep]
    split at h
    · cases h
    · rename_i hu; cases h; exact ⟨_, by simp only [hu], rfl⟩
    · rename_i hu
      split at h
      · cases h
      · rename_i w hw; cases h; exact ⟨w, by simp only [hu, hw], rfl⟩
  · simp only [deleteCall, DeleteStmt.And] at h
    split at h
    · cases h
    · rename_i w hw; cases h; exact ⟨w, hw, rfl⟩
  · simp only [deleteCall, DeleteStmt.Or] at h
    split at h
    · cases h
    · rename_i w hw; cases h; exact ⟨w, hw, rfl⟩

private theorem isNil_of_blank {e : Expr} (h : blank e = false) : e.isNil = false := by
  cases e <;> first | rfl | (simp [blank] at h)

/-! ## C16 -/

private theorem first_text {c0 : Expr} {t0 : Str} (h0 : blank c0 = false)
    (ht0 : c0.write.string = .ok t0) (calls : List (CondCall × Expr × Str))
    (hc : ∀ x ∈ calls, blank x.2.1 = false ∧ x.2.1.write.string = .ok x.2.2) :
    ∃ w, runCalls condStep .nil ((.whr, c0) :: calls.map fun x => (x.1, x.2.1)) = .ok w ∧
      blank w = false ∧ w.write.string = .ok (foldText (operandOf true c0 t0)
        (calls.map fun x => (x.1, operandOf true x.2.1 x.2.2))) := by
  obtain ⟨w, hw, hb, ht⟩ := run_text calls (w := newWrapper c0) (t := operandOf true c0 t0)
    (by rw [blank_wrapper, h0]) ((wrapper_string _ _).2 ⟨t0, ht0, rfl⟩) hc
  exact ⟨w, by rw [runCalls]; exact hw, hb, ht⟩

private theorem nonNil_calls {c0 : Expr} (h0 : blank c0 = false)
    {calls : List (CondCall × Expr × Str)}
    (hc : ∀ x ∈ calls, blank x.2.1 = false ∧ x.2.1.write.string = .ok x.2.2) :
    ∀ x ∈ ((.whr, c0) :: calls.map fun x => (x.1, x.2.1) : List (CondCall × Expr)),
      x.2.isNil = false := by
  intro x hx
  rcases List.mem_cons.1 hx with rfl | hx
  · exact isNil_of_blank h0
  · obtain ⟨y, hy, rfl⟩ := List.mem_map.1 hx
    exact isNil_of_blank (hc y hy).1

/-- C16, SELECT. Take a builder without condition, whose text is `u`. There is one place in `u`
such that for all non-empty conditions `c0, c1, ...` the calls `Where(c0)` and then
`Where/And/Or(c1)`, ... succeed and insert there
` WHERE (((c0 AND|OR c1) AND|OR c2) ...)`, in the order of the calls. -/
theorem C16_select (b : SelectStmt) (hb : b.whr = .nil) (u : Str) (hu : b.write.string = .ok u) :
    ∃ pre post, u = pre ++ post ∧
      ∀ (c0 : Expr) (t0 : Str) (calls : List (CondCall × Expr × Str)),
        blank c0 = false → c0.write.string = .ok t0 →
        (∀ x ∈ calls, blank x.2.1 = false ∧ x.2.1.write.string = .ok x.2.2) →
        ∃ b', runCalls selectCall b ((.whr, c0) :: calls.map fun x => (x.1, x.2.1)) = .ok b' ∧
          b'.write.string = .ok (pre ++ s%" WHERE " ++ foldText (operandOf true c0 t0)
            (calls.map fun x => (x.1, operandOf true x.2.1 x.2.2)) ++ post) := by
  have hb0 : { b with whr := .nil } = b := by cases b; simp_all
  obtain ⟨p, q, hL⟩ := select_where b
  obtain ⟨rest, hok⟩ := select_okWhere b
  obtain ⟨pre, post, rfl, h⟩ := where_text hL hok
    (by rw [hb0]; exact (select_string _ _).1 hu)
  refine ⟨pre, post, rfl, fun c0 t0 calls h0 ht0 hc => ?_⟩
  obtain ⟨w, hw, hbw, htw⟩ := first_text h0 ht0 calls hc
  refine ⟨{ b with whr := w }, ?_, (select_string _ _).2 (h w _ hbw htw)⟩
  exact runCalls_lift (step := selectCall) (fun b => b.whr) (fun b w => { b with whr := w })
    (fun _ _ => rfl) (fun _ _ _ => rfl) (fun b c e w' hn hs => select_step hn hs) _
    (nonNil_calls h0 hc) (fun b => by cases b; rfl) b w (by rw [hb]; exact hw)

/-- C16, UPDATE. -/
theorem C16_update (b : UpdateStmt) (hb : b.whr = .nil) (u : Str)
    (hu : (Stmt.update b).write.string = .ok u) :
    ∃ pre post, u = pre ++ post ∧
      ∀ (c0 : Expr) (t0 : Str) (calls : List (CondCall × Expr × Str)),
        blank c0 = false → c0.write.string = .ok t0 →
        (∀ x ∈ calls, blank x.2.1 = false ∧ x.2.1.write.string = .ok x.2.2) →
        ∃ b', runCalls updateCall b ((.whr, c0) :: calls.map fun x => (x.1, x.2.1)) = .ok b' ∧
          (Stmt.update b').write.string = .ok (pre ++ s%" WHERE " ++ foldText (operandOf true c0 t0)
            (calls.map fun x => (x.1, operandOf true x.2.1 x.2.2)) ++ post) := by
  have hb0 : { b with whr := .nil } = b := by cases b; simp_all
  obtain ⟨p, q, hL⟩ := update_where b
  obtain ⟨rest, hok⟩ := update_okWhere b
  obtain ⟨pre, post, rfl, h⟩ := where_text hL hok
    (by rw [hb0]; exact (stmt_string _ _).1 hu)
  refine ⟨pre, post, rfl, fun c0 t0 calls h0 ht0 hc => ?_⟩
  obtain ⟨w, hw, hbw, htw⟩ := first_text h0 ht0 calls hc
  refine ⟨{ b with whr := w }, ?_, (stmt_string _ _).2 (h w _ hbw htw)⟩
  exact runCalls_lift (step := updateCall) (fun b => b.whr) (fun b w => { b with whr := w })
    (fun _ _ => rfl) (fun _ _ _ => rfl) (fun b c e w' _ hs => update_step hs) _
    (nonNil_calls h0 hc) (fun _ => rfl) b w (by rw [hb]; exact hw)

/-- C16, DELETE. -/
theorem C16_delete (b : DeleteStmt) (hb : b.whr = .nil) (u : Str)
    (hu : (Stmt.delete b).write.string = .ok u) :
    ∃ pre post, u = pre ++ post ∧
      ∀ (c0 : Expr) (t0 : Str) (calls : List (CondCall × Expr × Str)),
        blank c0 = false → c0.write.string = .ok t0 →
        (∀ x ∈ calls, blank x.2.1 = false ∧ x.2.1.write.string = .ok x.2.2) →
        ∃ b', runCalls deleteCall b ((.whr, c0) :: calls.map fun x => (x.1, x.2.1)) = .ok b' ∧
          (Stmt.delete b').write.string = .ok (pre ++ s%" WHERE " ++ foldText (operandOf true c0 t0)
            (calls.map fun x => (x.1, operandOf true x.2.1 x.2.2)) ++ post) := by
  have hb0 : { b with whr := .nil } = b := by cases b; simp_all
  obtain ⟨p, q, hL⟩ := delete_where b
  obtain ⟨rest, hok⟩ := delete_okWhere b
  obtain ⟨pre, post, rfl, h⟩ := where_text hL hok
    (by rw [hb0]; exact (stmt_string _ _).1 hu)
  refine ⟨pre, post, rfl, fun c0 t0 calls h0 ht0 hc => ?_⟩
  obtain ⟨w, hw, hbw, htw⟩ := first_text h0 ht0 calls hc
  refine ⟨{ b with whr := w }, ?_, (stmt_string _ _).2 (h w _ hbw htw)⟩
  exact runCalls_lift (step := deleteCall) (fun b => b.whr) (fun b w => { b with whr := w })
    (fun _ _ => rfl) (fun _ _ _ => rfl) (fun b c e w' _ hs => delete_step hs) _
    (nonNil_calls h0 hc) (fun _ => rfl) b w (by rw [hb]; exact hw)

/-! ## C17 -/

/-- `Condition("id").Equal(1)` -/
def goodCondition : Expr :=
  .infx (.ident (.str s%"id")) (.comparison s%"=") (.value (.int .int 1))

/-- `Condition("").Equal(1)` -/
def emptyCondition : Expr :=
  .infx (.ident (.str [])) (.comparison s%"=") (.value (.int .int 1))

/-- C17 is false: after `Delete("users").Where(id = 1).And(c)`, where `c` compares an identifier
with an empty name, the statement is rendered, and deletes all rows. -/
theorem C17_false :
    ∃ (b b1 b2 : DeleteStmt),
      Ident.Equal (.str s%"id") (.val (.int .int 1)) = .ok goodCondition ∧
      Ident.Equal (.str []) (.val (.int .int 1)) = .ok emptyCondition ∧
      delete (.val (.str s%"users")) = .ok b ∧ b.Where goodCondition = .ok b1 ∧
      b1.And emptyCondition = .ok b2 ∧
      (Stmt.delete b2).write.string = .ok (s%"DELETE FROM " ++ quote s%"users") := by
  refine ⟨_, _, _, rfl, rfl, rfl, rfl, rfl, rfl⟩

/-- C17 is false also this way: a later condition replaces the earlier one. -/
theorem C17_false_replaced :
    ∃ (b b1 b2 b3 : DeleteStmt) (other : Expr),
      Ident.Equal (.str s%"name") (.val (.int .int 2)) = .ok other ∧
      delete (.val (.str s%"users")) = .ok b ∧ b.Where goodCondition = .ok b1 ∧
      b1.And emptyCondition = .ok b2 ∧ b2.Where other = .ok b3 ∧
      (Stmt.delete b3).write.string =
        .ok (s%"DELETE FROM " ++ quote s%"users" ++ s%" WHERE (" ++ quote s%"name" ++ s%" = 2)") := by
  refine ⟨_, _, _, _, .infx (.ident (.str s%"name")) (.comparison s%"=") (.value (.int .int 2)),
    rfl, rfl, rfl, rfl, rfl, (stmt_string _ _).2 ⟨rfl, ?_⟩⟩
  have h : layout (.delete ⟨[.table { name := s%"users" }], [],
      .infx (.ident (.str s%"name")) (.comparison s%"=") (.value (.int .int 2)), [], []⟩)
      = [.sql s%"DELETE", .sql s%" ", .sql s%"FROM ", .name s%"users", .sql s%" ", .sql s%"WHERE ",
        .sql s%"(", .name s%"name", .sql s%" ", .raw s%"=", .sql s%" ", .val (.int .int 2), .sql s%")"] := by rfl
  refine (congrArg rawText h).trans ?_
  simp [rawText, Piece.rawText]
  rfl

/-- C17, what holds, SELECT: if no condition given is empty and the statement can be rendered,
its text contains a WHERE clause which contains the texts of all conditions. Missing from C17:
empty conditions (there C17 is false, see `C17_false`). -/
theorem C17_select_partial (b b' : SelectStmt) (calls : List (CondCall × Expr)) (hne : calls ≠ [])
    (h : runCalls selectCall b calls = .ok b') (hc : ∀ x ∈ calls, blank x.2 = false)
    (text : Str) (ht : b'.write.string = .ok text) :
    ∃ pre clause post, text = pre ++ s%" WHERE " ++ clause ++ post ∧
      ∀ x ∈ calls, ∃ t, x.2.write.string = .ok t ∧ t <:+: clause := by
  obtain ⟨w, hw, rfl⟩ := runCalls_lower (step := selectCall) (fun b => b.whr)
    (fun b w => { b with whr := w }) (fun _ _ => rfl) (fun _ _ _ => rfl) (fun b => by cases b; rfl)
    select_step_inv calls b b' h
  obtain ⟨p, q, hL⟩ := select_where b
  obtain ⟨rest, hok⟩ := select_okWhere b
  obtain ⟨hb, hk⟩ := run_keeps calls hw hc
  obtain ⟨x, t, y, hwt, rfl, -, -⟩ := where_inv hL hok (hb (.inl hne)) ((select_string _ _).1 ht)
  exact ⟨x, t, y, rfl, (hk t hwt).1⟩

/-- C17, what holds, UPDATE. Missing from C17: empty conditions. -/
theorem C17_update_partial (b b' : UpdateStmt) (calls : List (CondCall × Expr)) (hne : calls ≠ [])
    (h : runCalls updateCall b calls = .ok b') (hc : ∀ x ∈ calls, blank x.2 = false)
    (text : Str) (ht : (Stmt.update b').write.string = .ok text) :
    ∃ pre clause post, text = pre ++ s%" WHERE " ++ clause ++ post ∧
      ∀ x ∈ calls, ∃ t, x.2.write.string = .ok t ∧ t <:+: clause := by
  obtain ⟨w, hw, rfl⟩ := runCalls_lower (step := updateCall) (fun b => b.whr)
    (fun b w => { b with whr := w }) (fun _ _ => rfl) (fun _ _ _ => rfl) (fun _ => rfl)
    update_step_inv calls b b' h
  obtain ⟨p, q, hL⟩ := update_where b
  obtain ⟨rest, hok⟩ := update_okWhere b
  obtain ⟨hb, hk⟩ := run_keeps calls hw hc
  obtain ⟨x, t, y, hwt, rfl, -, -⟩ := where_inv hL hok (hb (.inl hne)) ((stmt_string _ _).1 ht)
  exact ⟨x, t, y, rfl, (hk t hwt).1⟩

/-- C17, what holds, DELETE. Missing from C17: empty conditions. -/
theorem C17_delete_partial (b b' : DeleteStmt) (calls : List (CondCall × Expr)) (hne : calls ≠ [])
    (h : runCalls deleteCall b calls = .ok b') (hc : ∀ x ∈ calls, blank x.2 = false)
    (text : Str) (ht : (Stmt.delete b').write.string = .ok text) :
    ∃ pre clause post, text = pre ++ s%" WHERE " ++ clause ++ post ∧
      ∀ x ∈ calls, ∃ t, x.2.write.string = .ok t ∧ t <:+: clause := by
  obtain ⟨w, hw, rfl⟩ := runCalls_lower (step := deleteCall) (fun b => b.whr)
    (fun b w => { b with whr := w }) (fun _ _ => rfl) (fun _ _ _ => rfl) (fun _ => rfl)
    delete_step_inv calls b b' h
  obtain ⟨p, q, hL⟩ := delete_where b
  obtain ⟨rest, hok⟩ := delete_okWhere b
  obtain ⟨hb, hk⟩ := run_keeps calls hw hc
  obtain ⟨x, t, y, hwt, rfl, -, -⟩ := where_inv hL hok (hb (.inl hne)) ((stmt_string _ _).1 ht)
  exact ⟨x, t, y, rfl, (hk t hwt).1⟩

/-- C17, what the code does, SELECT. Whatever conditions are given by successful calls, the text is the
text without conditions with a clause inserted at one place; the clause combines exactly the
conditions given after the last empty one, and is left out if there is none. -/
theorem C17_select_exact (b : SelectStmt) (hb : b.whr = .nil) (u : Str)
    (hu : b.write.string = .ok u) :
    ∃ pre post, u = pre ++ post ∧ ∀ (calls : List (CondCall × Expr)) (b' : SelectStmt) (text : Str),
      runCalls selectCall b calls = .ok b' → b'.write.string = .ok text →
      ∃ texts, Each OperandText (lasting calls) texts ∧ text = pre ++ whereText texts ++ post := by
  have hb0 : { b with whr := .nil } = b := by cases b; simp_all
  obtain ⟨p, q, hL⟩ := select_where b
  obtain ⟨rest, hok⟩ := select_okWhere b
  obtain ⟨pre, post, rfl, h⟩ := lasts_text hL hok (by rw [hb0]; exact (select_string _ _).1 hu)
  refine ⟨pre, post, rfl, fun calls b' text hc ht => ?_⟩
  obtain ⟨w, hw, rfl⟩ := runCalls_lower (step := selectCall) (fun b => b.whr)
    (fun b w => { b with whr := w }) (fun _ _ => rfl) (fun _ _ _ => rfl) (fun b => by cases b; rfl)
    select_step_inv calls b b' hc
  simp only [hb] at hw
  have := lasts_run calls (before := []) (show Lasts .nil _ from rfl) hw
  obtain ⟨h1, h2⟩ := (select_string _ _).1 ht
  exact h _ w text this h1 h2

/-- C17, what the code does, UPDATE. Whatever conditions are given by successful calls, the text is the
text without conditions with a clause inserted at one place; the clause combines exactly the
conditions given after the last empty one, and is left out if there is none. -/
theorem C17_update_exact (b : UpdateStmt) (hb : b.whr = .nil) (u : Str)
    (hu : (Stmt.update b).write.string = .ok u) :
    ∃ pre post, u = pre ++ post ∧ ∀ (calls : List (CondCall × Expr)) (b' : UpdateStmt) (text : Str),
      runCalls updateCall b calls = .ok b' → (Stmt.update b').write.string = .ok text →
      ∃ texts, Each OperandText (lasting calls) texts ∧ text = pre ++ whereText texts ++ post := by
  have hb0 : { b with whr := .nil } = b := by cases b; simp_all
  obtain ⟨p, q, hL⟩ := update_where b
  obtain ⟨rest, hok⟩ := update_okWhere b
  obtain ⟨pre, post, rfl, h⟩ := lasts_text hL hok (by rw [hb0]; exact (stmt_string _ _).1 hu)
  refine ⟨pre, post, rfl, fun calls b' text hc ht => ?_⟩
  obtain ⟨w, hw, rfl⟩ := runCalls_lower (step := updateCall) (fun b => b.whr)
    (fun b w => { b with whr := w }) (fun _ _ => rfl) (fun _ _ _ => rfl) (fun b => by cases b; rfl)
    update_step_inv calls b b' hc
  simp only [hb] at hw
  have := lasts_run calls (before := []) (show Lasts .nil _ from rfl) hw
  obtain ⟨h1, h2⟩ := (stmt_string _ _).1 ht
  exact h _ w text this h1 h2

/-- C17, what the code does, DELETE. Whatever conditions are given by successful calls, the text is the
text without conditions with a clause inserted at one place; the clause combines exactly the
conditions given after the last empty one, and is left out if there is none. -/
theorem C17_delete_exact (b : DeleteStmt) (hb : b.whr = .nil) (u : Str)
    (hu : (Stmt.delete b).write.string = .ok u) :
    ∃ pre post, u = pre ++ post ∧ ∀ (calls : List (CondCall × Expr)) (b' : DeleteStmt) (text : Str),
      runCalls deleteCall b calls = .ok b' → (Stmt.delete b').write.string = .ok text →
      ∃ texts, Each OperandText (lasting calls) texts ∧ text = pre ++ whereText texts ++ post := by
  have hb0 : { b with whr := .nil } = b := by cases b; simp_all
  obtain ⟨p, q, hL⟩ := delete_where b
  obtain ⟨rest, hok⟩ := delete_okWhere b
  obtain ⟨pre, post, rfl, h⟩ := lasts_text hL hok (by rw [hb0]; exact (stmt_string _ _).1 hu)
  refine ⟨pre, post, rfl, fun calls b' text hc ht => ?_⟩
  obtain ⟨w, hw, rfl⟩ := runCalls_lower (step := deleteCall) (fun b => b.whr)
    (fun b w => { b with whr := w }) (fun _ _ => rfl) (fun _ _ _ => rfl) (fun b => by cases b; rfl)
    delete_step_inv calls b b' hc
  simp only [hb] at hw
  have := lasts_run calls (before := []) (show Lasts .nil _ from rfl) hw
  obtain ⟨h1, h2⟩ := (stmt_string _ _).1 ht
  exact h _ w text this h1 h2

/-- C17, SELECT: which sequences of calls are accepted. The conditions are not nil, and asking them
whether they are empty does not panic. A sequence is accepted exactly if `And` and `Or` are only
called while some condition lasts. -/
theorem C17_select_accepted (b : SelectStmt) (hb : b.whr = .nil) (calls : List (CondCall × Expr))
    (hn : ∀ x ∈ calls, x.2.isNil = false) (hc : ∀ x ∈ calls, ∃ empty, x.2.isUnset = .ok empty) :
    (∃ b', runCalls selectCall b calls = .ok b') ↔
      ∀ pre c e post, calls = pre ++ (c, e) :: post → c ≠ .whr → lasting pre ≠ [] := by
  have key := run_exact calls (w := .nil) (before := []) (show Lasts .nil _ from rfl)
    (show Askable .nil from rfl) (fun x hx => askable_iff.2 (hc x hx))
  refine Iff.trans ⟨?_, ?_⟩ key
  · rintro ⟨b', h⟩
    obtain ⟨w, hw, -⟩ := runCalls_lower (step := selectCall) (fun b => b.whr)
      (fun b w => { b with whr := w }) (fun _ _ => rfl) (fun _ _ _ => rfl) (fun b => by cases b; rfl)
      select_step_inv calls b b' h
    simp only [hb] at hw
    exact ⟨w, hw⟩
  · rintro ⟨w, hw⟩
    exact ⟨_, runCalls_lift (step := selectCall) (fun b => b.whr) (fun b w => { b with whr := w })
      (fun _ _ => rfl) (fun _ _ _ => rfl) (fun b c e w' hn hs => select_step hn hs) _
      hn (fun b => by cases b; rfl) b w (by rw [hb]; exact hw)⟩

/-- C17, UPDATE: which sequences of calls are accepted. The conditions are not nil, and asking them
whether they are empty does not panic. A sequence is accepted exactly if `And` and `Or` are only
called while some condition lasts. -/
theorem C17_update_accepted (b : UpdateStmt) (hb : b.whr = .nil) (calls : List (CondCall × Expr))
    (hn : ∀ x ∈ calls, x.2.isNil = false) (hc : ∀ x ∈ calls, ∃ empty, x.2.isUnset = .ok empty) :
    (∃ b', runCalls updateCall b calls = .ok b') ↔
      ∀ pre c e post, calls = pre ++ (c, e) :: post → c ≠ .whr → lasting pre ≠ [] := by
  have key := run_exact calls (w := .nil) (before := []) (show Lasts .nil _ from rfl)
    (show Askable .nil from rfl) (fun x hx => askable_iff.2 (hc x hx))
  refine Iff.trans ⟨?_, ?_⟩ key
  · rintro ⟨b', h⟩
    obtain ⟨w, hw, -⟩ := runCalls_lower (step := updateCall) (fun b => b.whr)
      (fun b w => { b with whr := w }) (fun _ _ => rfl) (fun _ _ _ => rfl) (fun b => by cases b; rfl)
      update_step_inv calls b b' h
    simp only [hb] at hw
    exact ⟨w, hw⟩
  · rintro ⟨w, hw⟩
    exact ⟨_, runCalls_lift (step := updateCall) (fun b => b.whr) (fun b w => { b with whr := w })
      (fun _ _ => rfl) (fun _ _ _ => rfl) (fun b c e w' _ hs => update_step hs) _
      hn (fun b => by cases b; rfl) b w (by rw [hb]; exact hw)⟩

/-- C17, DELETE: which sequences of calls are accepted. The conditions are not nil, and asking them
whether they are empty does not panic. A sequence is accepted exactly if `And` and `Or` are only
called while some condition lasts. -/
theorem C17_delete_accepted (b : DeleteStmt) (hb : b.whr = .nil) (calls : List (CondCall × Expr))
    (hn : ∀ x ∈ calls, x.2.isNil = false) (hc : ∀ x ∈ calls, ∃ empty, x.2.isUnset = .ok empty) :
    (∃ b', runCalls deleteCall b calls = .ok b') ↔
      ∀ pre c e post, calls = pre ++ (c, e) :: post → c ≠ .whr → lasting pre ≠ [] := by
  have key := run_exact calls (w := .nil) (before := []) (show Lasts .nil _ from rfl)
    (show Askable .nil from rfl) (fun x hx => askable_iff.2 (hc x hx))
  refine Iff.trans ⟨?_, ?_⟩ key
  · rintro ⟨b', h⟩
    obtain ⟨w, hw, -⟩ := runCalls_lower (step := deleteCall) (fun b => b.whr)
      (fun b w => { b with whr := w }) (fun _ _ => rfl) (fun _ _ _ => rfl) (fun b => by cases b; rfl)
      delete_step_inv calls b b' h
    simp only [hb] at hw
    exact ⟨w, hw⟩
  · rintro ⟨w, hw⟩
    exact ⟨_, runCalls_lift (step := deleteCall) (fun b => b.whr) (fun b w => { b with whr := w })
      (fun _ _ => rfl) (fun _ _ _ => rfl) (fun b c e w' _ hs => delete_step hs) _
      hn (fun b => by cases b; rfl) b w (by rw [hb]; exact hw)⟩

/-! ## C18 -/

/-- A comparison of a column with a value. -/
structure Leaf where
  name : Str
  method : Cmp
  value : Val

/-- `Built e t`: the caller composed `e` as the tree `t`, with comparison methods, with the
`And` and `Or` of comparisons, with the functions `And` and `Or`, and with the condition
methods of builders. -/
inductive Built : Expr → Cond Leaf → Prop
  | leaf (n : Str) (m : Cmp) (v : Val) (e : Expr) : onIdent (.str n) m (.val v) = .ok e →
      Built e (.atom ⟨n, m, v⟩)
  | infixAnd {l r : Expr} {s t : Cond Leaf} : Built l s → Built r t → Built (infixAnd l r) (.and s t)
  | infixOr {l r : Expr} {s t : Cond Leaf} : Built l s → Built r t → Built (infixOr l r) (.or s t)
  | plainAnd {l r : Expr} {s t : Cond Leaf} : Built l s → Built r t → Built (plainAnd l r) (.and s t)
  | plainOr {l r : Expr} {s t : Cond Leaf} : Built l s → Built r t → Built (plainOr l r) (.or s t)
  | newWhere {e : Expr} {t : Cond Leaf} : Built e t → Built (newWhere e) t
  | whereAnd {l r e : Expr} {s t : Cond Leaf} : Built l s → Built r t → whereAnd l r = .ok e →
      Built e (.and s t)
  | whereOr {l r e : Expr} {s t : Cond Leaf} : Built l s → Built r t → whereOr l r = .ok e →
      Built e (.or s t)

/-- What a comparison of a column with a placeholder or NULL says, given the arguments. -/
def resolve (args : List Val) : Comparison → Option (List Str × Str × Val)
  | ⟨.name p, op, .param (k + 1)⟩ =>
    match args[k]? with
    | some v => some (p, op, v)
    | none => none
  | ⟨.name p, op, .null⟩ => some (p, op, .nil)
  | _ => none

private theorem leaf_eq {n : Str} {m : Cmp} {v : Val} {e : Expr} (hv : v.accepted = true)
    (h : onIdent (.str n) m (.val v) = .ok e) :
    e = .infx (.ident (.str n)) (.comparison m.sql) (.value v) := by
  have hx := newExpression_val hv
  cases m <;>
    simp [onIdent, Ident.Contains, Ident.IsContainedBy, Ident.Overlap, Ident.Equal, Ident.NotEqual,
      Ident.Is, Ident.IsNot, Ident.GreaterThan, Ident.GreaterThanOrEqual, Ident.LessThan,
      Ident.LessThanOrEqual, Ident.Like, Ident.NotLike, Ident.ILike, Ident.NotILike,
      Ident.IsDistinctFrom, Ident.IsNotDistinctFrom, compareWrapped, comparePlain, newWrapped, hx] at h <;>
    exact h.symm

/-- What is shown of a tree, from placeholder `pre.length + 1` on. -/
private def Good (parts : Str → List Str) (e : Expr) (t : Cond Leaf) : Prop :=
  okE e = true ∧ blank e = false ∧ isSub e = false ∧ ∀ pre : List Val, ∃ c,
    Shows c (render dollar (pre.length + 1) (exprL e)) ∧ ∀ post,
      c.map (resolve (pre ++ (arguments (exprL e) ++ post)))
        = t.map fun a => some (parts a.name, a.method.sql, a.value)

private theorem good_infx {parts : Str → List Str} {l r : Expr} {s t : Cond Leaf} (c : Conn)
    (hl : Good parts l s) (hr : Good parts r t) :
    Good parts (.infx l (.logical c.word) r) (s.join c t) := by
  obtain ⟨ol, bl, -, sl⟩ := hl
  obtain ⟨or, br, -, sr⟩ := hr
  refine ⟨(okE_infx _ _ _).2 ⟨⟨bl, by cases c <;> rfl, br⟩, ol, or⟩,
    by cases c <;> simp [blank, bl, br, opBlank, Conn.word], rfl, fun pre => ?_⟩
  obtain ⟨cl, hcl, ml⟩ := sl pre
  obtain ⟨cr, hcr, mr⟩ := sr (pre ++ arguments (exprL l))
  refine ⟨cl.join c cr, shows_infx c hcl ?_, fun post => ?_⟩
  · have : pre.length + 1 + (arguments (exprL l)).length
        = (pre ++ arguments (exprL l)).length + 1 := by simp; omega
    rw [this]; exact hcr
  · have h1 := ml (arguments (exprL r) ++ post)
    have h2 := mr post
    rw [List.append_assoc] at h2
    rw [arguments_infx, List.append_assoc]
    cases c <;> simp only [Cond.join, Cond.map, h1, h2]

private theorem newWrapper_plain {e : Expr} (h : isSub e = false) : newWrapper e = e := by
  rw [newWrapper_eq, h]; rfl

private theorem built_good (parts : Str → List Str) {e : Expr} {t : Cond Leaf} (h : Built e t) :
    (∀ a ∈ t.atoms, dotted a.name (parts a.name) ∧ a.value.accepted = true) → Good parts e t := by
  induction h with
  | leaf n m v e he =>
    intro ha
    obtain ⟨hd, hv⟩ := ha ⟨n, m, v⟩ (by simp [Cond.atoms])
    simp only at hd hv
    have hee := leaf_eq hv he
    subst hee
    have hn : n ≠ [] := by
      intro h0
      obtain ⟨h1, h2, h3⟩ := hd
      cases hp : parts n with
      | nil => exact h2 hp
      | cons p ps =>
        have hne := (h3 p (by rw [hp]; simp)).1
        rw [hp, h0] at h1
        cases ps with
        | nil => simp [List.intercalate] at h1; exact hne h1
        | cons q qs => rw [intercalate_cons2] at h1; simp at h1
    have hop : m.sql ∈ comparisonOps := by cases m <;> decide
    have hop' : m.sql ≠ [] := by cases m <;> decide
    refine ⟨(okE_infx _ _ _).2 ⟨⟨by simp [blank, identBlank, hn], by simp [opBlank, hop'],
      by simp [blank]⟩, by simp [okE], by simp [okE]⟩,
      by simp [blank, identBlank, hn, opBlank, hop'], rfl, fun pre => ?_⟩
    have hname := operandText_name (parts n) hd.2.1 hd.2.2
    rw [← hd.1] at hname
    have ht : ∀ k, render dollar k (exprL (.infx (.ident (.str n)) (.comparison m.sql) (.value v)))
        = s%"(" ++ (quote n ++ s%" " ++ m.sql ++ s%" " ++ render dollar k [.val v]) ++ s%")" := by
      intro k
      rw [render_infx, arguments_ident]
      simp [exprL, identL, render_name, render_nil, opL]
    by_cases hnil : v = .nil
    · subst hnil
      refine ⟨.atom ⟨.name (parts n), m.sql, .null⟩, ?_, fun post => ?_⟩
      · rw [ht]
        exact .paren _ _ (shows_comparison hname operandText_null hop)
      · simp [Cond.map, resolve]
    · refine ⟨.atom ⟨.name (parts n), m.sql, .param (pre.length + 1)⟩, ?_, fun post => ?_⟩
      · rw [ht]
        have hr : render dollar (pre.length + 1) [.val v] = s%"$" ++ formatNat (pre.length + 1) := by
          cases v <;> first | exact absurd rfl hnil | simp [render, dollar]
        rw [hr]
        exact .paren _ _ (shows_comparison hname (operandText_param _) hop)
      · have hargs : arguments (exprL (.infx (.ident (.str n)) (.comparison m.sql) (.value v))) = [v] := by
          rw [arguments_infx, arguments_ident, exprL]
          cases v <;> first | exact absurd rfl hnil | rfl
        rw [hargs]
        simp [Cond.map, resolve]
  | infixAnd _ _ ihl ihr =>
    intro ha
    have gr := ihr fun a h => ha a (by simp [Cond.atoms, h])
    rw [infixAnd, newWrapper_plain gr.2.2.1]
    exact good_infx .and (ihl fun a h => ha a (by simp [Cond.atoms, h])) gr
  | infixOr _ _ ihl ihr =>
    intro ha
    have gr := ihr fun a h => ha a (by simp [Cond.atoms, h])
    rw [infixOr, newWrapper_plain gr.2.2.1]
    exact good_infx .or (ihl fun a h => ha a (by simp [Cond.atoms, h])) gr
  | plainAnd _ _ ihl ihr =>
    intro ha
    exact good_infx .and (ihl fun a h => ha a (by simp [Cond.atoms, h]))
      (ihr fun a h => ha a (by simp [Cond.atoms, h]))
  | plainOr _ _ ihl ihr =>
    intro ha
    exact good_infx .or (ihl fun a h => ha a (by simp [Cond.atoms, h]))
      (ihr fun a h => ha a (by simp [Cond.atoms, h]))
  | newWhere _ ih =>
    intro ha
    have g := ih ha
    rw [newWhere, newWrapper_plain g.2.2.1]; exact g
  | @whereAnd l r e s t _ _ he ihl ihr =>
    intro ha
    have gl := ihl fun a h => ha a (by simp [Cond.atoms, h])
    have gr := ihr fun a h => ha a (by simp [Cond.atoms, h])
    have := condStep_ok (e := r) .and gl.2.1 gl.1
    rw [condStep, he, newWrapper_plain gr.2.2.1] at this
    cases this
    exact good_infx .and gl gr
  | @whereOr l r e s t _ _ he ihl ihr =>
    intro ha
    have gl := ihl fun a h => ha a (by simp [Cond.atoms, h])
    have gr := ihr fun a h => ha a (by simp [Cond.atoms, h])
    have := condStep_ok (e := r) .or gl.2.1 gl.1
    rw [condStep, he, newWrapper_plain gr.2.2.1] at this
    cases this
    exact good_infx .or gl gr

/-- C18. A condition composed from comparisons of dotted names with values is rendered to a text
that, read with SQL precedence, is the tree the caller composed: same shape, and each comparison
with its name, its operator and (through its placeholder) its value. -/
theorem C18_reads_back (parts : Str → List Str) {e : Expr} {t : Cond Leaf} (h : Built e t)
    (ha : ∀ a ∈ t.atoms, dotted a.name (parts a.name) ∧ a.value.accepted = true) :
    ∃ text args c, e.write.query = .ok (text, args) ∧ readCond text = some c ∧
      c.map (resolve args) = t.map fun a => some (parts a.name, a.method.sql, a.value) := by
  obtain ⟨ho, -, -, hs⟩ := built_good parts h ha
  obtain ⟨c, hc, hm⟩ := hs []
  refine ⟨_, _, c, expr_query e ho, readCond_shows hc, ?_⟩
  have := hm []
  simpa using this

private theorem map_inj {α β : Type} (f : α → β) : ∀ s t : Cond α,
    (∀ a ∈ s.atoms, ∀ b ∈ t.atoms, f a = f b → a = b) → s.map f = t.map f → s = t := by
  intro s
  induction s with
  | atom a =>
    intro t hi h
    cases t <;> simp [Cond.map] at h
    rw [hi a (by simp [Cond.atoms]) _ (by simp [Cond.atoms]) h]
  | and l r ihl ihr =>
    intro t hi h
    cases t <;> simp [Cond.map] at h
    rw [ihl _ (fun a ha b hb => hi a (by simp [Cond.atoms, ha]) b (by simp [Cond.atoms, hb])) h.1,
      ihr _ (fun a ha b hb => hi a (by simp [Cond.atoms, ha]) b (by simp [Cond.atoms, hb])) h.2]
  | or l r ihl ihr =>
    intro t hi h
    cases t <;> simp [Cond.map] at h
    rw [ihl _ (fun a ha b hb => hi a (by simp [Cond.atoms, ha]) b (by simp [Cond.atoms, hb])) h.1,
      ihr _ (fun a ha b hb => hi a (by simp [Cond.atoms, ha]) b (by simp [Cond.atoms, hb])) h.2]

/-- C18. Two different trees are never rendered to the same text with the same arguments. -/
theorem C18_injective (parts : Str → List Str) {e e' : Expr} {t t' : Cond Leaf}
    (h : Built e t) (h' : Built e' t')
    (ha : ∀ a ∈ t.atoms ++ t'.atoms, dotted a.name (parts a.name) ∧ a.value.accepted = true)
    (heq : e.write.query = e'.write.query) : t = t' := by
  obtain ⟨x, args, c, hq, hr, hm⟩ := C18_reads_back parts h
    fun a hh => ha a (List.mem_append_left _ hh)
  obtain ⟨x', args', c', hq', hr', hm'⟩ := C18_reads_back parts h'
    fun a hh => ha a (List.mem_append_right _ hh)
  rw [hq, hq'] at heq
  cases heq
  rw [hr] at hr'
  cases hr'
  rw [hm] at hm'
  refine map_inj _ t t' (fun a haa b hbb hab => ?_) hm'
  obtain ⟨n, m, v⟩ := a
  obtain ⟨n', m', v'⟩ := b
  simp only [Option.some.injEq, Prod.mk.injEq] at hab
  obtain ⟨hp, ho, rfl⟩ := hab
  have hn : n = n' := by
    have h1 := (ha _ (List.mem_append_left _ haa)).1.1
    have h2 := (ha _ (List.mem_append_right _ hbb)).1.1
    simp only at h1 h2
    rw [h1, h2, hp]
  have hmm : m = m' := by revert ho; cases m <;> cases m' <;> decide
  rw [hn, hmm]

end

/-! ## The hypotheses can be met -/

section
attribute [local instance] Runtime.sample

/-- A sub-select among the conditions. -/
private def subCond : Expr := .exist (.select Sample.groups)

/-- Hypotheses and conclusion of `C16_delete`, with an EXISTS and all three methods. -/
example : ∃ b', runCalls deleteCall { Sample.deleteUsers with whr := .nil }
      [(.whr, goodCondition), (.or, subCond), (.and, goodCondition), (.whr, goodCondition)] = .ok b' ∧
    blank goodCondition = false ∧ blank subCond = false ∧
    (Stmt.delete b').write.string = .ok
      s%"DELETE FROM \"users\" WHERE ((((\"id\" = 1) OR (EXISTS (SELECT \"id\" FROM \"groups\" WHERE (\"active\" = true)))) AND (\"id\" = 1)) AND (\"id\" = 1)); -- cleanup" := by
  exact ⟨_, rfl, rfl, rfl, rfl⟩

example : ({ Sample.users with whr := .nil } : SelectStmt).write.string = .ok
    s%"SELECT \"id\", \"name\" AS \"n\" FROM \"users\" LEFT JOIN \"teams\" ON \"users\".\"team\" = \"teams\".\"id\" ORDER BY id DESC LIMIT 10" := by
  rfl

/-- A tree for C18 with a nil value, with its rendering. -/
private def aLeaf : Expr := .infx (.ident (.str s%"u.id")) (.comparison s%">=") (.value (.int .int 3))
private def bLeaf : Expr := .infx (.ident (.str s%"age")) (.comparison s%"IS NOT") (.value .nil)

example : Built (infixOr (plainAnd aLeaf bLeaf) aLeaf)
    (.or (.and (.atom ⟨s%"u.id", .GreaterThanOrEqual, .int .int 3⟩) (.atom ⟨s%"age", .IsNot, .nil⟩))
      (.atom ⟨s%"u.id", .GreaterThanOrEqual, .int .int 3⟩)) :=
  .infixOr (.plainAnd (.leaf _ _ _ _ rfl) (.leaf _ _ _ _ rfl)) (.leaf _ _ _ _ rfl)

example : (infixOr (plainAnd aLeaf bLeaf) aLeaf).write.query = .ok
    (s%"(((\"u\".\"id\" >= $1) AND (\"age\" IS NOT NULL)) OR (\"u\".\"id\" >= $2))",
      [.int .int 3, .int .int 3]) := by rfl

example : dotted s%"u.id" [s%"u", s%"id"] ∧ dotted s%"age" [s%"age"] ∧
    (Val.int .int 3).accepted = true ∧ Val.nil.accepted = true :=
  ⟨⟨rfl, by decide, by decide⟩, ⟨rfl, by decide, by decide⟩, rfl, rfl⟩

end

end Verif.Props
