import Verif.Lemmas.Condition
import Verif.Lemmas.JoinText
import Verif.Lemmas.Weave
import Verif.Lemmas.Embed

/-!
# The texts of conditions
-/

set_option linter.unusedSectionVars false

namespace Verif
open Spec

section
variable [GoRuntime]

theorem expr_query (e : Expr) (h : okE e = true) :
    e.write.query = .ok (render dollar 1 (exprL e), arguments (exprL e)) := by
  rw [W.query, (denotes_expr e).1 h _ _ stdContext_additive, run_std]; simp

theorem render_sql (ph : Nat → Val → Str) (k : Nat) (t : Str) (l : List Piece) :
    render ph k (.sql t :: l) = t ++ render ph k l := by rw [render]

theorem render_name (ph : Nat → Val → Str) (k : Nat) (t : Str) (l : List Piece) :
    render ph k (.name t :: l) = quote t ++ render ph k l := by rw [render]

theorem render_raw (ph : Nat → Val → Str) (k : Nat) (t : Str) (l : List Piece) :
    render ph k (.raw t :: l) = t ++ render ph k l := by rw [render]

theorem render_nil (ph : Nat → Val → Str) (k : Nat) : render ph k [] = [] := by rw [render]

theorem arguments_sql (t : Str) (l : List Piece) : arguments (.sql t :: l) = arguments l := rfl
theorem arguments_name (t : Str) (l : List Piece) : arguments (.name t :: l) = arguments l := rfl

theorem arguments_raw (t : Str) (l : List Piece) : arguments (.raw t :: l) = arguments l := rfl

theorem arguments_infx (l : Expr) (op : Op) (r : Expr) :
    arguments (exprL (.infx l op r)) = arguments (exprL l) ++ arguments (exprL r) := by
  rw [exprL]
  simp [arguments_append, arguments]

theorem render_infx (ph : Nat → Val → Str) (k : Nat) (l : Expr) (op : Op) (r : Expr) :
    render ph k (exprL (.infx l op r))
      = s%"(" ++ render ph k (exprL l) ++ (s%" " ++ opL op ++ s%" ")
        ++ render ph (k + (arguments (exprL l)).length) (exprL r) ++ s%")" := by
  rw [exprL]
  simp [render_append, render_sql, render_raw, render_nil]

theorem shows_infx {k : Nat} {l r : Expr} {tl tr : Cond Comparison} (c : Conn)
    (hl : Shows tl (render dollar k (exprL l)))
    (hr : Shows tr (render dollar (k + (arguments (exprL l)).length) (exprL r))) :
    Shows (tl.join c tr) (render dollar k (exprL (.infx l (.logical c.word) r))) := by
  rw [render_infx]
  cases c with
  | and =>
    have := Shows.and _ _ _ _ hl hr
    simpa [Cond.join, opL, Conn.word] using this
  | or =>
    have := Shows.or _ _ _ _ hl hr
    simpa [Cond.join, opL, Conn.word] using this

theorem shows_on {k : Nat} {a b : Str} {pa pb : List Str} (ha : dotted a pa) (hb : dotted b pb) :
    Shows (.atom ⟨.name pa, s%"=", .name pb⟩)
      (render dollar k (exprL (.onClause { name := a } { name := b }))) := by
  have h := shows_comparison (operandText_name pa ha.2.1 ha.2.2) (operandText_name pb hb.2.1 hb.2.2)
    (op := s%"=") (by decide)
  rw [← ha.1, ← hb.1] at h
  rw [exprL]
  simpa [columnL, aliased, render_name, render_sql, render_nil] using h

theorem arguments_on (l r : Column) : arguments (exprL (.onClause l r)) = [] := by
  rw [exprL]
  have h : ∀ c : Column, arguments (columnL c) = [] := by
    intro c
    unfold columnL aliased
    split <;> rfl
  rw [arguments_append, h]
  simp [arguments, h]

theorem arguments_linkExpr (acc : Expr) (ls : List JoinLink) (h : arguments (exprL acc) = []) :
    arguments (exprL (linkExpr acc ls)) = [] := by
  induction ls generalizing acc with
  | nil => exact h
  | cons l ls ih => exact ih _ (by rw [arguments_infx, h, arguments_on]; rfl)

theorem shows_links (f : JoinLink → Comparison) (ls : List JoinLink) :
    ∀ (acc : Expr) (t : Cond Comparison), arguments (exprL acc) = [] →
      Shows t (render dollar 1 (exprL acc)) →
      (∀ l ∈ ls, Shows (.atom (f l))
        (render dollar 1 (exprL (.onClause { name := l.left } { name := l.right })))) →
      Shows (leftTree t (ls.map fun l => (l.conn, f l))) (render dollar 1 (exprL (linkExpr acc ls))) := by
  induction ls with
  | nil => intro acc t _ h _; exact h
  | cons l ls ih =>
    intro acc t ha h hls
    refine ih _ _ ?_ ?_ (fun m hm => hls m (List.mem_cons_of_mem _ hm))
    · rw [arguments_infx, ha, arguments_on]; rfl
    · refine shows_infx l.conn h ?_
      rw [ha]
      exact hls l List.mem_cons_self

theorem okE_linkExpr (acc : Expr) (ls : List JoinLink) (h1 : okE acc = true)
    (h2 : blank acc = false) (h : ∀ l ∈ ls, l.left ≠ [] ∧ l.right ≠ []) :
    okE (linkExpr acc ls) = true ∧ blank (linkExpr acc ls) = false := by
  induction ls generalizing acc with
  | nil => exact ⟨h1, h2⟩
  | cons l ls ih =>
    obtain ⟨hl, hr⟩ := h l List.mem_cons_self
    have hb : blank (.infx acc (.logical l.conn.word)
        (.onClause { name := l.left } { name := l.right })) = false := by
      cases hc : l.conn <;> simp [blank, h2, opBlank, Conn.word, hl, hr]
    refine ih _ ?_ hb (fun m hm => h m (List.mem_cons_of_mem _ hm))
    rw [okE, hb, h1]
    rfl

end

end Verif
