import Verif.Spec.Tokens
import Verif.Lemmas.ScanText

/-!
# The tokens of texts put together
-/

set_option linter.unusedSectionVars false

namespace Verif
open Spec

/-! ## The tokenizer -/

theorem tokRun_append (b : Bool) (m : TokMode) (t u : Str) :
    tokRun b m (t ++ u) = ((tokRun b (tokRun b m t).1 u).1,
      (tokRun b m t).2 ++ (tokRun b (tokRun b m t).1 u).2) := by
  induction t generalizing m with
  | nil => simp [tokRun]
  | cons c t ih => simp [tokRun, ih]

theorem params_append (l m : List SqlTok) : params (l ++ m) = params l ++ params m := by
  induction l with
  | nil => rfl
  | cons t l ih => cases t <;> simp [params, ih]

/-- The mode of the scanner that corresponds to the mode of the tokenizer. -/
def erase : TokMode → Mode
  | .free => .free
  | .word _ => .word
  | .dash => .dash
  | .slash => .slash
  | .dollar ds => .dollar ds
  | .name _ => .name
  | .nameQuote _ => .free
  | .literal _ => .literal
  | .escape _ => .escape
  | .literalQuote _ => .free
  | .comment => .comment
  | .bad => .bad

theorem start_sim (s : Scan) (c : Char) (h : (s.start c).mode ≠ .bad) :
    erase (tokStart c).1 = (s.start c).mode ∧ (s.start c).found = s.found ∧
      params (tokStart c).2 = [] := by
  unfold Scan.start tokStart at *
  by_cases h1 : c = '"'
  · simp [h1, erase, params]
  by_cases h2 : c = '\''
  · simp [h2, erase, params]
  by_cases h3 : c = '('
  · subst h3; simp [erase, params, wordStart, isBlank]
  by_cases h4 : c = ')'
  · subst h4
    by_cases hd : s.depth = 0
    · simp [hd] at h
    · simp [erase, params, wordStart, isBlank, hd]
  by_cases h5 : c = '$'
  · simp [h5, erase, params]
  by_cases h6 : c = '-'
  · simp [h6, erase, params]
  by_cases h7 : c = '/'
  · simp [h7, erase, params]
  by_cases h8 : wordStart c = true
  · simp [h1, h2, h3, h4, h5, h6, h7, h8, erase, params]
  · by_cases h9 : isBlank c = true
    · simp [h1, h2, h3, h4, h5, h6, h7, h8, h9, erase, params]
    · simp [h1, h2, h3, h4, h5, h6, h7, h8, h9, erase, params]

theorem after_sim (s : Scan) (c : Char) (done : List SqlTok) (h : (s.start c).mode ≠ .bad) :
    erase (tokAfter done c).1 = (s.start c).mode ∧
      (s.start c).found ++ params done = s.found ++ params (tokAfter done c).2 := by
  obtain ⟨h1, h2, h3⟩ := start_sim s c h
  refine ⟨h1, ?_⟩
  rw [h2, tokAfter, params_append, h3, List.append_nil]

theorem step_sim {b : Bool} {s : Scan} {m : TokMode} (e : erase m = s.mode) {c : Char}
    (h : (s.step b c).mode ≠ .bad) :
    erase (tokStep b m c).1 = (s.step b c).mode ∧
      (s.step b c).found = s.found ++ params (tokStep b m c).2 := by
  obtain ⟨sm, d, fs⟩ := s
  cases m <;> simp only [erase] at e <;> subst e
  case free =>
    have := after_sim _ c [] h
    simp only [params, List.append_nil] at this
    exact this
  case word t =>
    simp only [Scan.step, tokStep] at h ⊢
    split
    · simp [erase, params]
    · rename_i h1
      rw [if_neg h1] at h
      split
      · simp [erase, params]
      · rename_i h2
        rw [if_neg h2] at h
        simpa [params] using after_sim _ c [.word t] h
  case dash =>
    simp only [Scan.step, tokStep] at h ⊢
    split
    · simp [erase, params]
    · rename_i h1
      rw [if_neg h1] at h
      simpa [params] using after_sim _ c [.sym '-'] h
  case slash =>
    simp only [Scan.step, tokStep] at h ⊢
    split
    · simp [erase, params]
    · rename_i h1
      rw [if_neg h1] at h
      simpa [params] using after_sim _ c [.sym '/'] h
  case dollar ds =>
    simp only [Scan.step, tokStep] at h ⊢
    split
    · simp [erase, params]
    · rename_i h1
      rw [if_neg h1] at h
      split
      · simp [erase, params]
      · rename_i h2
        rw [if_neg h2] at h
        obtain ⟨h3, h4, h5⟩ := start_sim _ c h
        refine ⟨h3, ?_⟩
        rw [h4, tokAfter, params_append, h5]
        simp [params]
  case name t =>
    simp only [Scan.step, tokStep]
    split <;> simp [erase, params]
  case nameQuote t =>
    simp only [Scan.step, tokStep] at h ⊢
    split
    · rename_i h1
      subst h1
      simp [Scan.start, erase, params]
    · simpa [params] using after_sim _ c [.name t] h
  case literal t =>
    simp only [Scan.step, tokStep]
    split
    · simp [erase, params]
    · split <;> simp [erase, params]
  case escape t => simp [Scan.step, tokStep, erase, params]
  case literalQuote t =>
    simp only [Scan.step, tokStep] at h ⊢
    split
    · rename_i h1
      subst h1
      simp [Scan.start, erase, params]
    · simpa [params] using after_sim _ c [.literal t] h
  case comment =>
    simp only [Scan.step, tokStep]
    split <;> simp [erase, params]
  case bad => exact absurd rfl h

theorem run_sim {b : Bool} {s : Scan} {m : TokMode} (e : erase m = s.mode) {t : Str}
    (h : (scan b s t).mode ≠ .bad) :
    erase (tokRun b m t).1 = (scan b s t).mode ∧
      (scan b s t).found = s.found ++ params (tokRun b m t).2 := by
  induction t generalizing s m with
  | nil => simp [tokRun, scan_nil, e, params]
  | cons c t ih =>
    rw [scan_cons] at h ⊢
    have h1 : (s.step b c).mode ≠ .bad := by
      intro hb
      rw [scan_bad b hb] at h
      exact h hb
    obtain ⟨h2, h3⟩ := step_sim e h1
    obtain ⟨h4, h5⟩ := ih h2 h
    refine ⟨h4, ?_⟩
    rw [h5, h3]
    simp [tokRun, params_append]

/-- A text, read from between tokens, consists of these tokens and does not end in a comment. -/
def Lexes (b : Bool) (t : Str) (o : List SqlTok) : Prop :=
  ∃ f, tokEnd (tokRun b .free t).1 = some f ∧ (tokRun b .free t).1 ≠ .comment ∧
    o = (tokRun b .free t).2 ++ f

theorem Lexes.tokens {b : Bool} {t : Str} {o : List SqlTok} (h : Lexes b t o) :
    Spec.tokens b t = some o := by
  obtain ⟨f, h1, -, rfl⟩ := h
  rw [Spec.tokens, h1]
  rfl

theorem Lexes.getD {b : Bool} {t : Str} {o : List SqlTok} (h : Lexes b t o) :
    (Spec.tokens b t).getD [] = o := by rw [h.tokens]; rfl

theorem lexes_nil (b : Bool) : Lexes b [] [] := ⟨[], rfl, nofun, rfl⟩

theorem lexes_closed {b : Bool} {t : Str} {ps : List Str} (h : ClosedWith b t ps) :
    ∃ o, Lexes b t o ∧ params o = ps := by
  have h1 : (scan b .init t).mode ≠ .bad := settle_bad (by rw [h])
  obtain ⟨h2, h3⟩ := run_sim (m := .free) (s := .init) rfl h1
  unfold ClosedWith at h
  generalize hs : scan b .init t = s at *
  obtain ⟨sm, d, fs⟩ := s
  simp only [Scan.init, List.nil_append] at h3
  subst h3
  unfold Lexes
  generalize tokRun b .free t = r at *
  obtain ⟨m, o⟩ := r
  simp only at h2 ⊢
  subst h2
  cases m with
  | dollar ds =>
    simp only [Scan.settle, erase] at h
    split at h
    · cases h
    · next hds =>
      cases h
      exact ⟨_, ⟨[.param ds], by simp [tokEnd, hds], nofun, rfl⟩, by simp [params_append, params]⟩
  | name t => cases h
  | literal t => cases h
  | escape t => cases h
  | comment => cases h
  | bad => cases h
  | _ =>
    cases h
    exact ⟨_, ⟨_, rfl, nofun, rfl⟩, by simp [params_append, params]⟩

theorem step_delim {b : Bool} {m : TokMode} {f : List SqlTok} {c : Char} (h : tokEnd m = some f)
    (hm : m ≠ .comment) (hc : delim c = true) : tokStep b m c = tokAfter f c := by
  have hc' : c = ' ' ∨ c = ',' ∨ c = ';' ∨ c = '(' ∨ c = ')' := by
    simpa [delim, or_assoc] using hc
  cases m with
  | dollar ds =>
    simp only [tokEnd] at h
    split at h
    · cases h
    · next hds =>
      cases h
      rcases hc' with rfl | rfl | rfl | rfl | rfl <;>
        simp [tokStep, hds, Spec.isDigit, wordStart]
  | comment => exact absurd rfl hm
  | name => cases h
  | literal => cases h
  | escape => cases h
  | bad => cases h
  | _ =>
    cases h
    rcases hc' with rfl | rfl | rfl | rfl | rfl <;> simp [tokStep, wordStart]

/-- A text followed by one that begins with a delimiter. -/
theorem lexes_before {b : Bool} {t u : Str} {c : Char} {o p : List SqlTok} (h : Lexes b t o)
    (hc : delim c = true) (hu : Lexes b (c :: u) p) : Lexes b (t ++ c :: u) (o ++ p) := by
  obtain ⟨f, h1, h2, rfl⟩ := h
  obtain ⟨g, h3, h4, rfl⟩ := hu
  have e : tokRun b (tokRun b .free t).1 (c :: u) =
      ((tokRun b .free (c :: u)).1, f ++ (tokRun b .free (c :: u)).2) := by
    simp only [tokRun, step_delim h1 h2 hc]
    simp [tokStep, tokAfter]
  unfold Lexes
  rw [tokRun_append, e]
  exact ⟨g, h3, h4, by simp⟩

/-- A text that ends between tokens, followed by any. -/
theorem lexes_after {b : Bool} {t u : Str} {o p : List SqlTok} (h : tokRun b .free t = (.free, o))
    (hu : Lexes b u p) : Lexes b (t ++ u) (o ++ p) := by
  obtain ⟨g, h3, h4, rfl⟩ := hu
  unfold Lexes
  rw [tokRun_append, h]
  exact ⟨g, h3, h4, by simp⟩

/-! ## How the pieces of a statement follow one another -/

/-- A text of SQL that makes sense on its own and contains no placeholder. -/
def Plain (t : Str) : Prop := ∀ b, ∃ o, Lexes b t o ∧ params o = []

/-- A text of SQL after which a new token begins. -/
def Ready (t : Str) : Prop := ∀ b, ∃ o, tokRun b .free t = (.free, o) ∧ params o = []

/-- Between any two pieces there is a delimiter. -/
inductive Joined : List Piece → Prop where
  | nil : Joined []
  | name (n : Str) : Joined [.name n]
  | raw (t : Str) : Joined [.raw t]
  | val (v : Val) : Joined [.val v]
  | text {t : Str} : Plain t → Joined [.sql t]
  | after {t : Str} {l : List Piece} : Ready t → Joined l → Joined (.sql t :: l)
  | before {a l : List Piece} {c : Char} {t : Str} : Joined a → delim c = true →
      Joined (.sql (c :: t) :: l) → Joined (a ++ .sql (c :: t) :: l)
  | note {a : List Piece} (c : Str) : Joined a → Joined (a ++ [.note c])

theorem joined_commaSep {l : List (List Piece)} (h : ∀ a ∈ l, Joined a) : Joined (commaSep l) := by
  induction l with
  | nil => exact .nil
  | cons a l ih =>
    cases l with
    | nil => exact h a List.mem_cons_self
    | cons a' l =>
      rw [commaSep]
      exact .before (h a List.mem_cons_self) rfl (.after (fun _ => ⟨_, rfl, rfl⟩)
        (ih fun x hx => h x (List.mem_cons_of_mem _ hx)))

theorem joined_map {α : Type} {f : α → List Piece} (h : ∀ a, Joined (f a)) (l : List α) :
    Joined (commaSep (l.map f)) :=
  joined_commaSep fun a ha => by
    obtain ⟨x, -, rfl⟩ := List.mem_map.1 ha
    exact h x

theorem joined_spaceTail {l : List (Option (List Piece))} (h : ∀ a, some a ∈ l → Joined a) :
    ∀ {a : List Piece}, Joined a → Joined (a ++ spaceTail l) := by
  induction l with
  | nil => intro a ha; simpa using ha
  | cons c l ih =>
    intro a ha
    cases c with
    | none => exact ih (fun x hx => h x (List.mem_cons_of_mem _ hx)) ha
    | some x =>
      rw [spaceTail_some, List.cons_append]
      exact .before ha rfl (.after (fun _ => ⟨_, rfl, rfl⟩)
        (ih (fun x hx => h x (List.mem_cons_of_mem _ hx)) (h x List.mem_cons_self)))

theorem joined_spaced {l : List (Option (List Piece))} (h : ∀ o ∈ l, ∀ a, o = some a → Joined a) :
    Joined (spaced l) := by
  induction l with
  | nil => exact .nil
  | cons c l ih =>
    cases c with
    | none => exact ih fun x hx => h x (List.mem_cons_of_mem _ hx)
    | some x =>
      rw [spaced_some]
      exact joined_spaceTail (fun x hx => h _ (List.mem_cons_of_mem _ hx) x rfl)
        (h _ List.mem_cons_self x rfl)

theorem joined_clause {p : Bool} {c : List Piece} (h : Joined c) :
    ∀ a, clause p c = some a → Joined a := by
  intro a ha
  unfold clause at ha
  split at ha
  · cases ha; exact h
  · cases ha

theorem joined_some {c : List Piece} (h : Joined c) : ∀ a, some c = some a → Joined a := by
  rintro _ ⟨⟩; exact h

theorem joined_paren {o : Str} {l : List Piece} (ho : Ready o) (h : Joined l) :
    Joined (.sql o :: l ++ [.sql s%")"]) := by
  rw [List.cons_append]
  exact .after ho (.before h rfl (.text fun _ => ⟨_, ⟨_, rfl, nofun, rfl⟩, rfl⟩))

theorem joined_infix {l r : List Piece} {op : Str} (hl : Joined l) (hr : Joined r) :
    Joined (l ++ .sql s%" " :: .raw op :: .sql s%" " :: r) :=
  .before hl rfl (.after (fun _ => ⟨_, rfl, rfl⟩)
    (.before (a := [.raw op]) (.raw op) rfl (.after (fun _ => ⟨_, rfl, rfl⟩) hr)))

theorem joined_parenInfix {l r : List Piece} {op : Str} (hl : Joined l) (hr : Joined r) :
    Joined (.sql s%"(" :: l ++ .sql s%" " :: .raw op :: .sql s%" " :: r ++ [.sql s%")"]) := by
  have := joined_paren (o := s%"(") (fun _ => ⟨_, rfl, rfl⟩) (joined_infix (op := op) hl hr)
  simpa [List.append_assoc] using this

theorem joined_ident (i : Ident) : Joined (identL i) := by
  cases i with
  | str s => exact .name s
  | raw s => exact .raw s
  | other => exact .nil

theorem joined_aliased (n a : Str) : Joined (aliased n a) := by
  unfold aliased
  split
  · exact .name n
  · exact .before (a := [.name n]) (.name n) rfl (.after (fun _ => ⟨_, rfl, rfl⟩) (.name a))

theorem joined_column (c : Column) : Joined (columnL c) := joined_aliased _ _

theorem joined_table (t : Table) : Joined (tableL t) := by
  unfold tableL
  split
  · exact .after (fun _ => ⟨_, rfl, rfl⟩) (joined_aliased _ _)
  · exact joined_aliased _ _

theorem joined_fromItem (t : FromItem) : Joined (fromItemL t) := by
  cases t with
  | nil => exact .nil
  | table t => exact joined_table t
  | raw s => exact .raw s

theorem joined_order (o : Order) : Joined (orderL o) := by
  unfold orderL
  split
  · exact .nil
  · exact .before (a := [.raw o.expression]) (.raw _) rfl (.after (fun _ => ⟨_, rfl, rfl⟩) (.raw _))

theorem joined_from (ts : List FromItem) : Joined (fromL ts) :=
  .after (fun _ => ⟨_, rfl, rfl⟩) (joined_map joined_fromItem ts)

theorem joined_aggregate {o v alias : Str} (ho : Ready o) :
    Joined (.sql o :: .raw v :: .sql s%")" :: aggAliasL alias) := by
  refine .after ho ?_
  unfold aggAliasL
  split
  · exact .before (a := [.raw v]) (.raw v) rfl (.text fun _ => ⟨_, ⟨_, rfl, nofun, rfl⟩, rfl⟩)
  · exact .before (a := [.raw v]) (.raw v) rfl (.after (fun _ => ⟨_, rfl, rfl⟩)
      (.after (fun _ => ⟨_, rfl, rfl⟩) (.raw alias)))

theorem joined_comment {l : List Piece} (h : Joined l) (c : Str) : Joined (l ++ commentL c) := by
  unfold commentL
  split
  · simpa using h
  · exact .note c h

theorem plain_closed {t : Str} (h : ∀ b, SelfContained b t) : Plain t := fun b => lexes_closed (h b)

section
variable [GoRuntime]

mutual

theorem joined_expr (e : Expr) : Joined (exprL e) := by
  match e with
  | .nil => exact .nil
  | .ident i => exact joined_ident i
  | .value v => exact .val v
  | .arrayList l => rw [exprL]; exact joined_commaSep (joined_rows l)
  | .array l => rw [exprL]; exact joined_commaSep (joined_exprs l)
  | .raw s => exact .raw s
  | .wrapper e => rw [exprL]; exact joined_paren (fun _ => ⟨_, rfl, rfl⟩) (joined_expr e)
  | .call f args =>
    rw [exprL]
    exact .before (a := [.raw f]) (.raw f) rfl
      (joined_paren (o := s%"(") (fun _ => ⟨_, rfl, rfl⟩) (joined_commaSep (joined_exprs args)))
  | .infx l op r => rw [exprL]; exact joined_parenInfix (joined_expr l) (joined_expr r)
  | .inx e op v =>
    have hv : Joined (if blank v = true then [] else exprL v) := by
      split
      · exact .nil
      · exact joined_expr v
    rw [exprL]
    simp only [List.cons_append, List.append_assoc]
    exact .after (fun _ => ⟨_, rfl, rfl⟩) (.before (joined_expr e) rfl
      (.after (fun _ => ⟨_, rfl, rfl⟩) (.before (a := [.raw op]) (.raw op) rfl
        (.after (fun _ => ⟨_, rfl, rfl⟩) (.before hv rfl
          (.text fun _ => ⟨_, ⟨_, rfl, nofun, rfl⟩, rfl⟩))))))
  | .between i op lo and hi =>
    rw [exprL]
    have := joined_paren (o := s%"(") (fun _ => ⟨_, rfl, rfl⟩)
      (joined_infix (op := op) (joined_ident i)
        (joined_infix (op := and) (joined_expr lo) (joined_expr hi)))
    simpa [List.append_assoc] using this
  | .exist e => rw [exprL]; exact joined_paren (fun _ => ⟨_, rfl, rfl⟩) (joined_expr e)
  | .notExist e => rw [exprL]; exact joined_paren (fun _ => ⟨_, rfl, rfl⟩) (joined_expr e)
  | .select s => rw [exprL]; exact joined_select s
  | .onClause l r =>
    rw [exprL]
    exact .before (joined_column l) rfl (.after (fun _ => ⟨_, rfl, rfl⟩) (joined_column r))
  | .infixOn l op r => rw [exprL]; exact joined_parenInfix (joined_expr l) (joined_expr r)

theorem joined_exprs (l : List Expr) : ∀ a ∈ exprsL l, Joined a := by
  match l with
  | [] => simp [exprsL]
  | e :: l =>
    intro a ha
    rw [exprsL] at ha
    rcases List.mem_cons.1 ha with rfl | ha
    · exact joined_expr e
    · exact joined_exprs l a ha

theorem joined_rows (l : List Expr) : ∀ a ∈ rowsL l, Joined a := by
  match l with
  | [] => simp [rowsL]
  | e :: l =>
    intro a ha
    rw [rowsL] at ha
    rcases List.mem_cons.1 ha with rfl | ha
    · exact joined_paren (fun _ => ⟨_, rfl, rfl⟩) (joined_expr e)
    · exact joined_rows l a ha

theorem joined_selExpr (e : SelExpr) : Joined (selExprL e) := by
  match e with
  | .nil => exact .nil
  | .column c => exact joined_column c
  | .raw s => exact .raw s
  | .count v distinct alias =>
    rw [selExprL]
    cases distinct with
    | true =>
      simp only [if_true, List.cons_append, List.nil_append]
      exact .after (fun _ => ⟨_, rfl, rfl⟩) (joined_aggregate fun _ => ⟨_, rfl, rfl⟩)
    | false =>
      simp only [Bool.false_eq_true, if_false, List.cons_append, List.nil_append]
      exact joined_aggregate fun _ => ⟨_, rfl, rfl⟩
  | .max v alias => rw [selExprL]; exact joined_aggregate fun _ => ⟨_, rfl, rfl⟩
  | .min v alias => rw [selExprL]; exact joined_aggregate fun _ => ⟨_, rfl, rfl⟩
  | .sum v alias => rw [selExprL]; exact joined_aggregate fun _ => ⟨_, rfl, rfl⟩
  | .exist e => rw [selExprL]; exact joined_paren (fun _ => ⟨_, rfl, rfl⟩) (joined_expr e)
  | .notExist e => rw [selExprL]; exact joined_paren (fun _ => ⟨_, rfl, rfl⟩) (joined_expr e)

theorem joined_selExprs (l : List SelExpr) : ∀ a ∈ selExprsL l, Joined a := by
  match l with
  | [] => simp [selExprsL]
  | e :: l =>
    intro a ha
    rw [selExprsL] at ha
    rcases List.mem_cons.1 ha with rfl | ha
    · exact joined_selExpr e
    · exact joined_selExprs l a ha

theorem joined_join (j : Join) : Joined (joinL j) := by
  match j with
  | ⟨type, table, cond⟩ =>
    rw [joinL]
    exact .before (a := [.raw type]) (.raw type) rfl (.after (fun _ => ⟨_, rfl, rfl⟩)
      (.before (joined_table table) rfl (.after (fun _ => ⟨_, rfl, rfl⟩) (joined_expr cond))))

theorem joined_joins (l : List Join) : ∀ o ∈ joinsL l, ∀ a, o = some a → Joined a := by
  match l with
  | [] => simp [joinsL]
  | j :: l =>
    intro o ho
    rw [joinsL] at ho
    rcases List.mem_cons.1 ho with rfl | ho
    · exact joined_some (joined_join j)
    · exact joined_joins l o ho

theorem joined_with (w : WithQuery) : Joined (withL w) := by
  match w with
  | ⟨name, sub⟩ =>
    rw [withL]
    split
    · exact .nil
    · exact .before (a := [.raw name]) (.raw name) rfl
        (joined_paren (fun _ => ⟨_, rfl, rfl⟩) (joined_expr sub))

theorem joined_withs (l : List WithQuery) : ∀ a ∈ withsL l, Joined a := by
  match l with
  | [] => simp [withsL]
  | w :: l =>
    intro a ha
    rw [withsL] at ha
    rcases List.mem_cons.1 ha with rfl | ha
    · exact joined_with w
    · exact joined_withs l a ha

theorem joined_select (s : SelectStmt) : Joined (selectL s) := by
  match s with
  | ⟨pfx, withs, distinct, distinctOn, exprs, tables, joins, whr, groupBy, having, orderBy,
      limit, offset, sfx, comment⟩ =>
    rw [selectL]
    refine joined_comment (joined_spaced ?_) comment
    intro o ho
    rw [List.mem_append, List.mem_append] at ho
    rcases ho with (ho | ho) | ho
    · simp only [List.mem_cons, List.not_mem_nil, or_false] at ho
      rcases ho with rfl | rfl | rfl | rfl | rfl | rfl | rfl
      · exact joined_clause (.raw pfx)
      · exact joined_clause (.after (fun _ => ⟨_, rfl, rfl⟩) (joined_commaSep (joined_withs withs)))
      · exact joined_some (.text fun _ => ⟨_, ⟨_, rfl, nofun, rfl⟩, rfl⟩)
      · exact joined_clause (joined_paren (fun _ => ⟨_, rfl, rfl⟩) (joined_map joined_column _))
      · exact joined_clause (.text fun _ => ⟨_, ⟨_, rfl, nofun, rfl⟩, rfl⟩)
      · exact joined_some (joined_commaSep (joined_selExprs exprs))
      · exact joined_clause (joined_from tables)
    · exact joined_joins joins o ho
    · simp only [List.mem_cons, List.not_mem_nil, or_false] at ho
      rcases ho with rfl | rfl | rfl | rfl | rfl | rfl | rfl
      · exact joined_clause (.after (fun _ => ⟨_, rfl, rfl⟩) (joined_expr whr))
      · exact joined_clause (.after (fun _ => ⟨_, rfl, rfl⟩) (joined_map joined_column _))
      · exact joined_clause (.after (fun _ => ⟨_, rfl, rfl⟩) (joined_expr having))
      · exact joined_clause (.after (fun _ => ⟨_, rfl, rfl⟩) (joined_map joined_order _))
      · exact joined_clause (.text (plain_closed fun _ => closed_limit limit))
      · exact joined_clause (.text (plain_closed fun _ => closed_offset offset))
      · exact joined_clause (.raw sfx)

end

theorem joined_assign (ce : Column × Expr) : Joined (assignL ce) :=
  .before (joined_column _) rfl (.after (fun _ => ⟨_, rfl, rfl⟩) (joined_expr _))

theorem joined_set (p : PairContainer) : Joined (setL p) := by
  unfold setL
  refine .after (fun _ => ⟨_, rfl, rfl⟩) ?_
  cases p.mode with
  | unknown => exact .nil
  | associative => exact joined_map joined_assign _
  | array =>
    simp only [List.cons_append, List.append_assoc]
    exact .after (fun _ => ⟨_, rfl, rfl⟩) (.before (joined_map joined_column _) rfl
      (.after (fun _ => ⟨_, rfl, rfl⟩) (.before (joined_commaSep (joined_exprs _)) rfl
        (.text fun _ => ⟨_, ⟨_, rfl, nofun, rfl⟩, rfl⟩))))

theorem joined_action (a : ConflictAction) : Joined (actionL a) := by
  cases a with
  | nil => exact .nil
  | nothing => exact .text fun _ => ⟨_, ⟨_, rfl, nofun, rfl⟩, rfl⟩
  | update set => exact .after (fun _ => ⟨_, rfl, rfl⟩) (joined_set set)

theorem joined_conflict (target : List Column) (a : ConflictAction) :
    Joined (conflictL target a) := by
  unfold conflictL
  rw [List.cons_append]
  refine .after (fun _ => ⟨_, rfl, rfl⟩) ?_
  split
  · exact joined_action a
  · simp only [List.cons_append, List.append_assoc, List.nil_append]
    exact .after (fun _ => ⟨_, rfl, rfl⟩) (.before (joined_map joined_column _) rfl
      (.after (fun _ => ⟨_, rfl, rfl⟩) (joined_action a)))

theorem joined_returning (es : List SelExpr) : Joined (returningL es) :=
  .after (fun _ => ⟨_, rfl, rfl⟩) (joined_commaSep (joined_selExprs es))

theorem joined_layout (s : Stmt) : Joined (layout s) := by
  cases s with
  | select s => exact joined_select s
  | insert i =>
    simp only [layout, insertL]
    refine joined_comment (joined_spaced ?_) _
    intro o ho
    simp only [List.mem_cons, List.not_mem_nil, or_false] at ho
    rcases ho with rfl | rfl | rfl | rfl | rfl
    · exact joined_some (.after (fun _ => ⟨_, rfl, rfl⟩) (joined_table _))
    · exact joined_clause (joined_paren (fun _ => ⟨_, rfl, rfl⟩) (joined_map joined_column _))
    · exact joined_clause (.after (fun _ => ⟨_, rfl, rfl⟩) (joined_expr _))
    · exact joined_clause (joined_conflict _ _)
    · exact joined_clause (joined_returning _)
  | update u =>
    simp only [layout, updateL]
    refine joined_comment (joined_spaced ?_) _
    intro o ho
    simp only [List.mem_cons, List.not_mem_nil, or_false] at ho
    rcases ho with rfl | rfl | rfl | rfl | rfl | rfl | rfl | rfl
    · exact joined_clause (.after (fun _ => ⟨_, rfl, rfl⟩) (joined_commaSep (joined_withs _)))
    · exact joined_some (.text fun _ => ⟨_, ⟨_, rfl, nofun, rfl⟩, rfl⟩)
    · exact joined_clause (.text fun _ => ⟨_, ⟨_, rfl, nofun, rfl⟩, rfl⟩)
    · exact joined_some (joined_table _)
    · exact joined_some (joined_set _)
    · exact joined_clause (joined_from _)
    · exact joined_clause (.after (fun _ => ⟨_, rfl, rfl⟩) (joined_expr _))
    · exact joined_clause (joined_returning _)
  | delete d =>
    simp only [layout, deleteL]
    refine joined_comment (joined_spaced ?_) _
    intro o ho
    simp only [List.mem_cons, List.not_mem_nil, or_false] at ho
    rcases ho with rfl | rfl | rfl | rfl | rfl
    · exact joined_some (.text fun _ => ⟨_, ⟨_, rfl, nofun, rfl⟩, rfl⟩)
    · exact joined_some (joined_from _)
    · exact joined_clause (.after (fun _ => ⟨_, rfl, rfl⟩) (joined_map joined_table _))
    · exact joined_clause (.after (fun _ => ⟨_, rfl, rfl⟩) (joined_expr _))
    · exact joined_clause (joined_returning _)

end

end Verif
