import Verif.Props.Format
import Verif.Lemmas.RawText
import Verif.Lemmas.Tokens
import Verif.Model.Runtime

/-!
# C11: what a quote in a value does to the text of `String`

`C11_partial` says that with standard conforming strings the literal of a value with a quote does not
end where it should. Here is where it ends, and what an attacker can make of it.
-/

namespace Verif.Props
open Verif Spec

section
variable [GoRuntime]

/-- C11, exactly. If a value has a quote that is not its last character, then the literal ends at its
first quote, with an additional backslash, and the rest of the value is SQL text. (What is between
the quotes of the literals of both parts is `x` and `y`.) -/
theorem C11_exact (a b rest : Str) (ha : '\'' ∉ a) (hb : b ≠ []) :
    ∃ x y t, formatValue (.str a) = .ok (s%"'" ++ x ++ s%"'") ∧
      formatValue (.str b) = .ok (s%"'" ++ y ++ s%"'") ∧
      formatValue (.str (a ++ s%"'" ++ b)) = .ok t ∧
      readStd (t ++ rest) = some (x ++ s%"\\", y ++ s%"'" ++ rest) := by
  refine ⟨_, _, _, rfl, rfl, rfl, ?_⟩
  obtain ⟨c, b, rfl⟩ := List.exists_cons_of_ne_nil hb
  have e : formatString (a ++ s%"'" ++ c :: b) ++ rest = '\'' :: ((a.flatMap formatStringRune ++ s%"\\") ++
      '\'' :: ((c :: b).flatMap formatStringRune ++ s%"'" ++ rest)) := by
    rw [formatString, List.flatMap_append, List.flatMap_append,
      show List.flatMap formatStringRune s%"'" = s%"\\'" from rfl]
    simp
  rw [e]
  show readQuoted '\'' _ = _
  rw [readQuoted, if_pos rfl]
  refine readBody_plain ?_ ?_
  · intro h
    rcases List.mem_append.1 h with h | h
    · obtain ⟨c, hc, he⟩ := List.mem_flatMap.1 h
      exact formatStringRune_no_quote (fun e => ha (e ▸ hc)) he
    · revert h; decide
  · rw [List.flatMap_cons]
    by_cases hc : c = '\''
    · subst hc; simp [formatStringRune]
    · intro h
      cases hf : formatStringRune c with
      | nil => exact formatStringRune_ne_nil c hf
      | cons d l =>
        rw [hf] at h
        simp only [List.cons_append, List.head?_cons, Option.some.injEq] at h
        exact formatStringRune_no_quote hc (by rw [hf, h]; exact List.mem_cons_self)

omit [GoRuntime] in
/-- After a text that is complete, white space and a comment change nothing. -/
theorem tokens_then_comment {b : Bool} {t : Str} {o : List SqlTok} (h : tokens b t = some o) (c : Str)
    (hc : ∀ x ∈ c, x ≠ '\n' ∧ x ≠ '\r') :
    tokEnd (tokRun b .free (t ++ s%" --" ++ c)).1 = some [] ∧
      (tokRun b .free (t ++ s%" --" ++ c)).2 = o := by
  have stay : ∀ c : Str, (∀ x ∈ c, x ≠ '\n' ∧ x ≠ '\r') → tokRun b .comment c = (.comment, []) := by
    intro c
    induction c with
    | nil => exact fun _ => rfl
    | cons x c ih =>
      intro hc
      obtain ⟨h1, h2⟩ := hc x List.mem_cons_self
      simp [tokRun, tokStep, h1, h2, ih fun y hy => hc y (List.mem_cons_of_mem _ hy)]
  unfold tokens at h
  rw [tokRun_append, tokRun_append]
  simp only
  have : tokRun b (tokRun b .free t).1 s%" --" = (.comment, ((tokEnd (tokRun b .free t).1).getD [])) := by
    revert h
    generalize (tokRun b .free t).1 = m
    cases m with
    | dollar ds =>
      by_cases hd : ds = []
      · subst hd; intro h; cases h
      · intro _
        simp only [tokEnd, if_neg hd, Option.getD_some]
        simp [tokRun, tokStep, hd, tokAfter, tokStart, wordStart, isBlank,
          show Spec.isDigit ' ' = false from rfl]
    | word w => intro _; simp [tokRun, tokStep, tokEnd, tokAfter, tokStart, wordStart, isBlank]
    | name w => intro h; cases h
    | literal w => intro h; cases h
    | escape w => intro h; cases h
    | bad => intro h; cases h
    | free => exact fun _ => rfl
    | dash => exact fun _ => rfl
    | slash => exact fun _ => rfl
    | nameQuote w => exact fun _ => rfl
    | literalQuote w => exact fun _ => rfl
    | comment => exact fun _ => rfl
  rw [this, stay c hc]
  refine ⟨rfl, ?_⟩
  cases hm : tokEnd (tokRun b .free t).1 with
  | none => rw [hm] at h; cases h
  | some f =>
    rw [hm] at h
    simp only [Option.map_some, Option.some.injEq] at h
    simpa using h

/-- C11 is false for the whole of a statement, for whatever SQL text an attacker likes (without
quotes, backslashes and line breaks): there is a value such that the text of
`Delete("users").Where(Condition("name").Equal(value))` is read, with standard conforming strings, as
a condition on a literal that is a backslash, and then the text of the attacker. What `Query` sends
is not concerned. -/
theorem C11_injection (attack : Str) (ts : List SqlTok)
    (ha : ∀ c ∈ attack, c ≠ '\'' ∧ c ≠ '\\' ∧ c ≠ '\n' ∧ c ≠ '\r' ∧ c ≠ '\t')
    (ht : tokens false attack = some ts) :
    ∃ (value text : Str) (cond : Expr) (b b' : DeleteStmt),
      Ident.Equal (.str s%"name") (.val (.str value)) = .ok cond ∧
      delete (.val (.str s%"users")) = .ok b ∧ b.Where cond = .ok b' ∧
      (Stmt.delete b').write.query =
        .ok (s%"DELETE FROM " ++ quote s%"users" ++ s%" WHERE (" ++ quote s%"name" ++ s%" = $1)",
          [.str value]) ∧
      (Stmt.delete b').write.string = .ok text ∧
      tokens false text = some ([.word s%"DELETE", .word s%"FROM", .name s%"users", .word s%"WHERE",
        .sym '(', .name s%"name", .sym '=', .literal s%"\\"] ++ ts) := by
  have plain : ∀ n : Str, (∀ c ∈ n, ordinary c) → splitOn '.' n = [n] → quote n = '"' :: (n ++ ['"']) := by
    intro n hn h1
    unfold quote
    rw [h1]
    show '"' :: (n.flatMap quoteRune ++ ['"']) = _
    rw [flatMap_plain fun c hc => ordinary_plain (hn c hc)]
  have hu := plain s%"users" (by decide) rfl
  have hn := plain s%"name" (by decide) rfl
  have hv : List.flatMap formatStringRune (s%"' " ++ attack ++ s%" --") = s%"\\' " ++ attack ++ s%" --" := by
    rw [List.flatMap_append, List.flatMap_append]
    rw [(flatMap_eq_self (fun _ => formatStringRune_plain) (fun c => (formatStringRune_length c).1)
      (fun c => (formatStringRune_length c).2) attack).2 ha]
    rfl
  have h : layout (.delete ⟨[.table { name := s%"users" }], [],
      .infx (.ident (.str s%"name")) (.comparison s%"=") (.value (.str (s%"' " ++ attack ++ s%" --"))), [], []⟩)
      = [.sql s%"DELETE", .sql s%" ", .sql s%"FROM ", .name s%"users", .sql s%" ", .sql s%"WHERE ",
        .sql s%"(", .name s%"name", .sql s%" ", .raw s%"=", .sql s%" ",
        .val (.str (s%"' " ++ attack ++ s%" --")), .sql s%")"] := by rfl
  refine ⟨s%"' " ++ attack ++ s%" --", s%"DELETE FROM \"users\" WHERE (\"name\" = '\\' " ++ attack ++
    s%" --')", _, _, _, rfl, rfl, rfl, ?_, (stmt_string _ _).2 ⟨rfl, ?_⟩, ?_⟩
  · rw [query_eq _ rfl]
    refine (congrArg (fun l => Except.ok (render dollar 1 l, arguments l)) h).trans ?_
    simp only [render, arguments, hu, hn]
    rfl
  · refine (congrArg rawText h).trans ?_
    simp only [rawText, Piece.rawText, hu, hn, formatValue, formatString, hv]
    simp
  · unfold tokens
    rw [show s%"DELETE FROM \"users\" WHERE (\"name\" = '\\' " ++ attack ++ s%" --')" =
      s%"DELETE FROM \"users\" WHERE (\"name\" = '\\' " ++ (attack ++ s%" --" ++ s%"')") by simp,
      tokRun_append]
    have h2 : tokRun false .free s%"DELETE FROM \"users\" WHERE (\"name\" = '\\' " =
      (.free, [.word s%"DELETE", .word s%"FROM", .name s%"users", .word s%"WHERE",
        .sym '(', .name s%"name", .sym '=', .literal s%"\\"]) := by decide
    rw [h2]
    simp only
    obtain ⟨h3, h4⟩ := tokens_then_comment ht s%"')" (by decide)
    rw [h3, h4]
    simp

end

/-! ## Examples -/

section
attribute [local instance] Runtime.sample

example : (∀ c ∈ s%") OR true; DROP TABLE users;",
      c ≠ '\'' ∧ c ≠ '\\' ∧ c ≠ '\n' ∧ c ≠ '\r' ∧ c ≠ '\t') ∧
    tokens false s%") OR true; DROP TABLE users;" = some [.sym ')', .word s%"OR", .word s%"true", .sym ';',
      .word s%"DROP", .word s%"TABLE", .word s%"users", .sym ';'] := by decide

example : formatValue (.str s%"it's") = .ok s%"'it\\'s'" := by rfl
example : readStd s%"'it\\'s', 2" = some (s%"it\\", s%"s', 2") := by decide

end

end Verif.Props
