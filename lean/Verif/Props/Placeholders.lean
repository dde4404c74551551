import Verif.Lemmas.Weave
import Verif.Props.Sample

/-!
# C01-C05 and C51: placeholders and arguments
-/

set_option linter.unusedSectionVars false

namespace Verif.Props
open Spec

section
variable [GoRuntime]

/-- C01. The text returned by `Query` is the fixed fragments of the statement with `$1`, `$2`,
..., `$n` between them, in this order, and the arguments are the values of the statement in
the order of their positions: the value standing between fragments `k` and `k+1` is argument
number `k`. -/
theorem C01_positional (s : Stmt) (text : Str) (args : List Val)
    (h : s.write.query = .ok (text, args)) :
    args = arguments (layout s) ∧
    text = weave (fragments (layout s)) (dollars 1 args.length) ∧
    (fragments (layout s)).length = args.length + 1 := by
  obtain ⟨_, hr⟩ := query_ok h
  cases hr
  refine ⟨rfl, ?_, fragments_length _⟩
  rw [render_weave, holes_dollar]

/-- C02. The text returned by `NamedQuery` is the fixed fragments of the statement with
`:arg_1`, ..., `:arg_n` between them; the map holds exactly `arg_1`, ..., `arg_n`, each once,
each with the value of its position, and is nil when there is no value. -/
theorem C02_named (s : Stmt) (text : Str) (args : Option (List (Str × Val)))
    (h : s.write.namedQuery = .ok (text, args)) :
    text = weave (fragments (layout s)) (colons 1 (arguments (layout s)).length) ∧
    (fragments (layout s)).length = (arguments (layout s)).length + 1 ∧
    (args = none ↔ arguments (layout s) = []) ∧
    ∀ m, args = some m →
      m.map (·.1) = argNames (arguments (layout s)).length ∧
      m.map (·.2) = arguments (layout s) ∧
      (m.map (·.1)).Nodup := by
  obtain ⟨_, hr⟩ := namedQuery_ok h
  cases hr
  refine ⟨by rw [render_weave, holes_colon], fragments_length _, ?_, ?_⟩
  · cases arguments (layout s) <;> simp [namedMap]
  · intro m hm
    rw [namedMap_eq, Spec.namedArgs] at hm
    split at hm
    · cases hm
    · cases hm
      have h1 : (argNames (arguments (layout s)).length).length = (arguments (layout s)).length := by
        simp [argNames]
      refine ⟨List.map_fst_zip (Nat.le_of_eq h1), List.map_snd_zip (Nat.le_of_eq h1.symm), ?_⟩
      rw [List.map_fst_zip (Nat.le_of_eq h1), argNames]
      refine List.Pairwise.map _ ?_ (List.nodup_range' (step := 1))
      intro a b hab e
      exact hab (formatNat_inj (append_left_cancel' e))

/-- C03. Either all three renderings panic (`Query` and `NamedQuery` with the same panic), or
there is one list of fragments and one list of values such that the three texts are these
fragments with `$k`, `:arg_k` or the literals of the values in between; in this case
`String` fails exactly when one of the values cannot be formatted. -/
theorem C03_renderings_agree (s : Stmt) :
    (∃ p q, s.write.query = .error p ∧ s.write.namedQuery = .error p ∧
      s.write.string = .error q) ∨
    (∃ (frags : List Str) (args : List Val), frags.length = args.length + 1 ∧
      s.write.query = .ok (weave frags (dollars 1 args.length), args) ∧
      s.write.namedQuery = .ok (weave frags (colons 1 args.length), namedArgs args) ∧
      ((∃ lits : List Str, args.map formatValue = lits.map .ok ∧
          s.write.string = .ok (weave frags lits)) ∨
       (∃ v ∈ args, ∃ p q, formatValue v = .error p ∧ s.write.string = .error q))) := by
  cases hok : okStmt s with
  | false =>
    obtain ⟨p, h1, h2, q, h3⟩ := panics s hok
    exact .inl ⟨p, q, h1, h2, h3⟩
  | true =>
    refine .inr ⟨fragments (layout s), arguments (layout s), fragments_length _, ?_, ?_, ?_⟩
    · rw [query_eq s hok, render_weave, holes_dollar]
    · rw [namedQuery_eq s hok, render_weave, holes_colon, namedMap_eq]
    · rcases formatAll (arguments (layout s)) with ⟨lits, h⟩ | ⟨v, hv, p, hp⟩
      · refine .inl ⟨lits, h, ?_⟩
        rw [string_eq s hok, render_weave, holes_literal h]
        intro v hv
        have : formatValue v ∈ (arguments (layout s)).map formatValue := List.mem_map_of_mem hv
        rw [h] at this
        obtain ⟨t, _, ht⟩ := List.mem_map.1 this
        exact ⟨t, ht.symm⟩
      · refine .inr ⟨v, hv, p, ?_⟩
        obtain ⟨q, hq⟩ := run_raw_error (layout s) [] v hv p hp
        refine ⟨q, hp, ?_⟩
        rw [W.string, (denotes_stmt s).1 hok _ _ rawContext_additive, hq]

/-- C04. Two statements that differ only in the values they bind (non-nil values replaced by
non-nil values, anywhere) give the same text and the same number of arguments in `Query` and
in `NamedQuery` (with the same argument names), and panic in the same cases. -/
theorem C04_values_do_not_matter (s s' : Stmt) (h : SameUpToValues s s') :
    (∀ text args, s.write.query = .ok (text, args) →
      ∃ args', s'.write.query = .ok (text, args') ∧ args'.length = args.length) ∧
    (∀ text args, s.write.namedQuery = .ok (text, args) →
      ∃ args', s'.write.namedQuery = .ok (text, args') ∧
        args'.map (·.map (·.1)) = args.map (·.map (·.1))) := by
  have hf : NilPreserving forget := by intro v; cases v <;> simp [forget]
  have hok : okStmt s' = okStmt s := by
    rw [← okStmt_map (f := forget) s, ← okStmt_map (f := forget) s', h]
  have hlay : (layout s).map (mapPiece forget) = (layout s').map (mapPiece forget) := by
    rw [← layout_map, ← layout_map, h]
  have hargs : (arguments (layout s)).map forget = (arguments (layout s')).map forget := by
    rw [← arguments_map hf, ← arguments_map hf, hlay]
  have hlen : (arguments (layout s')).length = (arguments (layout s)).length := by
    have := congrArg List.length hargs
    simpa using this.symm
  have htext : ∀ ph : Nat → Val → Str, (∀ k v w, ph k v = ph k w) →
      render ph 1 (layout s) = render ph 1 (layout s') := by
    intro ph hph
    rw [← render_map hf ph hph 1 (layout s), ← render_map hf ph hph 1 (layout s'), hlay]
  constructor
  · intro text args hq
    obtain ⟨h1, h2⟩ := query_ok hq
    cases h2
    refine ⟨arguments (layout s'), ?_, hlen⟩
    rw [query_eq s' (hok.trans h1), htext dollar (fun _ _ _ => rfl)]
  · intro text args hq
    obtain ⟨h1, h2⟩ := namedQuery_ok hq
    cases h2
    refine ⟨namedMap (arguments (layout s')), ?_, ?_⟩
    · rw [namedQuery_eq s' (hok.trans h1), htext colon (fun _ _ _ => rfl)]
    · rw [namedMap_eq, namedMap_eq]
      unfold Spec.namedArgs
      have he : (arguments (layout s')).isEmpty = (arguments (layout s)).isEmpty := by
        rw [Bool.eq_iff_iff, List.isEmpty_iff_length_eq_zero, List.isEmpty_iff_length_eq_zero, hlen]
      rw [he]
      split
      · rfl
      · have h1 : ∀ l : List Val, ((argNames l.length).zip l).map (·.1) = argNames l.length :=
          fun l => List.map_fst_zip (by simp [argNames])
        simp only [Option.map_some]
        rw [h1, h1, hlen]

/-- C04, applied form: replacing every value through a function that maps nil to nil and
nothing else to nil leaves the text as it is and replaces the arguments one by one; a
statement that panics still panics. -/
theorem C04_substitution (f : Val → Val) (hf : ∀ v, f v = .nil ↔ v = .nil) (s : Stmt) :
    (∀ text args, s.write.query = .ok (text, args) →
      (mapStmt f s).write.query = .ok (text, args.map f)) ∧
    (∀ text args, s.write.namedQuery = .ok (text, args) →
      (mapStmt f s).write.namedQuery
        = .ok (text, args.map (·.map fun kv => (kv.1, f kv.2)))) ∧
    (∀ p, s.write.query = .error p → ∃ q, (mapStmt f s).write.query = .error q) := by
  have hok := okStmt_map (f := f) s
  refine ⟨?_, ?_, ?_⟩
  · intro text args hq
    obtain ⟨h1, h2⟩ := query_ok hq
    cases h2
    rw [query_eq _ (hok.trans h1), layout_map, render_map hf dollar (fun _ _ _ => rfl),
      arguments_map hf]
  · intro text args hq
    obtain ⟨h1, h2⟩ := namedQuery_ok hq
    cases h2
    rw [namedQuery_eq _ (hok.trans h1), layout_map, render_map hf colon (fun _ _ _ => rfl),
      arguments_map hf]
    congr 2
    simp only [namedMap, List.isEmpty_map]
    split
    · rfl
    · simp only [Option.map_some, Option.some.injEq]
      generalize arguments (layout s) = l
      generalize 1 = k
      induction l generalizing k with
      | nil => rfl
      | cons v l ih => simp only [List.map_cons, namedFrom, ih]
  · intro p hp
    cases h : okStmt s with
    | true => rw [query_eq s h] at hp; cases hp
    | false =>
      obtain ⟨q, hq, _⟩ := panics _ (hok.trans h)
      exact ⟨q, hq⟩

/-- C05. At any position of any statement, a nil value is rendered as `NULL` without argument;
any other value is rendered as the next placeholder with itself as argument, in `Query` and
in `NamedQuery`. -/
theorem C05_nil_is_null (s : Stmt) (pre post : List Piece) (v : Val)
    (hl : layout s = pre ++ .val v :: post) (text : Str) (args : List Val)
    (h : s.write.query = .ok (text, args)) :
    let before := arguments pre
    let after := arguments post
    let n := before.length
    (v = .nil →
      text = weave (fragments pre) (dollars 1 n) ++ s%"NULL"
        ++ weave (fragments post) (dollars (n + 1) after.length) ∧
      args = before ++ after) ∧
    (v ≠ .nil →
      text = weave (fragments pre) (dollars 1 n) ++ (s%"$" ++ numeral (n + 1))
        ++ weave (fragments post) (dollars (n + 2) after.length) ∧
      args = before ++ v :: after) := by
  obtain ⟨_, hr⟩ := query_ok h
  cases hr
  intro before after n
  have e1 : 1 + (arguments pre).length = n + 1 := Nat.add_comm _ _
  constructor
  · intro hv
    subst hv
    rw [hl, render_append, arguments_append]
    simp only [render, arguments]
    rw [render_weave, render_weave, holes_dollar, holes_dollar, e1]
    exact ⟨by simp [before, after, n], rfl⟩
  · intro hv
    rw [hl, render_append, arguments_append, render_weave, holes_dollar, e1]
    cases v
    case nil => exact absurd rfl hv
    all_goals
      simp only [render, arguments]
      rw [render_weave, holes_dollar]
      exact ⟨by simp [before, after, n, dollar, numeral, formatNat], rfl⟩

/-- C05 for `NamedQuery`. -/
theorem C05_nil_is_null_named (s : Stmt) (pre post : List Piece) (v : Val)
    (hl : layout s = pre ++ .val v :: post) (text : Str) (args : Option (List (Str × Val)))
    (h : s.write.namedQuery = .ok (text, args)) :
    let before := arguments pre
    let after := arguments post
    let n := before.length
    (v = .nil →
      text = weave (fragments pre) (colons 1 n) ++ s%"NULL"
        ++ weave (fragments post) (colons (n + 1) after.length) ∧
      args = namedArgs (before ++ after)) ∧
    (v ≠ .nil →
      text = weave (fragments pre) (colons 1 n) ++ (s%":arg_" ++ numeral (n + 1))
        ++ weave (fragments post) (colons (n + 2) after.length) ∧
      args = namedArgs (before ++ v :: after)) := by
  obtain ⟨_, hr⟩ := namedQuery_ok h
  cases hr
  intro before after n
  have e1 : 1 + (arguments pre).length = n + 1 := Nat.add_comm _ _
  constructor
  · intro hv
    subst hv
    rw [hl, render_append, arguments_append]
    simp only [render, arguments]
    rw [render_weave, render_weave, holes_colon, holes_colon, e1, namedMap_eq]
    exact ⟨by simp [before, after, n], rfl⟩
  · intro hv
    rw [hl, render_append, arguments_append, render_weave, holes_colon, e1, namedMap_eq]
    cases v
    case nil => exact absurd rfl hv
    all_goals
      simp only [render, arguments]
      rw [render_weave, holes_colon]
      exact ⟨by simp [before, after, n, colon, numeral, formatNat], rfl⟩

/-- C51. Wherever a SELECT is embedded in a statement that renders, the SELECT renders by
itself, its fragments appear in the text of the outer statement with the placeholders
numbered on from the arguments before it, and its arguments appear contiguously at that
place of the outer arguments. -/
theorem C51_embedding (inner : SelectStmt) (outer : Stmt) (hin : InStmt inner outer)
    (text : Str) (args : List Val) (h : outer.write.query = .ok (text, args)) :
    ∃ (frags : List Str) (innerArgs before after : List Val) (pre post : Str),
      frags.length = innerArgs.length + 1 ∧
      (Stmt.select inner).write.query
        = .ok (weave frags (dollars 1 innerArgs.length), innerArgs) ∧
      text = pre ++ weave frags (dollars (before.length + 1) innerArgs.length) ++ post ∧
      args = before ++ innerArgs ++ after := by
  obtain ⟨hok, hr⟩ := query_ok h
  cases hr
  obtain ⟨hi, a, b, hab⟩ := okStmt_of_inStmt hin hok
  refine ⟨fragments (selectL inner), arguments (selectL inner), arguments a, arguments b,
    render dollar 1 a,
    render dollar (1 + (arguments (a ++ selectL inner)).length) b, fragments_length _, ?_, ?_, ?_⟩
  · rw [query_eq (.select inner) (by simpa [okStmt] using hi), render_weave, holes_dollar]; rfl
  · rw [← hab, render_append, render_append, ← holes_dollar, ← render_weave, Nat.add_comm 1]
  · rw [← hab, arguments_append, arguments_append]

end

/-! ## The hypotheses can be met -/
section
attribute [local instance] Runtime.sample
set_option maxRecDepth 2000

/-- A statement with three arguments, a nil and an embedded SELECT. -/
example : (Stmt.select Sample.users).write.query
    = .ok (s%"SELECT \"id\", \"name\" AS \"n\" FROM \"users\" LEFT JOIN \"teams\" ON \"users\".\"team\" = \"teams\".\"id\" WHERE (((\"age\" > $1) AND (\"deleted\" IS NULL)) AND ((\"group\" IN (SELECT \"id\" FROM \"groups\" WHERE (\"active\" = $2))) OR (\"name\" = $3))) ORDER BY id DESC LIMIT 10",
      [.int .int 18, .bool true, .str s%"o'neil"]) := by rfl

example : (Stmt.insert Sample.insertUsers).write.namedQuery
    = .ok (s%"INSERT INTO \"users\" (\"email\", \"age\") VALUES (:arg_1, :arg_2), (NULL, :arg_3) ON CONFLICT (\"email\") DO UPDATE SET \"age\" = :arg_4 RETURNING \"id\"",
      some [(s%"arg_1", .str s%"a@b"), (s%"arg_2", .int .int 1), (s%"arg_3", .int .int 2),
            (s%"arg_4", .int .int 3)]) := by rfl

/-- Two different statements that are the same up to values. -/
example : SameUpToValues (.delete Sample.deleteUsers)
    (.delete { Sample.deleteUsers with
      whr := .infx (.ident (.str s%"id")) (.comparison s%"=") (.value (.str s%"1; DROP TABLE")) }) := by
  rfl

/-- A function as required by `C04_substitution` that is not the identity. -/
example : ∃ f : Val → Val, (∀ v, f v = .nil ↔ v = .nil) ∧ f (.bool true) ≠ .bool true :=
  ⟨fun v => match v with | .nil => .nil | _ => .str s%"'; --",
    fun v => by cases v <;> simp, by simp⟩

/-- The positions of a nil and of a non-nil value. -/
example : ∃ pre post, layout (.select Sample.users) = pre ++ .val .nil :: post ∧
    (arguments pre).length = 1 ∧ (arguments post).length = 2 :=
  ⟨(layout (.select Sample.users)).take 37, (layout (.select Sample.users)).drop 38, by rfl, by rfl, by rfl⟩

example : InStmt Sample.groups (.select Sample.users) :=
  .select (.select (.whr (.infxR (.infxL (.inxV (.array (List.mem_singleton.2 rfl) .here) rfl))) rfl))

example : InStmt Sample.groups (.update Sample.updateUsers) :=
  .updateSet (.assoc (c := { name := s%"b" }) rfl
    (show _ ∈ [({ name := s%"a" }, .value (.str s%"x")),
      (({ name := s%"b" } : Column), Expr.wrapper (.select Sample.groups))] by simp) (.wrapper .here))

end

end Verif.Props
