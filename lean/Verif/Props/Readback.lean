import Verif.Lemmas.Readback
import Verif.Props.Sql

/-!
# C63: the texts of `NamedQuery` and `String` read back as the statement that was built
-/

set_option linter.unusedSectionVars false

namespace Verif.Props
open Spec

section
variable [GoRuntime]

/-- The lexemes of a statement with or without comment are read as the statement. -/
theorem readLexemes_layout (b : Bool) {s : Stmt} (hs : plainStmt (uncommented s) = true) (c : Str) :
    readLexemes (lexemes b (layout (uncommented s)) ++
      if c.isEmpty then [] else [.tok (.sym ';')]) = some (meanStmt s) := by
  generalize hls : lexemes b (layout (uncommented s)) = ls
  have hr : Heads stopEnd (if c.isEmpty then [] else [Lexeme.tok (.sym ';')]) := by
    split
    · exact .inl rfl
    · exact heads_cons (by decide) _
  have := read_any (b := b) hs (10 * (ls ++ if c.isEmpty then []
    else [Lexeme.tok (.sym ';')]).length + 10) _ (by
      rw [hls, List.length_append]; omega) hr
  rw [hls] at this
  rw [readLexemes, this]
  cases c.isEmpty <;> rfl

theorem supplyNamed_end {args : List (Str × Val)} {ts : List SqlTok} {ls : List Lexeme}
    (h : supplyNamed args ts = some ls) (c : Str) :
    supplyNamed args (ts ++ if c.isEmpty then [] else [.sym ';'])
      = some (ls ++ if c.isEmpty then [] else [.tok (.sym ';')]) := by
  split
  · simpa using h
  · obtain ⟨n, hn⟩ : ∃ n, ts.length ≤ n := ⟨_, Nat.le_refl _⟩
    induction n generalizing ts ls with
    | zero =>
      cases List.length_eq_zero_iff.1 (Nat.le_zero.1 hn)
      cases h
      rfl
    | succ n ih =>
      have step : ∀ {t : SqlTok} {l : List SqlTok},
          (∀ l, supplyNamed args (t :: l) = (supplyNamed args l).map (.tok t :: ·)) →
          l.length ≤ n → supplyNamed args (t :: l) = some ls →
          supplyNamed args (t :: l ++ [.sym ';']) = some (ls ++ [.tok (.sym ';')]) := by
        intro t l ht hlen h
        rw [ht] at h
        rw [List.cons_append, ht]
        cases hl : supplyNamed args l with
        | none => rw [hl] at h; cases h
        | some ls' =>
          rw [hl] at h
          cases h
          rw [ih hl hlen]
          rfl
      match ts, h, hn with
      | [], h, _ =>
        cases h
        rfl
      | .param _ :: _, h, _ => cases h
      | .word w :: l, h, hn =>
        exact step (fun l => by rw [supplyNamed] <;> nofun) (by simpa using hn) h
      | .name w :: l, h, hn =>
        exact step (fun l => by rw [supplyNamed] <;> nofun) (by simpa using hn) h
      | .literal w :: l, h, hn =>
        exact step (fun l => by rw [supplyNamed] <;> nofun) (by simpa using hn) h
      | .sym c :: l, h, hn =>
        by_cases hc : c = ':'
        · subst hc
          rw [supplyNamed.eq_def] at h
          simp only [if_true] at h
          split at h
          · next w r =>
            split at h
            · next v ls' hv hl =>
              cases h
              exact supplyNamed_colon hv (ih hl (by simp only [List.length_cons] at hn; omega))
            · cases h
          · cases h
        · exact step (fun l => supplyNamed_sym hc l) (by simpa using hn) h

/-- The argument with the `i`-th name. -/
theorem argumentNamed_at {args : List Val} {i : Nat} {v : Val} (h : args[i]? = some v) :
    argumentNamed ((namedArgs args).getD []) (s%"arg_" ++ numeral (1 + i)) = some v := by
  have hinj : ∀ {a c : Nat}, s%"arg_" ++ numeral a = s%"arg_" ++ numeral c → a = c := by
    intro a c e
    have e : numeral a = numeral c := List.append_cancel_left e
    have h1 := readNat_formatNat a
    have h2 := readNat_formatNat c
    rw [show formatNat a = formatNat c from e, h2] at h1
    cases h1
    rfl
  have key : ∀ (args : List Val) (k i : Nat), args[i]? = some v →
      argumentNamed (((List.range' k args.length).map fun i => s%"arg_" ++ numeral i).zip args)
        (s%"arg_" ++ numeral (k + i)) = some v := by
    intro args
    induction args with
    | nil => intro k i h; simp at h
    | cons a args ih =>
      intro k i h
      rw [List.length_cons, List.range'_succ, List.map_cons, List.zip_cons_cons, argumentNamed]
      cases i with
      | zero =>
        rw [Nat.add_zero, if_pos rfl]
        simpa using h
      | succ i =>
        rw [if_neg fun e => by have := hinj e; omega]
        have := ih (k + 1) i (by simpa using h)
        rwa [show k + (i + 1) = k + 1 + i by omega]
  have hne : args.isEmpty = false := by
    cases args with
    | nil => simp at h
    | cons => rfl
  rw [namedArgs, hne]
  exact key args 1 i h

/-- The text of `NamedQuery`, with any map that has the arguments. -/
theorem readNamed_map (b : Bool) (s : Stmt) (hs : plainStmt (uncommented s) = true)
    (hc : OneLine (commentOf s)) (m : List (Str × Val))
    (hm : ∀ (i : Nat) v, (arguments (layout s))[i]? = some v →
      argumentNamed m (s%"arg_" ++ numeral (1 + i)) = some v) :
    readNamed b (render colon 1 (layout s)) m = some (meanStmt s) := by
  have htoks : tokens b (render colon 1 (layout s)) = some
      (pieceTokens b (fun i _ => [.sym ':', .word (s%"arg_" ++ numeral i)]) 1 (layout (uncommented s))
        ++ if (commentOf s).isEmpty then [] else [.sym ';']) := by
    rw [render_uncommented]
    exact tokens_comment (lexes_render (joined_layout _) (tame_layout hs)
      (fun v _ k => lexes_colon k v) 1) hc
  have hsup := supplyNamed_pieces (b := b) (nm := fun i => s%"arg_" ++ numeral i)
    (args := m) (clean_layout hs) 1 (fun i v hv => by
      rw [arguments_uncommented] at hv
      exact hm i v hv)
  rw [readNamed, htoks]
  simp only [Option.bind_some]
  rw [supplyNamed_end hsup, Option.bind_some]
  exact readLexemes_layout b hs _

/-- C63, `NamedQuery`. For the statements of C55, a SQL parser that puts the argument called `n` of
the map in the place of `:n` reads from the text of `NamedQuery` exactly the statement that was
built. -/
theorem C63_named (b : Bool) (s : Stmt) (hs : plainStmt (uncommented s) = true)
    (hc : OneLine (commentOf s)) (t : Str) (m : Option (List (Str × Val)))
    (ht : s.write.namedQuery = .ok (t, m)) :
    readNamed b t (m.getD []) = some (meanStmt s) := by
  obtain ⟨-, hr⟩ := namedQuery_ok ht
  cases hr
  refine readNamed_map b s hs hc _ fun i v hv => ?_
  rw [namedMap_eq]
  exact argumentNamed_at hv

/-- The lexemes of the text of `String`. -/
theorem string_lexemes (b : Bool) (s : Stmt) (hs : plainStmt (uncommented s) = true)
    (hc : OneLine (commentOf s)) (q : Str) (args : List Val) (t : Str)
    (hq : s.write.query = .ok (q, args)) (ht : s.write.string = .ok t)
    (hv : ∀ v ∈ args, Legible b v)
    (hd : ∀ ts, tokens b q = some ts → .word s%"decode" ∉ ts) :
    readText b t = readLexemes (lexemes b ((layout (uncommented s)).map (mapPiece said)) ++
      if (commentOf s).isEmpty then [] else [.tok (.sym ';')]) := by
  have htame : TameStmt b s := ⟨tame_layout hs, hc⟩
  obtain ⟨ha, hqt⟩ := query_tokens b s htame q args hq
  have hd := hd _ hqt
  rw [List.mem_append, not_or] at hd
  have hr := rawText_render ((stmt_string s t).1 ht).2 1
  subst hr
  have hl : ∀ v ∈ arguments (layout (uncommented s)), ∀ k : Nat,
      Lexes b (literal k v) ((tokens b (literal 1 v)).getD []) := by
    intro v hm k
    obtain ⟨o, ho, -, -⟩ := consts_value k (hv v (ha ▸ hm))
    rw [show literal 1 v = literal k v from rfl, ho.getD]
    exact ho
  have htoks : tokens b (render literal 1 (layout s)) = some
      (pieceTokens b (fun _ v => (tokens b (literal 1 v)).getD []) 1 (layout (uncommented s))
        ++ if (commentOf s).isEmpty then [] else [.sym ';']) := by
    rw [render_uncommented]
    exact tokens_comment (lexes_render (joined_layout _) htame.1 hl 1) hc
  have hcon := consts_pieces (clean_layout hs) 1 hd.1 (fun v hm => hv v (ha ▸ hm)) 1
  have hend : Consts b (if (commentOf s).isEmpty then [] else [.sym ';'])
      (if (commentOf s).isEmpty then [] else [.tok (.sym ';')]) := by
    split
    · exact constsAll_nil.consts
    · exact (constsAll_sym (by decide)).consts
  have hall := consts_append hcon hend (by split <;> rfl)
  have := hall (_ : Nat) [] [] (Nat.le_refl _) rfl (fun m _ => by cases m <;> rfl)
  simp only [List.append_nil, List.length_nil, Nat.add_zero] at this
  rw [readText, htoks]
  simp only [Option.bind_some]
  rw [this]
  rfl

/-- C63, `String`. For the statements of C55 with values that can be read from literals, a SQL
parser reads from the text of `String` alone the statement that was built, with each value `v`
replaced by what its literal says: the same string, bytes or boolean, the same number as a 64-bit
integer or a double precision number (an integer for a float without fraction), for a time a string that denotes it up to the microsecond, for a valuer what the literal
of its value says. (The statement itself may not use the word `decode`, which begins byte strings;
without backslash escapes strings may not contain a character that is written with a backslash.) -/
theorem C63_string (b : Bool) (s : Stmt) (hs : plainStmt (uncommented s) = true)
    (hc : OneLine (commentOf s)) (q : Str) (args : List Val) (t : Str)
    (hq : s.write.query = .ok (q, args)) (ht : s.write.string = .ok t)
    (hv : ∀ v ∈ args, Legible b v)
    (hd : ∀ ts, tokens b q = some ts → .word s%"decode" ∉ ts) :
    ∃ f : Val → Val, (∀ v, SaidBy v (f v)) ∧ readText b t = some (meanStmt (mapStmt f s)) := by
  refine ⟨said, saidBy_said, ?_⟩
  rw [string_lexemes b s hs hc q args t hq ht hv hd, ← layout_map, ← uncommented_map]
  exact readLexemes_layout b (by rw [uncommented_map, plainStmt_map]; exact hs) _

/-- Strings, byte strings, booleans and 64-bit integers. -/
def Exact : Val → Bool
  | .str _ | .bytes _ | .bool _ | .int .int64 _ => true
  | _ => false

/-- C63. If the values are strings, byte strings, booleans and 64-bit integers, then the three
renderings all read back as the statement that was built. -/
theorem C63_all (b : Bool) (s : Stmt) (hs : plainStmt (uncommented s) = true)
    (hc : OneLine (commentOf s)) (q : Str) (args : List Val) (t u : Str)
    (m : Option (List (Str × Val)))
    (hq : s.write.query = .ok (q, args)) (hn : s.write.namedQuery = .ok (u, m))
    (ht : s.write.string = .ok t)
    (hv : ∀ v ∈ args, Exact v = true ∧ Legible b v)
    (hd : ∀ ts, tokens b q = some ts → .word s%"decode" ∉ ts) :
    readStmt b q args = some (meanStmt s) ∧ readNamed b u (m.getD []) = some (meanStmt s) ∧
      readText b t = some (meanStmt s) := by
  refine ⟨C55_roundtrip b s hs hc q args hq, C63_named b s hs hc u m hn, ?_⟩
  rw [string_lexemes b s hs hc q args t hq ht (fun v h => (hv v h).2) hd]
  have hsame : (layout (uncommented s)).map (mapPiece said) = layout (uncommented s) := by
    have ha := (query_tokens b s ⟨tame_layout hs, hc⟩ q args hq).1
    have hv : ∀ v ∈ arguments (layout (uncommented s)), Exact v = true := fun v h => (hv v (ha ▸ h)).1
    generalize layout (uncommented s) = l at hv
    induction l with
    | nil => rfl
    | cons p l ih =>
      cases p with
      | val v =>
        have hcase : v = .nil ∨ arguments (.val v :: l) = v :: arguments l := by
          cases v
          case nil => exact .inl rfl
          all_goals exact .inr rfl
        rcases hcase with rfl | e
        · rw [List.map_cons, ih hv]
          rfl
        · rw [e] at hv
          rw [List.map_cons, ih fun w hw => hv w (List.mem_cons_of_mem _ hw)]
          have h1 := hv v List.mem_cons_self
          have : said v = v := by
            cases v
            case int k n => cases k <;> first | rfl | cases h1
            all_goals first | rfl | cases h1
          rw [mapPiece, this]
      | _ =>
        rw [List.map_cons, ih hv]
        rfl
  rw [hsame]
  exact readLexemes_layout b hs _

end

/-! ## The hypotheses can be met -/

section
attribute [local instance] Runtime.sample

/-- A statement with values of several types, LIMIT, a join and a comment. -/
def mixedValues : SelectStmt :=
  { SelectStmt.zero with
    exprs := [.column { name := s%"u.id" }, .count s%"*" false s%"n"]
    tables := [.table { name := s%"u" }]
    whr := .infx
      (.infx (.ident (.str s%"name")) (.comparison s%"=") (.value (.str s%"it's true: -1, NULL")))
      (.logical s%"AND")
      (.inx (.ident (.str s%"x")) s%"IN"
        (.array [.value (.int .int64 (-5)), .value (.bool true), .value (.bytes [0, 255]), .value .nil]))
    limit := 10
    comment := s%"first page" }

example : plainStmt (uncommented (.select mixedValues)) = true ∧ OneLine mixedValues.comment := by
  unfold OneLine; decide +kernel

example : (Stmt.select mixedValues).write.string = .ok
    (s%"SELECT \"u\".\"id\", COUNT(*) AS n FROM \"u\" WHERE ((\"name\" = 'it\\'s true: -1, NULL') AND "
      ++ s%"(\"x\" IN (-5, true, decode('00ff', 'hex'), NULL))) LIMIT 10; -- first page") := by rfl

example : (Stmt.select mixedValues).write.namedQuery.toOption.map (·.1) = some
    (s%"SELECT \"u\".\"id\", COUNT(*) AS n FROM \"u\" WHERE ((\"name\" = :arg_1) AND "
      ++ s%"(\"x\" IN (:arg_2, :arg_3, :arg_4, NULL))) LIMIT 10; -- first page") := by rfl

/-- The arguments are exact and legible, and the statement does not use the word `decode`. -/
example : (Stmt.select mixedValues).write.query.toOption.map (·.2) =
    some [.str s%"it's true: -1, NULL", .int .int64 (-5), .bool true, .bytes [0, 255]] := by rfl

example : ∀ v ∈ [Val.str s%"it's true: -1, NULL", .int .int64 (-5), .bool true, .bytes [0, 255]],
    Exact v = true ∧ Legible true v := by
  intro v hv
  simp only [List.mem_cons, List.not_mem_nil, or_false] at hv
  rcases hv with rfl | rfl | rfl | rfl
  · exact ⟨rfl, .inl rfl⟩
  all_goals exact ⟨rfl, trivial⟩

example : ((Stmt.select mixedValues).write.query.toOption.bind fun r => tokens true r.1).map
    (·.contains (.word s%"decode")) = some false := by decide +kernel

set_option maxRecDepth 4000 in
example : readText true
    (s%"SELECT \"u\".\"id\", COUNT(*) AS n FROM \"u\" WHERE ((\"name\" = 'it\\'s true: -1, NULL') AND "
      ++ s%"(\"x\" IN (-5, true, decode('00ff', 'hex'), NULL))) LIMIT 10; -- first page") =
    some (meanStmt (.select mixedValues)) := by rfl

/-- A statement with floats: 1.5, minus zero, the float32 nearest to 0.1, and 10^21. -/
def floatValues : DeleteStmt :=
  { tables := [.table { name := s%"t" }]
    usings := []
    returning := []
    comment := []
    whr := .inx (.ident (.str s%"x")) s%"IN"
      (.array [.value (.float64 0x3FF8000000000000#64), .value (.float64 0x8000000000000000#64),
        .value (.float32 0x3DCCCCCD#32), .value (.float64 0x444B1AE4D6E2EF50#64)]) }

example : plainStmt (uncommented (.delete floatValues)) = true ∧ OneLine floatValues.comment := by
  unfold OneLine; decide +kernel

example : ∀ v ∈ [Val.float64 0x3FF8000000000000#64, .float64 0x8000000000000000#64,
    .float32 0x3DCCCCCD#32, .float64 0x444B1AE4D6E2EF50#64], Legible true v := by
  intro v hv
  simp only [List.mem_cons, List.not_mem_nil, or_false] at hv
  rcases hv with rfl | rfl | rfl | rfl
  all_goals unfold Legible; decide

example : (Stmt.delete floatValues).write.string = .ok
    (s%"DELETE FROM \"t\" WHERE (\"x\" IN (1.5, -0, 0.10000000149011612, 1000000000000000000000))") := by
  decide +kernel

/-- The reader takes the numerals for numbers, not for names with a point in them. -/
example : readText true s%"DELETE FROM \"t\" WHERE (\"x\" = -1.5)" =
    some (.delete [⟨false, .quoted [s%"t"], none⟩] []
      (some (.binary s%"=" (.ref (.quoted [s%"x"])) (.value (numberValue true 15 1)))) []) := by rfl

/-- What the reader of literals refuses or reads otherwise: a placeholder is not a literal, and a
literal is not a name. -/
example : readText true s%"DELETE FROM \"t\" WHERE (\"a\" = $1)" = none := by rfl
example : readText true s%"DELETE FROM 't' WHERE (\"a\" = 1)" = none := by rfl
example : readNamed true s%"DELETE FROM \"t\" WHERE (\"a\" = :b)" [(s%"a", .nil)] = none := by rfl
example : readText true s%"DELETE FROM \"t\" WHERE (\"a\" = '1')" ≠
    readText true s%"DELETE FROM \"t\" WHERE (\"a\" = 1)" := by
  intro h
  have : readText true s%"DELETE FROM \"t\" WHERE (\"a\" = '1')" =
      some (.delete [⟨false, .quoted [s%"t"], none⟩] []
        (some (.binary s%"=" (.ref (.quoted [s%"a"])) (.value (.str s%"1")))) []) := by rfl
  rw [this, show readText true s%"DELETE FROM \"t\" WHERE (\"a\" = 1)" =
      some (.delete [⟨false, .quoted [s%"t"], none⟩] []
        (some (.binary s%"=" (.ref (.quoted [s%"a"])) (.value (.int .int64 1)))) []) from by rfl] at h
  simp at h

end

end Verif.Props
