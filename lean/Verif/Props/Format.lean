import Verif.Lemmas.Literal
import Verif.Lemmas.Timestamp
import Verif.Spec.Valuer
import Verif.Props.Sample

/-!
# C08-C15: names and literals
-/

set_option linter.unusedSectionVars false

namespace Verif.Props
open Spec

section
variable [GoRuntime]

/-! ## Names -/

/-- C08. A name made of dot-separated parts of printable ASCII without double quote and
backslash is emitted so that PostgreSQL reads back exactly these parts and stops exactly at
the end of the emitted text, whatever text (not a dot or double quote) follows. -/
theorem C08_ordinary_names (parts : List Str) (rest : Str) (hparts : parts ≠ [])
    (h : ∀ p ∈ parts, p ≠ [] ∧ ∀ c ∈ p, ordinary c)
    (h1 : rest.head? ≠ some '"') (h2 : rest.head? ≠ some '.') :
    readName (quote (List.intercalate s%"." parts) ++ rest) = some (parts, rest) :=
  readName_quote parts rest hparts h h1 h2

/-- C08, one part: a name without dot is read back as that one name. -/
theorem C08_single_name (name rest : Str) (hne : name ≠ []) (h : ∀ c ∈ name, ordinary c)
    (h1 : rest.head? ≠ some '"') (h2 : rest.head? ≠ some '.') :
    readName (quote name ++ rest) = some ([name], rest) := by
  have := C08_ordinary_names [name] rest (by simp) (by simpa using ⟨hne, h⟩) h1 h2
  simpa [List.intercalate] using this

/-- A hostile name. -/
def hostileName : Str := s%"a\"; DROP TABLE users; --"

/-- C09 is false: the emitted text for this name is read as the identifier `a\`, followed by
the SQL text given by the attacker. -/
theorem C09_false :
    ¬ (∀ s : Str, s ≠ [] → ∃ xs, readName (quote s) = some (xs, [])) ∧
    readName (quote hostileName) = some ([s%"a\\"], s%"; DROP TABLE users; --\"") := by
  have hplain : ∀ s : Str, (∀ c ∈ s, 32 ≤ c.toNat ∧ c.toNat ≤ 126 ∧ c ≠ '"' ∧ c ≠ '\\') →
      s.flatMap quoteRune = s := by
    intro s h
    refine flatMap_plain fun c hc => ?_
    obtain ⟨h1, h2, h3, h4⟩ := h c hc
    refine ⟨h3, h4, ?_⟩
    rw [GoRuntime.isPrint_ascii c (by omega)]
    simp [h1, h2]
  have hq : quote hostileName = s%"\"a\\\"; DROP TABLE users; --\"" := by
    show goQuote (s%"a" ++ s%"\"" ++ s%"; DROP TABLE users; --") = _
    unfold goQuote
    rw [List.flatMap_append, List.flatMap_append, hplain s%"a" (by decide),
      hplain s%"; DROP TABLE users; --" (by decide)]
    simp [quoteRune_dq]
  have hr : readName (quote hostileName) = some ([s%"a\\"], s%"; DROP TABLE users; --\"") := by
    rw [hq]; decide
  refine ⟨fun h => ?_, hr⟩
  obtain ⟨xs, hxs⟩ := h hostileName (by decide)
  rw [hr] at hxs
  cases hxs

/-- C09, what holds: a non-empty name without dot is read as one identifier ending where the
emitted text ends if and only if the name contains no double quote; it is read as exactly the
given name if and only if moreover it contains no backslash and no unprintable rune. What is
missing from C09: names that contain a double quote. -/
theorem C09_partial (name rest : Str) (hne : name ≠ []) (hr : rest.head? ≠ some '"') :
    ((∃ x, readIdent (goQuote name ++ rest) = some (x, rest)) ↔ '"' ∉ name) ∧
    (readIdent (goQuote name ++ rest) = some (name, rest) ↔
      ∀ c ∈ name, c ≠ '"' ∧ c ≠ '\\' ∧ GoRuntime.isPrint c = true) := by
  by_cases hq : '"' ∈ name
  · refine ⟨⟨fun ⟨x, hx⟩ => absurd hx (readIdent_goQuote_broken hq), fun h => absurd hq h⟩,
      ⟨fun hx => absurd hx (readIdent_goQuote_broken hq), fun h => absurd rfl (h '"' hq).1⟩⟩
  · refine ⟨⟨fun _ => hq, fun _ => ⟨_, readIdent_goQuote hq hne hr⟩⟩, ?_⟩
    rw [readIdent_goQuote hq hne hr]
    rw [show (some (name.flatMap quoteRune, rest) = some (name, rest))
      = (name.flatMap quoteRune = name) by simp]
    exact flatMap_quoteRune_eq_self name

/-- C09 for dotted names: without double quote and without empty part, the emitted text is
read as one dotted name with as many parts as given, ending where the emitted text ends. -/
theorem C09_dotted_partial (parts : List Str) (rest : Str) (hparts : parts ≠ [])
    (h : ∀ p ∈ parts, p ≠ [] ∧ '"' ∉ p ∧ '.' ∉ p)
    (h1 : rest.head? ≠ some '"') (h2 : rest.head? ≠ some '.') :
    ∃ xs, readName (quote (List.intercalate s%"." parts) ++ rest) = some (xs, rest) ∧
      xs.length = parts.length := by
  have hsplit : splitOn '.' (List.intercalate ['.'] parts) = parts :=
    splitOn_intercalate hparts (fun p hp => (h p hp).2.2)
  have hq : quote (List.intercalate ['.'] parts) = quotedParts parts := by
    show quotedParts (splitOn '.' _) = _
    rw [hsplit]
  refine ⟨parts.map (·.flatMap quoteRune), ?_, by simp⟩
  rw [hq]
  exact readName_parts hparts (fun p hp => ⟨(h p hp).2.1, (h p hp).1⟩) h1 h2

/-! ## String literals -/

/-- C10. A string value is printed as one literal which, read with backslash escapes, is
exactly the string and ends exactly where the literal ends, whatever text (not a quote)
follows; hence different strings are printed differently. -/
theorem C10_string_literal (s rest : Str) (h : rest.head? ≠ some '\'') :
    ∃ t, formatValue (.str s) = .ok t ∧ readEsc (t ++ rest) = some (s, rest) :=
  ⟨_, rfl, readEsc_formatString h⟩

theorem C10_injective (s s' : Str) (h : formatValue (.str s) = formatValue (.str s')) : s = s' := by
  have h1 := readEsc_formatString (s := s) (rest := []) (by simp)
  have h2 := readEsc_formatString (s := s') (rest := []) (by simp)
  have h' : formatString s = formatString s' := by simpa [formatValue] using h
  rw [h', h2] at h1
  simp at h1
  exact h1.symm

/-- A hostile value. -/
def hostileValue : Str := s%"' OR 1=1 --"

/-- C11 is false: with standard conforming strings, the literal printed for this value ends
before the SQL text given by the attacker. -/
theorem C11_false :
    ¬ (∀ s t : Str, formatValue (.str s) = .ok t → readStd t = some (s, [])) ∧
    ∃ t, formatValue (.str hostileValue) = .ok t ∧ readStd t = some (s%"\\", s%" OR 1=1 --'") := by
  have hr : readStd (formatString hostileValue) = some (s%"\\", s%" OR 1=1 --'") := by decide
  refine ⟨fun h => ?_, _, rfl, hr⟩
  have := h hostileValue _ rfl
  rw [hr] at this
  cases this

/-- C11, what holds: with standard conforming strings the literal ends where it should if and
only if the string contains no single quote; it denotes the string if and only if moreover
it contains no backslash, newline, carriage return or tab. What is missing from C11: strings
that contain one of these. -/
theorem C11_partial (s rest : Str) (hr : rest.head? ≠ some '\'') :
    ∃ t, formatValue (.str s) = .ok t ∧
      ((∃ x, readStd (t ++ rest) = some (x, rest)) ↔ '\'' ∉ s) ∧
      (readStd (t ++ rest) = some (s, rest) ↔
        ∀ c ∈ s, c ≠ '\'' ∧ c ≠ '\\' ∧ c ≠ '\n' ∧ c ≠ '\r' ∧ c ≠ '\t') := by
  refine ⟨_, rfl, ?_⟩
  by_cases hq : '\'' ∈ s
  · refine ⟨⟨fun ⟨x, hx⟩ => absurd hx (readStd_broken hq), fun h => absurd hq h⟩,
      ⟨fun hx => absurd hx (readStd_broken hq), fun h => absurd rfl (h '\'' hq).1⟩⟩
  · refine ⟨⟨fun _ => hq, fun _ => ⟨_, readStd_formatString hq hr⟩⟩, ?_⟩
    rw [readStd_formatString hq hr]
    rw [show (some (s.flatMap formatStringRune, rest) = some (s, rest))
      = (s.flatMap formatStringRune = s) by simp]
    exact flatMap_eq_self (fun _ => formatStringRune_plain) (fun c => (formatStringRune_length c).1)
      (fun c => (formatStringRune_length c).2) s

/-! ## Numbers, booleans, bytes -/

/-- C12. Every signed integer of every Go width is printed as its canonical decimal numeral. -/
theorem C12_signed (k : IntKind) (n : Int) (h : (Val.int k n).InRange) :
    ∃ t, formatValue (.int k n) = .ok t ∧ readInt t = some n ∧ canonical t = true := by
  have hw : toInt64Wrap n = n := by
    cases k <;> simp only [Val.InRange, IntKind.bits] at h <;>
      refine toInt64Wrap_of_range ?_ ?_ <;> omega
  cases k <;> simp only [formatValue, hw] <;>
    exact ⟨_, rfl, readInt_formatInt n, canonical_formatInt n⟩

/-- C12. Every unsigned integer of every Go width is printed as its canonical decimal numeral. -/
theorem C12_unsigned (k : UintKind) (n : Nat) (h : (Val.uint k n).InRange) :
    ∃ t, formatValue (.uint k n) = .ok t ∧ readInt t = some (n : Int) ∧ canonical t = true := by
  have hw : toUint64Wrap n = n := by
    cases k <;> simp only [Val.InRange, UintKind.bits] at h <;>
      refine toUint64Wrap_of_range ?_ <;> omega
  cases k <;> simp only [formatValue, hw] <;>
    exact ⟨_, rfl, readInt_formatNat n, canonical_formatNat n⟩

/-- C12. Booleans are printed as `true` and `false`. -/
theorem C12_bool : formatValue (.bool true) = .ok s%"true" ∧ formatValue (.bool false) = .ok s%"false" :=
  ⟨rfl, rfl⟩

/-- C12. A LIMIT or OFFSET that is not zero is printed as the canonical decimal numeral after
its keyword. -/
theorem C12_limit_offset (n : Int) (h : n ≠ 0) :
    ∃ t, (writeLimit n).query = .ok (s%"LIMIT " ++ t, []) ∧
      (writeOffset n).query = .ok (s%"OFFSET " ++ t, []) ∧
      readInt t = some n ∧ canonical t = true := by
  refine ⟨formatInt n, ?_, ?_, readInt_formatInt n, canonical_formatInt n⟩
  · simp [writeLimit, h, W.query, W.seq, W.text, stdContext, Token.Limit]
  · simp [writeOffset, h, W.query, W.seq, W.text, stdContext, Token.Offset]

/-- C13. A byte slice is printed as `decode('<hex>', 'hex')` with two lower-case hexadecimal
digits per byte, and decoding the digits gives exactly the bytes. -/
theorem C13_bytes (b : List UInt8) :
    ∃ h, formatValue (.bytes b) = .ok (s%"decode('" ++ h ++ s%"', 'hex')") ∧
      h.length = 2 * b.length ∧ (∀ c ∈ h, (hexValue c).isSome) ∧ unhex h = some b := by
  refine ⟨hexEncode b, rfl, hexEncode_length b, ?_, unhex_hexEncode b⟩
  intro c hc
  obtain ⟨x, _, hx⟩ := List.mem_flatMap.1 hc
  have hx' := x.toNat_lt
  simp only [List.mem_cons, List.not_mem_nil, or_false] at hx
  rcases hx with rfl | rfl
  · rw [hexValue_hexDigit (by omega)]; rfl
  · rw [hexValue_hexDigit (by omega)]; rfl

/-- The first instants of the years 0 and 10000, in seconds. -/
theorem year_bounds :
    dayNumber 0 1 1 * 86400 = -62167219200 ∧ dayNumber 10000 1 1 * 86400 = 253402300800 := by
  constructor <;> decide +kernel

/-- C14. An instant from year 0 to year 9999 (in any location) is printed as a timestamp in
UTC, with a valid date and time of day, which read back with an independent calendar gives
the instant truncated to the microsecond. -/
theorem C14_time (ns : Int) (loc : Nat) (rest : Str) (h0 : dayNumber 0 1 1 * 86400 * 1000000000 ≤ ns)
    (h1 : ns < dayNumber 10000 1 1 * 86400 * 1000000000) :
    ∃ t, formatValue (.time ns loc) = .ok t ∧
      ∃ us, readTimestamp (t ++ rest) = some (us, rest) ∧ us * 1000 ≤ ns ∧ ns < (us + 1) * 1000 := by
  rw [year_bounds.1] at h0
  rw [year_bounds.2] at h1
  refine ⟨_, rfl, ns.fdiv 1000, readTimestamp_formatTime ns (by omega) (by omega) rest, ?_, ?_⟩
  · rw [Int.fdiv_eq_ediv_of_nonneg ns (by decide)]; omega
  · rw [Int.fdiv_eq_ediv_of_nonneg ns (by decide)]; omega

/-- C14 for every instant, of any year (the year with a sign if it is before year 0, and with more than
four digits from year 10000). -/
theorem C14_any (ns : Int) (loc : Nat) (rest : Str) :
    ∃ t, formatValue (.time ns loc) = .ok t ∧
      ∃ us, readTimestampAny (t ++ rest) = some (us, rest) ∧ us * 1000 ≤ ns ∧ ns < (us + 1) * 1000 := by
  refine ⟨_, rfl, ns.fdiv 1000, readTimestampAny_formatTime ns rest, ?_, ?_⟩
  · rw [Int.fdiv_eq_ediv_of_nonneg ns (by decide)]; omega
  · rw [Int.fdiv_eq_ediv_of_nonneg ns (by decide)]; omega

/-- A time of the year 12345, and one of the year -44 (45 BC). -/
example : formatTime 327403479924500000000 = s%"'12345-01-02 03:05:24.5+00'" ∧
    formatTime (-63549360000000000000) = s%"'-0044-03-15 00:00:00+00'" := by
  constructor <;> decide +kernel

/-- C14, exactly: the year has four digits and no sign just for the instants of `C14_time`. -/
theorem C14_range (ns : Int) (loc : Nat) (rest : Str) :
    ∃ t, formatValue (.time ns loc) = .ok t ∧
      (readTimestamp (t ++ rest) ≠ none ↔
        dayNumber 0 1 1 * 86400 * 1000000000 ≤ ns ∧ ns < dayNumber 10000 1 1 * 86400 * 1000000000) := by
  refine ⟨_, rfl, ?_⟩
  rw [year_bounds.1, year_bounds.2]
  constructor
  · intro h
    have hy : ¬ ((civilOf ns).year < 0 ∨ 10000 ≤ (civilOf ns).year) := by
      intro hy
      apply h
      have e : formatTime ns ++ rest = '\'' :: (padYear (civilOf ns).year ++ '-' ::
          ((formatTime ns ++ rest).drop (2 + (padYear (civilOf ns).year).length))) := by
        simp only [formatTime, List.append_assoc, List.cons_append, List.nil_append]
        rw [Nat.add_comm 2, List.drop_succ_cons, ← List.drop_drop, List.drop_left]
        rfl
      rw [e]
      exact readTimestamp_year_none _ hy _
    have := civil_year_range ns (by omega)
    exact ⟨by omega, by omega⟩
  · intro h hn
    rw [readTimestamp_formatTime ns (by omega) (by omega) rest] at hn
    cases hn

/-! ## Valuers -/

theorem formatValue_resolve (v : Val) : formatValue (resolve v) = formatValue v := by
  induction v using resolve.induct with
  | case1 => rfl
  | case2 id v ih => rw [resolve, ih]; rfl
  | case3 v h1 h2 => rw [resolve] <;> assumption

theorem formatValue_error (v : Val) : (∃ p, formatValue v = .error p) ↔ fails v = true := by
  induction v using fails.induct with
  | case1 id => exact ⟨fun _ => rfl, fun _ => ⟨_, rfl⟩⟩
  | case2 id v ih => exact ih
  | case3 v h1 h2 =>
    have h3 : fails v = false := by unfold fails; split <;> simp_all
    rw [h3]
    constructor
    · rintro ⟨p, hp⟩
      unfold formatValue at hp
      split at hp <;> first | cases hp | skip
      · exact absurd rfl (h1 _)
      · exact absurd rfl (h2 _ _)
    · intro h; cases h

/-- C15. `String` prints every valuer of a statement exactly like the value it yields
(recursively; a nil pointer like nil). -/
theorem C15_string (s : Stmt) (text : Str) :
    s.write.string = .ok text ↔ (mapStmt resolve s).write.string = .ok text := by
  have hok := okStmt_map (f := resolve) s
  cases h : okStmt s with
  | false =>
    obtain ⟨_, _, _, q, hq⟩ := panics s h
    obtain ⟨_, _, _, q', hq'⟩ := panics _ (hok.trans h)
    rw [hq, hq']
    constructor <;> intro e <;> cases e
  | true =>
    rw [W.string, W.string, (denotes_stmt s).1 h _ _ rawContext_additive,
      (denotes_stmt _).1 (hok.trans h) _ _ rawContext_additive, layout_map,
      run_raw_map formatValue_resolve]

/-- C15. If `Query` succeeds, `String` fails exactly when some argument is, or yields, a
valuer that fails. -/
theorem C15_failure (s : Stmt) (text : Str) (args : List Val)
    (h : s.write.query = .ok (text, args)) :
    (∃ p, s.write.string = .error p) ↔ ∃ v ∈ args, fails v = true := by
  obtain ⟨hok, hr⟩ := query_ok h
  cases hr
  constructor
  · rintro ⟨p, hp⟩
    rcases formatAll (arguments (layout s)) with ⟨lits, hl⟩ | ⟨v, hv, q, hq⟩
    · rw [string_eq s hok] at hp
      · cases hp
      · intro v hv
        have : formatValue v ∈ (arguments (layout s)).map formatValue := List.mem_map_of_mem hv
        rw [hl] at this
        obtain ⟨t, _, ht⟩ := List.mem_map.1 this
        exact ⟨t, ht.symm⟩
    · exact ⟨v, hv, (formatValue_error v).1 ⟨q, hq⟩⟩
  · rintro ⟨v, hv, hf⟩
    obtain ⟨p, hp⟩ := (formatValue_error v).2 hf
    obtain ⟨q, hq⟩ := run_raw_error (layout s) [] v hv p hp
    exact ⟨q, by rw [W.string, (denotes_stmt s).1 hok _ _ rawContext_additive, hq]⟩

/-- C15. `Query` and `NamedQuery` never look inside a valuer: they pass the valuer itself as
the argument, even a nil pointer or one that would fail, and show a placeholder for it. -/
theorem C15_arguments (s : Stmt) (v : Val) (hv : Piece.val v ∈ layout s)
    (hvaluer : (∃ id, v = .valuerNil id) ∨ (∃ id, v = .valuerErr id) ∨ ∃ id w, v = .valuerOk id w) :
    (∀ text args, s.write.query = .ok (text, args) → v ∈ args) ∧
    (∀ text args, s.write.namedQuery = .ok (text, args) → ∃ m k, args = some m ∧ (k, v) ∈ m) := by
  have key : v ∈ arguments (layout s) := by
    obtain ⟨a, b, hab⟩ := List.append_of_mem hv
    rw [hab, arguments_append]
    rcases hvaluer with ⟨id, rfl⟩ | ⟨id, rfl⟩ | ⟨id, w, rfl⟩ <;> simp [arguments]
  constructor
  · intro text args h
    obtain ⟨_, hr⟩ := query_ok h
    cases hr
    exact key
  · intro text args h
    obtain ⟨_, hr⟩ := namedQuery_ok h
    cases hr
    have : ∀ (l : List Val) (k : Nat), v ∈ l → ∃ n, (n, v) ∈ namedFrom k l := by
      intro l
      induction l with
      | nil => intro k h; cases h
      | cons w l ih =>
        intro k h
        rcases List.mem_cons.1 h with rfl | h
        · exact ⟨_, List.mem_cons_self⟩
        · obtain ⟨n, hn⟩ := ih (k + 1) h
          exact ⟨n, List.mem_cons_of_mem _ hn⟩
    obtain ⟨n, hn⟩ := this _ 1 key
    refine ⟨namedFrom 1 (arguments (layout s)), n, ?_, hn⟩
    unfold namedMap
    rw [if_neg]
    intro he
    rw [List.isEmpty_iff] at he
    rw [he] at key
    cases key

end

/-! ## The hypotheses can be met -/
section
attribute [local instance] Runtime.sample
set_option maxRecDepth 4000

example : quote s%"public.users.first name" = s%"\"public\".\"users\".\"first name\"" := by rfl

example : ∀ p ∈ [s%"public", s%"users", s%"first name"], p ≠ [] ∧ ∀ c ∈ p, ordinary c := by
  simp [ordinary]

/-- A name with a backslash: read as one identifier, but not as the given one. -/
example : readIdent (goQuote s%"a\\b" ++ s%" = 1") = some (s%"a\\\\b", s%" = 1") := by rfl

example : (formatValue (.str s%"it's\n\\")) = .ok s%"'it\\'s\\n\\\\'" := by rfl

example : (Val.int .int8 (-128)).InRange ∧ (Val.uint .uint64 18446744073709551615).InRange := by
  simp [Val.InRange, IntKind.bits, UintKind.bits]

example : formatValue (.int .int64 (-9223372036854775808)) = .ok s%"-9223372036854775808" := by rfl

example : formatValue (.bytes [0, 255, 39]) = .ok s%"decode('00ff27', 'hex')" := by rfl

/-- 29 February 2020, 12:34:56.789 and something. -/
example : formatValue (.time 1582979696789000999 3) = .ok s%"'2020-02-29 12:34:56.789+00'" := by rfl

/-- A statement with two valuers. -/
example : (Stmt.delete { Sample.deleteUsers with
    whr := .between (.str s%"id") s%"BETWEEN" (.value (.valuerOk 1 (.valuerOk 2 (.int .int 5))))
      s%"AND" (.value (.valuerNil 3)) }).write.string
    = .ok s%"DELETE FROM \"users\" WHERE (\"id\" BETWEEN 5 AND NULL); -- cleanup" := by rfl

example : ∃ p, (Stmt.delete { Sample.deleteUsers with
    whr := .infx (.ident (.str s%"id")) (.comparison s%"=") (.value (.valuerErr 1)) }).write.string
    = .error p := ⟨_, rfl⟩

end

end Verif.Props
