import Verif.Model.Api
import Verif.Lemmas.Argument
import Verif.Lemmas.Where
import Verif.Props.Clauses

/-!
# C26 to C30: arguments of builder methods
-/

set_option linter.unusedSectionVars false

namespace Verif.Props
open Spec

/-! ## C27 -/

/-- C27. The conversion gives `n` exactly for the arguments whose mathematical value is `n`, and
only for numbers in the range of `int64`. -/
theorem C27_exact (a : Any) (h : GoArg a) (n : Int) :
    toInt64 a = some n ↔ IntArg a n ∧ -(2 ^ 63) ≤ n ∧ n < 2 ^ 63 :=
  toInt64_iff a n h

/-- C27. Everything else is refused. -/
theorem C27_refused (a : Any) (h : GoArg a)
    (hn : ∀ n, IntArg a n → n < -(2 ^ 63) ∨ 2 ^ 63 ≤ n) : toInt64 a = none := by
  cases ho : toInt64 a with
  | none => rfl
  | some n =>
    obtain ⟨h1, h2, h3⟩ := (toInt64_iff a n h).1 ho
    rcases hn n h1 with h4 | h4 <;> omega

/-- An argument has at most one mathematical value. -/
theorem intArg_unique (a : Any) (h : GoArg a) (n m : Int) (hn : IntArg a n) (hm : IntArg a m) :
    n = m := by
  unfold IntArg at hn hm
  split at hn
  · exact hn.trans hm.symm
  · exact hn.2.trans hm.2.symm
  · next s =>
    clear h
    simp only at hm
    by_cases h1 : ∃ r, s = '+' :: r
    · obtain ⟨r, rfl⟩ := h1
      exact ((decimal_plus r n).1 hn).2.2.trans ((decimal_plus r m).1 hm).2.2.symm
    · by_cases h2 : ∃ r, s = '-' :: r
      · obtain ⟨r, rfl⟩ := h2
        exact ((decimal_minus r n).1 hn).2.2.trans ((decimal_minus r m).1 hm).2.2.symm
      · have e1 : ∀ r, s ≠ '+' :: r := fun r hr => h1 ⟨r, hr⟩
        have e2 : ∀ r, s ≠ '-' :: r := fun r hr => h2 ⟨r, hr⟩
        exact ((decimal_other e1 e2 n).1 hn).2.2.trans ((decimal_other e1 e2 m).1 hm).2.2.symm
  · exact hn.elim

/-! ## C26 -/

/-- A value that is not already a `stmt.Limit` or `stmt.Offset`. -/
def Plain : Any → Prop
  | .limit _ | .offset _ => False
  | _ => True

/-- C26. `Limit` accepts a plain value exactly if it denotes an integer in 1..2^63-1. -/
theorem C26_limit (b : SelectStmt) (hb : b.limit = 0) (a : Any) (ha : GoArg a) (hp : Plain a)
    (b' : SelectStmt) :
    b.Limit a = .ok b' ↔ ∃ n, IntArg a n ∧ 1 ≤ n ∧ n < 2 ^ 63 ∧ b' = { b with limit := n } := by
  have hl : toLimit a = match toInt64 a with
      | none => Go.panic "loukoum: cannot use value as limit"
      | some n => if n ≤ 0 then Go.panic "loukoum: limit must be a positive integer" else .ok n := by
    cases a with
    | limit n => exact hp.elim
    | _ => rfl
  unfold SelectStmt.Limit
  rw [if_neg (by simp [hb]), hl]
  cases ho : toInt64 a with
  | none =>
    simp only [Go.panic]
    constructor
    · intro h; cases h
    · rintro ⟨n, h1, h2, h3, _⟩
      rw [(toInt64_iff a n ha).2 ⟨h1, by omega, h3⟩] at ho
      cases ho
  | some n =>
    obtain ⟨h1, h2, h3⟩ := (toInt64_iff a n ha).1 ho
    by_cases hn : n ≤ 0
    · simp only [if_pos hn, Go.panic]
      constructor
      · intro h; cases h
      · rintro ⟨m, hm, h4, _⟩
        have := intArg_unique a ha n m h1 hm
        omega
    · simp only [if_neg hn, Except.ok.injEq]
      constructor
      · rintro rfl; exact ⟨n, h1, by omega, h3, rfl⟩
      · rintro ⟨m, hm, _, _, rfl⟩
        rw [intArg_unique a ha n m h1 hm]

/-- C26. `Offset` accepts a plain value exactly if it denotes an integer in 0..2^63-1. -/
theorem C26_offset (b : SelectStmt) (hb : b.offset = 0) (a : Any) (ha : GoArg a) (hp : Plain a)
    (b' : SelectStmt) :
    b.Offset a = .ok b' ↔ ∃ n, IntArg a n ∧ 0 ≤ n ∧ n < 2 ^ 63 ∧ b' = { b with offset := n } := by
  have hl : toOffset a = match toInt64 a with
      | none => Go.panic "loukoum: cannot use value as offset"
      | some n =>
        if n < 0 then Go.panic "loukoum: offset must be a non-negative integer" else .ok n := by
    cases a with
    | offset n => exact hp.elim
    | _ => rfl
  unfold SelectStmt.Offset
  rw [if_neg (by simp [hb]), hl]
  cases ho : toInt64 a with
  | none =>
    simp only [Go.panic]
    constructor
    · intro h; cases h
    · rintro ⟨n, h1, h2, h3, _⟩
      rw [(toInt64_iff a n ha).2 ⟨h1, by omega, h3⟩] at ho
      cases ho
  | some n =>
    obtain ⟨h1, h2, h3⟩ := (toInt64_iff a n ha).1 ho
    by_cases hn : n < 0
    · simp only [if_pos hn, Go.panic]
      constructor
      · intro h; cases h
      · rintro ⟨m, hm, h4, _⟩
        have := intArg_unique a ha n m h1 hm
        omega
    · simp only [if_neg hn, Except.ok.injEq]
      constructor
      · rintro rfl; exact ⟨n, h1, by omega, h3, rfl⟩
      · rintro ⟨m, hm, _, _, rfl⟩
        rw [intArg_unique a ha n m h1 hm]

section
variable [GoRuntime]

/-- A clause that is a number after a keyword, with the space before it. -/
def numberPieces (kw : Str) (n : Int) : List Piece :=
  spaceTail [clause (n ≠ 0) [.sql (kw ++ formatInt n)]]

private theorem select_limit (b : SelectStmt) : ∃ pre post, ∀ n, selectL { b with limit := n } =
    pre ++ (numberPieces s%"LIMIT " n ++ post) := by
  cases b with
  | mk pfx withs distinct distinctOn exprs tables joins whr groupBy having orderBy limit offset sfx comment =>
    refine ⟨spaced ([clause (!pfx.isEmpty) [.raw pfx],
        clause (!withs.isEmpty) (.sql s%"WITH " :: commaSep (withsL withs)),
        some [.sql s%"SELECT"],
        clause (!distinctOn.isEmpty)
          (.sql s%"DISTINCT ON (" :: commaSep (distinctOn.map columnL) ++ [.sql s%")"]),
        clause distinct [.sql s%"DISTINCT"],
        some (commaSep (selExprsL exprs)),
        clause (!tables.isEmpty) (fromL tables)] ++ joinsL joins) ++
        spaceTail [clause (!blank whr) (.sql s%"WHERE " :: exprL whr)] ++
        spaceTail [clause (!groupBy.isEmpty) (.sql s%"GROUP BY " :: commaSep (groupBy.map columnL))] ++
        spaceTail [clause (!blank having) (.sql s%"HAVING " :: exprL having)] ++
        spaceTail [clause (!orderBy.isEmpty) (.sql s%"ORDER BY " :: commaSep (orderBy.map orderL))],
      spaceTail [clause (offset ≠ 0) [.sql (s%"OFFSET " ++ formatInt offset)],
        clause (!sfx.isEmpty) [.raw sfx]] ++ commentL comment, ?_⟩
    intro n
    rw [selectL, spaced_append ⟨[.sql s%"SELECT"], by simp⟩, spaceTail_cons2, spaceTail_cons2,
      spaceTail_cons2, spaceTail_cons2, spaceTail_cons2]
    simp only [numberPieces, List.append_assoc]

private theorem select_offset (b : SelectStmt) : ∃ pre post, ∀ n, selectL { b with offset := n } =
    pre ++ (numberPieces s%"OFFSET " n ++ post) := by
  cases b with
  | mk pfx withs distinct distinctOn exprs tables joins whr groupBy having orderBy limit offset sfx comment =>
    refine ⟨spaced ([clause (!pfx.isEmpty) [.raw pfx],
        clause (!withs.isEmpty) (.sql s%"WITH " :: commaSep (withsL withs)),
        some [.sql s%"SELECT"],
        clause (!distinctOn.isEmpty)
          (.sql s%"DISTINCT ON (" :: commaSep (distinctOn.map columnL) ++ [.sql s%")"]),
        clause distinct [.sql s%"DISTINCT"],
        some (commaSep (selExprsL exprs)),
        clause (!tables.isEmpty) (fromL tables)] ++ joinsL joins) ++
        spaceTail [clause (!blank whr) (.sql s%"WHERE " :: exprL whr)] ++
        spaceTail [clause (!groupBy.isEmpty) (.sql s%"GROUP BY " :: commaSep (groupBy.map columnL))] ++
        spaceTail [clause (!blank having) (.sql s%"HAVING " :: exprL having)] ++
        spaceTail [clause (!orderBy.isEmpty) (.sql s%"ORDER BY " :: commaSep (orderBy.map orderL))] ++
        spaceTail [clause (limit ≠ 0) [.sql (s%"LIMIT " ++ formatInt limit)]],
      spaceTail [clause (!sfx.isEmpty) [.raw sfx]] ++ commentL comment, ?_⟩
    intro n
    rw [selectL, spaced_append ⟨[.sql s%"SELECT"], by simp⟩, spaceTail_cons2, spaceTail_cons2,
      spaceTail_cons2, spaceTail_cons2, spaceTail_cons2, spaceTail_cons2]
    simp only [numberPieces, List.append_assoc]

private theorem number_text {L : Int → List Piece} {pre post : List Piece} {kw : Str}
    (hL : ∀ n, L n = pre ++ (numberPieces kw n ++ post)) {t : Str} (h : rawText (L 0) = .ok t)
    {n : Int} (hn : n ≠ 0) :
    ∃ x y, t = x ++ y ∧ rawText (L n) = .ok (x ++ (s%" " ++ kw ++ formatInt n) ++ y) := by
  have h0 : numberPieces kw 0 = [] := by simp [numberPieces, clause, spaceTail]
  rw [hL, h0, List.nil_append] at h
  obtain ⟨x, y, hx, hy, rfl⟩ := rawText_append_inv h
  refine ⟨x, y, rfl, ?_⟩
  have h1 : rawText (numberPieces kw n) = .ok (s%" " ++ kw ++ formatInt n) := by
    simp only [numberPieces, clause, ne_eq, hn, not_false_eq_true, decide_true, if_true,
      spaceTail_some, spaceTail_nil, List.append_nil]
    rw [rawText_sql_ok (rawText_sql_ok (t := []) rfl)]
    simp
  rw [hL, rawText_append_ok hx (rawText_append_ok h1 hy)]
  simp

/-- C26. After `Limit(v)` the text is the text without LIMIT with `LIMIT` and the canonical decimal
numeral of the value inserted. (C25 says where.) -/
theorem C26_limit_text (b b' : SelectStmt) (hb : b.limit = 0) (a : Any) (ha : GoArg a) (hp : Plain a)
    (h : b.Limit a = .ok b') (t : Str) (ht : b.write.string = .ok t) :
    ∃ n d x y, IntArg a n ∧ readInt d = some n ∧ canonical d = true ∧ t = x ++ y ∧
      b'.write.string = .ok (x ++ (s%" LIMIT " ++ d) ++ y) := by
  obtain ⟨n, h1, h2, _, rfl⟩ := (C26_limit b hb a ha hp b').1 h
  obtain ⟨hok, ht⟩ := (select_string _ _).1 ht
  obtain ⟨pre, post, hL⟩ := select_limit b
  have e : b = { b with limit := 0 } := by cases b; simp only at hb; rw [hb]
  rw [e] at ht
  obtain ⟨x, y, hxy, hr⟩ := number_text hL ht (n := n) (by omega)
  refine ⟨n, formatInt n, x, y, h1, readInt_formatInt n, canonical_formatInt n, hxy,
    (select_string _ _).2 ⟨?_, hr⟩⟩
  cases b
  rw [okS] at hok ⊢
  exact hok

/-- C26. After `Offset(v)` the text is the text without OFFSET with `OFFSET` and the canonical
decimal numeral of the value inserted, or the same text for 0. -/
theorem C26_offset_text (b b' : SelectStmt) (hb : b.offset = 0) (a : Any) (ha : GoArg a)
    (hp : Plain a) (h : b.Offset a = .ok b') (t : Str) (ht : b.write.string = .ok t) :
    ∃ n, IntArg a n ∧ (n = 0 ∧ b'.write.string = .ok t ∨
      n ≠ 0 ∧ ∃ d x y, readInt d = some n ∧ canonical d = true ∧ t = x ++ y ∧
        b'.write.string = .ok (x ++ (s%" OFFSET " ++ d) ++ y)) := by
  obtain ⟨n, h1, h2, _, rfl⟩ := (C26_offset b hb a ha hp b').1 h
  have e : b = { b with offset := 0 } := by cases b; simp only at hb; rw [hb]
  refine ⟨n, h1, ?_⟩
  by_cases hn : n = 0
  · subst hn
    left
    rw [← e]
    exact ⟨rfl, ht⟩
  · right
    obtain ⟨hok, ht⟩ := (select_string _ _).1 ht
    obtain ⟨pre, post, hL⟩ := select_offset b
    rw [e] at ht
    obtain ⟨x, y, hxy, hr⟩ := number_text hL ht (n := n) hn
    refine ⟨hn, formatInt n, x, y, readInt_formatInt n, canonical_formatInt n, hxy,
      (select_string _ _).2 ⟨?_, hr⟩⟩
    cases b
    rw [okS] at hok ⊢
    exact hok

/-- C26. `Limit` given to the builder as `loukoum.Limit(n)` writes exactly `LIMIT` and the canonical decimal
numeral of `n`, or nothing for 0; negative numbers are not refused. -/
theorem C26_limit_object (b : SelectStmt) (hb : b.limit = 0) (n : Int) (t : Str)
    (ht : b.write.string = .ok t) : ∃ b', b.Limit (Api.Limit n) = .ok b' ∧
      (n = 0 ∧ b'.write.string = .ok t ∨
        n ≠ 0 ∧ ∃ d x y, readInt d = some n ∧ canonical d = true ∧ t = x ++ y ∧
          b'.write.string = .ok (x ++ (s%" LIMIT " ++ d) ++ y)) := by
  have e : b = { b with limit := 0 } := by cases b; simp only at hb; rw [hb]
  refine ⟨{ b with limit := n }, ?_, ?_⟩
  · unfold SelectStmt.Limit
    rw [if_neg (by simp [hb])]
    rfl
  by_cases hn : n = 0
  · subst hn
    left
    rw [← e]
    exact ⟨rfl, ht⟩
  · right
    obtain ⟨hok, ht⟩ := (select_string _ _).1 ht
    obtain ⟨pre, post, hL⟩ := select_limit b
    rw [e] at ht
    obtain ⟨x, y, hxy, hr⟩ := number_text hL ht (n := n) hn
    refine ⟨hn, formatInt n, x, y, readInt_formatInt n, canonical_formatInt n, hxy,
      (select_string _ _).2 ⟨?_, hr⟩⟩
    cases b
    rw [okS] at hok ⊢
    exact hok

/-- C26. `Offset` given to the builder as `loukoum.Offset(n)` writes exactly `OFFSET` and the canonical decimal
numeral of `n`, or nothing for 0; negative numbers are not refused. -/
theorem C26_offset_object (b : SelectStmt) (hb : b.offset = 0) (n : Int) (t : Str)
    (ht : b.write.string = .ok t) : ∃ b', b.Offset (Api.Offset n) = .ok b' ∧
      (n = 0 ∧ b'.write.string = .ok t ∨
        n ≠ 0 ∧ ∃ d x y, readInt d = some n ∧ canonical d = true ∧ t = x ++ y ∧
          b'.write.string = .ok (x ++ (s%" OFFSET " ++ d) ++ y)) := by
  have e : b = { b with offset := 0 } := by cases b; simp only at hb; rw [hb]
  refine ⟨{ b with offset := n }, ?_, ?_⟩
  · unfold SelectStmt.Offset
    rw [if_neg (by simp [hb])]
    rfl
  by_cases hn : n = 0
  · subst hn
    left
    rw [← e]
    exact ⟨rfl, ht⟩
  · right
    obtain ⟨hok, ht⟩ := (select_string _ _).1 ht
    obtain ⟨pre, post, hL⟩ := select_offset b
    rw [e] at ht
    obtain ⟨x, y, hxy, hr⟩ := number_text hL ht (n := n) hn
    refine ⟨hn, formatInt n, x, y, readInt_formatInt n, canonical_formatInt n, hxy,
      (select_string _ _).2 ⟨?_, hr⟩⟩
    cases b
    rw [okS] at hok ⊢
    exact hok

end

/-! ## C28 -/

/-- C28. Column arguments give the trimmed parts of the strings between commas and the columns, in
order, and are refused exactly if a part or a column name is empty. -/
theorem C28_columns (args : List Any) (hs : Separate args) (cs : List Column) :
    toColumns args = .ok cs ↔ ∃ ls, Each ColumnsArg args ls ∧ cs = ls.flatten := by
  rw [← toColumnsLoop_iff]
  unfold toColumns
  split
  · exact hs.elim
  · exact hs.elim
  · rfl

/-- C28. A slice of columns is taken as it is, and refused exactly if one has an empty name. -/
theorem C28_slice (l cs : List Column) :
    toColumns [.columns l] = .ok cs ↔ (∀ c ∈ l, c.name ≠ []) ∧ cs = l := by
  show (if l.any Column.isEmpty then Go.panic _ else .ok l) = _ ↔ _
  split
  · next h =>
    simp only [List.any_eq_true, Column.isEmpty, List.isEmpty_iff] at h
    obtain ⟨c, hc, h⟩ := h
    constructor
    · intro hh; cases hh
    · rintro ⟨h1, _⟩; exact absurd h (h1 c hc)
  · next h =>
    simp only [List.any_eq_true, Column.isEmpty, List.isEmpty_iff, not_exists, not_and] at h
    simp only [Except.ok.injEq]
    constructor
    · rintro rfl; exact ⟨h, rfl⟩
    · rintro ⟨_, rfl⟩; rfl

private theorem each_map_left {α β γ : Type} {R : α → β → Prop} {f : γ → α} {l : List γ}
    {m : List β} : Each R (l.map f) m ↔ Each (fun x => R (f x)) l m := by
  constructor
  · intro h
    induction l generalizing m with
    | nil => cases h; exact .nil
    | cons x l ih => cases h with
      | cons h1 h2 => exact .cons h1 (ih h2)
  · intro h
    induction h with
    | nil => exact .nil
    | cons h1 _ ih => exact .cons h1 ih

/-- C28. A slice of strings is split like the strings in a row. -/
theorem C28_strings (ss : List Str) (cs : List Column) :
    toColumns [.val (.slice .string (ss.map .str))] = .ok cs ↔
      ∃ ls, Each (fun s ns => Names s ns) ss ls ∧ cs = ls.flatten.map fun n => { name := n } := by
  show toColumnsLoop ((ss.map Val.str).map Any.val) = _ ↔ _
  rw [toColumnsLoop_iff, List.map_map, ]
  constructor
  · rintro ⟨ls, h, rfl⟩
    replace h := each_map_left.1 h
    have : ∃ ns, Each (fun s ns => Names s ns) ss ns ∧
        ls = ns.map (fun l => l.map fun n => ({ name := n } : Column)) := by
      induction h with
      | nil => exact ⟨[], .nil, rfl⟩
      | cons h1 _ ih =>
        obtain ⟨ns, hn, rfl⟩ := h1
        obtain ⟨nss, h2, rfl⟩ := ih
        exact ⟨ns :: nss, .cons hn h2, rfl⟩
    obtain ⟨ns, h1, rfl⟩ := this
    exact ⟨ns, h1, by rw [List.map_flatten]⟩
  · rintro ⟨ls, h, rfl⟩
    refine ⟨ls.map (fun l => l.map fun n => ({ name := n } : Column)), ?_, by rw [List.map_flatten]⟩
    rw [each_map_left]
    induction h with
    | nil => exact .nil
    | cons h1 _ ih => exact .cons ⟨_, h1, rfl⟩ ih

/-- C28. A string is refused exactly if one of its parts between commas is blank. -/
theorem C28_blank (parts : List Str) (hne : parts ≠ []) (hp : ∀ p ∈ parts, ',' ∉ p) :
    (∃ e, toColumns [.val (.str (List.intercalate s%"," parts))] = .error e) ↔
      ∃ p ∈ parts, ∀ c ∈ p, White c := by
  have ht : ∀ p : Str, trimSpace p = [] ↔ ∀ c ∈ p, White c := by
    intro p
    constructor
    · intro h
      obtain ⟨a, b, he, ha, hb, _⟩ := trimmed_trimSpace p
      rw [h, List.append_nil] at he
      intro c hc
      rw [he] at hc
      rcases List.mem_append.1 hc with hc | hc
      · exact ha c hc
      · exact hb c hc
    · intro h
      refine trimmed_unique (trimmed_trimSpace p) ⟨p, [], by simp, h, ?_, ?_, ?_⟩ <;> simp
  have hsplit := splitOn_intercalate hne hp
  constructor
  · rintro ⟨e, he⟩
    by_cases h : ∃ p ∈ parts, ∀ c ∈ p, White c
    · exact h
    · exfalso
      have hn : Names (List.intercalate s%"," parts) (parts.map trimSpace) := by
        rw [names_iff]
        refine ⟨by rw [hsplit], ?_⟩
        intro n hn h0
        obtain ⟨p, hp1, rfl⟩ := List.mem_map.1 hn
        exact h ⟨p, hp1, (ht p).1 h0⟩
      have := (C28_columns [.val (.str (List.intercalate s%"," parts))] trivial _).2
        ⟨_, .cons ⟨_, hn, rfl⟩ .nil, rfl⟩
      rw [this] at he
      cases he
  · rintro ⟨p, hp1, hw⟩
    cases h : toColumns [.val (.str (List.intercalate s%"," parts))] with
    | error e => exact ⟨e, rfl⟩
    | ok cs =>
      obtain ⟨ls, he, _⟩ := (C28_columns [.val (.str _)] trivial _).1 h
      cases he with
      | cons h1 _ =>
        obtain ⟨names, hn, _⟩ := h1
        obtain ⟨rfl, hn⟩ := (names_iff _ _).1 hn
        rw [hsplit] at hn
        exact absurd ((ht p).2 hw) (hn _ (List.mem_map.2 ⟨p, hp1, rfl⟩))

private theorem named_columns {args : List Any} {ls : List (List Column)} (he : Each ColumnsArg args ls) :
    ∀ c ∈ ls.flatten, c.name ≠ [] := by
  induction he with
  | nil => simp
  | @cons a l args ls h1 _ ih =>
    intro c hc
    rw [List.flatten_cons, List.mem_append] at hc
    rcases hc with hc | hc
    · unfold ColumnsArg at h1
      split at h1
      · obtain ⟨names, hn, rfl⟩ := h1
        obtain ⟨n, hn1, rfl⟩ := List.mem_map.1 hc
        exact ((names_iff _ _).1 hn).2 n hn1
      · obtain ⟨h2, rfl⟩ := h1
        rw [List.mem_singleton] at hc
        rw [hc]; exact h2
      · exact h1.elim
    · exact ih c hc

/-- C28. No column without name comes out. -/
theorem C28_never_empty (args : List Any) (cs : List Column) (h : toColumns args = .ok cs) :
    ∀ c ∈ cs, c.name ≠ [] := by
  have loop : ∀ args, toColumnsLoop args = .ok cs → ∀ c ∈ cs, c.name ≠ [] := by
    intro args h
    obtain ⟨ls, he, rfl⟩ := (toColumnsLoop_iff _ _).1 h
    exact named_columns he
  unfold toColumns at h
  split at h
  · exact ((C28_slice _ _).1 h).2 ▸ ((C28_slice _ _).1 h).1
  · exact loop _ h
  · exact loop _ h

/-- C28, at the API: `GroupBy`. -/
theorem C28_groupBy (b b' : SelectStmt) (hb : b.groupBy = []) (args : List Any)
    (hs : Separate args) :
    b.GroupBy args = .ok b' ↔
      ∃ ls, Each ColumnsArg args ls ∧ ls.flatten ≠ [] ∧ b' = { b with groupBy := ls.flatten } := by
  unfold SelectStmt.GroupBy
  rw [if_neg (by simp [hb])]
  cases h : toColumns args with
  | error p =>
    constructor
    · intro hh; cases hh
    · rintro ⟨ls, he, _⟩
      rw [(C28_columns args hs _).2 ⟨ls, he, rfl⟩] at h
      cases h
  | ok cs =>
    obtain ⟨ls, he, hcs⟩ := (C28_columns args hs _).1 h
    simp only
    constructor
    · intro hh
      split at hh
      · cases hh
      · next hne =>
        cases hh
        exact ⟨ls, he, by rw [← hcs]; simpa using hne, by rw [hcs]⟩
    · rintro ⟨ls', he', hne, rfl⟩
      have := (C28_columns args hs _).2 ⟨ls', he', rfl⟩
      rw [h] at this
      cases this
      rw [if_neg (by simpa using hne)]

/-- C28, at the API: `DistinctOn`. -/
theorem C28_distinctOn (b b' : SelectStmt) (hb : b.groupBy = []) (args : List Any)
    (hs : Separate args) :
    b.DistinctOn args = .ok b' ↔
      ∃ ls, Each ColumnsArg args ls ∧ ls.flatten ≠ [] ∧ b' = { b with distinctOn := ls.flatten } := by
  unfold SelectStmt.DistinctOn
  rw [if_neg (by simp [hb])]
  cases h : toColumns args with
  | error p =>
    constructor
    · intro hh; cases hh
    · rintro ⟨ls, he, _⟩
      rw [(C28_columns args hs _).2 ⟨ls, he, rfl⟩] at h
      cases h
  | ok cs =>
    simp only
    constructor
    · intro hh
      obtain ⟨ls, he, hcs⟩ := (C28_columns args hs _).1 h
      split at hh
      · cases hh
      · next hne =>
        cases hh
        exact ⟨ls, he, by rw [← hcs]; simpa using hne, by rw [hcs]⟩
    · rintro ⟨ls, he, hne, rfl⟩
      have := (C28_columns args hs _).2 ⟨ls, he, rfl⟩
      rw [h] at this
      cases this
      rw [if_neg (by simpa using hne)]

/-- C28, at the API: `Columns` of INSERT. -/
theorem C28_insert (b b' : InsertStmt) (hb : b.columns = []) (args : List Any) (hne : args ≠ [])
    (hs : Separate args) :
    b.Columns args = .ok b' ↔
      ∃ ls, Each ColumnsArg args ls ∧ b' = { b with columns := ls.flatten } := by
  unfold InsertStmt.Columns
  rw [if_neg (by simpa using hne), if_neg (by simp [hb])]
  cases h : toColumns args with
  | error p =>
    constructor
    · intro hh; cases hh
    · rintro ⟨ls, he, _⟩
      rw [(C28_columns args hs _).2 ⟨ls, he, rfl⟩] at h
      cases h
  | ok cs =>
    obtain ⟨ls, he, hcs⟩ := (C28_columns args hs _).1 h
    simp only [Except.ok.injEq]
    constructor
    · rintro rfl
      exact ⟨ls, he, by rw [hcs]⟩
    · rintro ⟨ls', he', rfl⟩
      have := (C28_columns args hs _).2 ⟨ls', he', rfl⟩
      rw [h] at this
      cases this
      rfl

/-! ## C29 -/

/-- C29. Select expressions: every argument is kept, in order; strings are split on commas and
trimmed; nothing is accepted that is empty. -/
theorem C29_expressions (args : List Any) (hs : Separate args) (es : List SelExpr) :
    toSelectExpressions args = .ok es ↔ ∃ ls, Each SelectsArg args ls ∧ es = ls.flatten := by
  rw [← toSelectExpressionsLoop_iff]
  unfold toSelectExpressions
  split
  · exact hs.elim
  · exact hs.elim
  · exact hs.elim
  · rfl

/-- C29. No argument is dropped: each gives at least one expression. -/
theorem C29_nothing_dropped (args : List Any) (ls : List (List SelExpr))
    (h : Each SelectsArg args ls) : ls.length = args.length ∧ ∀ l ∈ ls, l ≠ [] := by
  induction h with
  | nil => simp
  | cons h1 _ ih =>
    refine ⟨by simp [ih.1], ?_⟩
    intro l hl
    rcases List.mem_cons.1 hl with rfl | hl
    · unfold SelectsArg at h1
      split at h1
      · obtain ⟨names, hn, rfl⟩ := h1
        obtain ⟨rfl, _⟩ := (names_iff _ _).1 hn
        simp [splitOn_ne_nil]
      · simp [h1.2]
      · simp [h1.2]
      · simp [h1]
      · simp [h1]
      · exact h1.elim
    · exact ih.2 l hl

/-- C29. A slice of columns is taken as it is; a slice of select expressions too. -/
theorem C29_slices (cs : List Column) (l : List SelExpr) :
    (∀ es, toSelectExpressions [.columns cs] = .ok es ↔
      (∀ c ∈ cs, c.name ≠ []) ∧ es = cs.map .column) ∧
    toSelectExpressions [.selExprs l] = .ok l := by
  refine ⟨fun es => ?_, rfl⟩
  show (if cs.any Column.isEmpty then Go.panic _ else .ok (cs.map SelExpr.column)) = _ ↔ _
  split
  · next h =>
    simp only [List.any_eq_true, Column.isEmpty, List.isEmpty_iff] at h
    obtain ⟨c, hc, h⟩ := h
    constructor
    · intro hh; cases hh
    · rintro ⟨h1, _⟩; exact absurd h (h1 c hc)
  · next h =>
    simp only [List.any_eq_true, Column.isEmpty, List.isEmpty_iff, not_exists, not_and] at h
    simp only [Except.ok.injEq]
    constructor
    · rintro rfl; exact ⟨h, rfl⟩
    · rintro ⟨_, rfl⟩; rfl

/-- C29. A slice of strings gives one column per string, verbatim: it is not split or trimmed. -/
theorem C29_strings (ss : List Str) :
    toSelectExpressions [.val (.slice .string (ss.map .str))] =
      .ok (ss.map fun s => .column { name := s }) := by
  show Except.ok ((ss.map Val.str).map _) = _
  rw [List.map_map]
  rfl

/-- C29, at the API: `Select`. -/
theorem C29_select (args : List Any) (hne : args ≠ []) (hs : Separate args) (b : SelectStmt) :
    select args = .ok b ↔
      ∃ ls, Each SelectsArg args ls ∧ b = { SelectStmt.zero with exprs := ls.flatten } := by
  unfold select SelectStmt.Columns
  simp only [List.isEmpty_iff, hne, if_false]
  cases h : toSelectExpressions args with
  | error p =>
    constructor
    · intro hh; cases hh
    · rintro ⟨ls, he, _⟩
      rw [(C29_expressions args hs _).2 ⟨ls, he, rfl⟩] at h
      cases h
  | ok es =>
    obtain ⟨ls, he, hes⟩ := (C29_expressions args hs _).1 h
    simp only [Except.ok.injEq]
    constructor
    · rintro rfl
      exact ⟨ls, he, by rw [hes]⟩
    · rintro ⟨ls', he', rfl⟩
      have := (C29_expressions args hs _).2 ⟨ls', he', rfl⟩
      rw [h] at this
      cases this
      rfl

/-- C29, at the API: `Columns` of SELECT, which replaces what was there. -/
theorem C29_columns (b b' : SelectStmt) (args : List Any) (hne : args ≠ []) (hs : Separate args) :
    b.Columns args = .ok b' ↔
      ∃ ls, Each SelectsArg args ls ∧ b' = { b with exprs := ls.flatten } := by
  unfold SelectStmt.Columns
  simp only [List.isEmpty_iff, hne, if_false]
  cases h : toSelectExpressions args with
  | error p =>
    constructor
    · intro hh; cases hh
    · rintro ⟨ls, he, _⟩
      rw [(C29_expressions args hs _).2 ⟨ls, he, rfl⟩] at h
      cases h
  | ok es =>
    obtain ⟨ls, he, hes⟩ := (C29_expressions args hs _).1 h
    simp only [Except.ok.injEq]
    constructor
    · rintro rfl
      exact ⟨ls, he, by rw [hes]⟩
    · rintro ⟨ls', he', rfl⟩
      have := (C29_expressions args hs _).2 ⟨ls', he', rfl⟩
      rw [h] at this
      cases this
      rfl

/-- C29, at the API: `Returning` of INSERT, UPDATE and DELETE. -/
theorem C29_returning (args : List Any) (hs : Separate args) :
    (∀ b b' : InsertStmt, b.returning = [] → (b.Returning args = .ok b' ↔
      ∃ ls, Each SelectsArg args ls ∧ b' = { b with returning := ls.flatten })) ∧
    (∀ b b' : UpdateStmt, b.returning = [] → (b.Returning args = .ok b' ↔
      ∃ ls, Each SelectsArg args ls ∧ b' = { b with returning := ls.flatten })) ∧
    (∀ b b' : DeleteStmt, b.returning = [] → (b.Returning args = .ok b' ↔
      ∃ ls, Each SelectsArg args ls ∧ b' = { b with returning := ls.flatten })) := by
  refine ⟨?_, ?_, ?_⟩ <;> intro b b' hb
  case' refine_1 => unfold InsertStmt.Returning
  case' refine_2 => unfold UpdateStmt.Returning
  case' refine_3 => unfold DeleteStmt.Returning
  all_goals
    rw [if_neg (by simp [hb])]
    cases h : toSelectExpressions args with
    | error p =>
      constructor
      · intro hh; cases hh
      · rintro ⟨ls, he, _⟩
        rw [(C29_expressions args hs _).2 ⟨ls, he, rfl⟩] at h
        cases h
    | ok es =>
      obtain ⟨ls, he, hes⟩ := (C29_expressions args hs _).1 h
      simp only [Except.ok.injEq]
      constructor
      · rintro rfl
        exact ⟨ls, he, by rw [hes]⟩
      · rintro ⟨ls', he', rfl⟩
        have := (C29_expressions args hs _).2 ⟨ls', he', rfl⟩
        rw [h] at this
        cases this
        rfl

/-- C29, the case of no argument: `Select()` selects the column named `*`. -/
theorem C29_select_nothing :
    select [] = .ok { SelectStmt.zero with exprs := [.column { name := s%"*" }] } := rfl

/-! ## C30 -/

/-- C30. `From` of SELECT takes exactly the given tables, in order; no argument is refused. -/
theorem C30_select (b b' : SelectStmt) (hb : b.tables = []) (args : List Any)
    (hn : ∀ a ∈ args, NotFromClause a) :
    b.From args = .ok b' ↔
      args ≠ [] ∧ ∃ is, Each FromArg args is ∧ b' = { b with tables := is } := by
  unfold SelectStmt.From
  rw [if_neg (by simp [hb])]
  cases h : toFrom args with
  | error p =>
    constructor
    · intro hh; cases hh
    · rintro ⟨h1, is, he, _⟩
      rw [(toFrom_iff args hn _).2 ⟨h1, he⟩] at h
      cases h
  | ok is =>
    obtain ⟨h1, he⟩ := (toFrom_iff args hn _).1 h
    simp only [Except.ok.injEq]
    constructor
    · rintro rfl; exact ⟨h1, is, he, rfl⟩
    · rintro ⟨_, is', he', rfl⟩
      have := (toFrom_iff args hn _).2 ⟨h1, he'⟩
      rw [h] at this
      cases this
      rfl

/-- C30, for UPDATE and DELETE. -/
theorem C30_update_delete (args : List Any) (hn : ∀ a ∈ args, NotFromClause a) :
    (∀ (b b' : UpdateStmt) (a : Any), args = [a] → b.tables = [] →
      (b.From a = .ok b' ↔ ∃ i, FromArg a i ∧ b' = { b with tables := [i] })) ∧
    (∀ b b' : DeleteStmt, b.tables = [] → (b.From args = .ok b' ↔
      args ≠ [] ∧ ∃ is, Each FromArg args is ∧ b' = { b with tables := is })) := by
  refine ⟨?_, ?_⟩
  · rintro b b' a rfl hb
    unfold UpdateStmt.From
    rw [if_neg (by simp [hb])]
    cases h : toFrom [a] with
    | error p =>
      constructor
      · intro hh; cases hh
      · rintro ⟨i, he, _⟩
        rw [(toFrom_iff [a] hn _).2 ⟨by simp, .cons he .nil⟩] at h
        cases h
    | ok is =>
      obtain ⟨h1, he⟩ := (toFrom_iff [a] hn _).1 h
      simp only [Except.ok.injEq]
      constructor
      · rintro rfl
        cases he with
        | cons h2 h3 => cases h3; exact ⟨_, h2, rfl⟩
      · rintro ⟨i, he', rfl⟩
        have := (toFrom_iff [a] hn _).2 ⟨h1, .cons he' .nil⟩
        rw [h] at this
        cases this
        rfl
  · intro b b' hb
    unfold DeleteStmt.From
    rw [if_neg (by simp [hb])]
    cases h : toFrom args with
    | error p =>
      constructor
      · intro hh; cases hh
      · rintro ⟨h1, is, he, _⟩
        rw [(toFrom_iff args hn _).2 ⟨h1, he⟩] at h
        cases h
    | ok is =>
      obtain ⟨h1, he⟩ := (toFrom_iff args hn _).1 h
      simp only [Except.ok.injEq]
      constructor
      · rintro rfl; exact ⟨h1, is, he, rfl⟩
      · rintro ⟨_, is', he', rfl⟩
        have := (toFrom_iff args hn _).2 ⟨h1, he'⟩
        rw [h] at this
        cases this
        rfl

section
variable [GoRuntime]

/-- The text of one argument of FROM. -/
def FromText (a : Any) (t : Str) : Prop := ∃ i, FromArg a i ∧ i.write.string = .ok t

private theorem each_text {args : List Any} {is : List FromItem} (he : Each FromArg args is)
    {f : List Str} (hf : Texts (fun i : FromItem => i.write.string) is f) : Each FromText args f := by
  induction he generalizing f with
  | nil =>
    cases f with
    | nil => exact .nil
    | cons _ _ => cases hf
  | @cons a i l m h1 _ ih =>
    cases f with
    | nil => cases hf
    | cons x f =>
      simp only [Texts, List.map_cons, List.cons.injEq] at hf
      exact .cons ⟨i, h1, hf.1⟩ (ih hf.2)

/-- C30. The text carries FROM followed by exactly the texts of the arguments, in order. -/
theorem C30_text (b b' : SelectStmt) (hb : b.tables = []) (args : List Any)
    (hn : ∀ a ∈ args, NotFromClause a) (h : b.From args = .ok b') (t : Str)
    (ht : b'.write.string = .ok t) :
    ∃ ts pre post, Each FromText args ts ∧
      t = pre ++ (s%" FROM " ++ commaText ts) ++ post := by
  obtain ⟨hne, is, he, rfl⟩ := (C30_select b b' hb args hn).1 h
  obtain ⟨w, d, c, f, j, g, o, wt, ht', -, -, -, hf, -, -, -, -, -, -, rfl⟩ := C25_select _ _ ht
  have hise : is.isEmpty = false := by
    cases is with
    | nil => exact absurd ((each_nil_iff he).2 rfl) hne
    | cons _ _ => rfl
  have hw : when true (s%"FROM " ++ commaText f) = some (s%"FROM " ++ commaText f) := rfl
  simp only [hise, Bool.not_false]
  rw [hw]
  have hsplit := oneSpace_split (a := s%"SELECT") (x := s%"FROM " ++ commaText f)
    (l := [when (!b.pfx.isEmpty) b.pfx, when (!b.withs.isEmpty) (s%"WITH " ++ commaText w),
      some s%"SELECT",
      when (!b.distinctOn.isEmpty) (s%"DISTINCT ON (" ++ commaText d ++ s%")"),
      when b.distinct s%"DISTINCT", some (commaText c)])
    (r := j.map some ++
         [when (!blank b.whr) (s%"WHERE " ++ wt),
          when (!b.groupBy.isEmpty) (s%"GROUP BY " ++ commaText g),
          when (!blank b.having) (s%"HAVING " ++ ht'),
          when (!b.orderBy.isEmpty) (s%"ORDER BY " ++ commaText o),
          when (b.limit ≠ 0) (s%"LIMIT " ++ formatInt b.limit),
          when (b.offset ≠ 0) (s%"OFFSET " ++ formatInt b.offset),
          when (!b.sfx.isEmpty) b.sfx]) (by simp)
  obtain ⟨pre, post, hs⟩ := hsplit
  refine ⟨f, pre, post ++ commentText b.comment, ?_, ?_⟩
  · exact each_text he hf
  · simp only [List.cons_append, List.nil_append, List.append_assoc] at hs ⊢
    rw [hs]
    simp

private theorem nil_item {args : List Any} {is : List FromItem} {l : List FromItem}
    (hi : toFromItems args = .ok is) (hm : .fromClause l ∈ args) : FromItem.nil ∈ is := by
  induction args generalizing is with
  | nil => cases hm
  | cons a l ih =>
    rw [toFromItems] at hi
    cases ha : fromItemOf a with
    | error p => rw [ha] at hi; cases hi
    | ok i =>
      cases hl : toFromItems l with
      | error p => rw [ha, hl] at hi; cases hi
      | ok js =>
        rw [ha, hl] at hi
        cases hi
        rcases List.mem_cons.1 hm with rfl | hm
        · cases ha; exact List.mem_cons_self
        · exact List.mem_cons_of_mem _ (ih hl hm)

/-- C30. A `stmt.From` value is accepted by `From` but loses its table: the query is then refused
when it is rendered, so no wrong table is ever named. -/
theorem C30_from_value (b b' : SelectStmt) (l : List FromItem) (args : List Any)
    (hm : .fromClause l ∈ args) (h : b.From args = .ok b') : Refused (.select b') := by
  refine refused ?_
  unfold SelectStmt.From at h
  split at h
  · cases h
  · cases hf : toFrom args with
    | error p => rw [hf] at h; cases h
    | ok is =>
      rw [hf] at h
      cases h
      have hn : FromItem.nil ∈ is := by
        unfold toFrom at hf
        cases hi : toFromItems args with
        | error p => rw [hi] at hf; cases hf
        | ok js =>
          rw [hi] at hf
          simp only at hf
          split at hf
          · cases hf
          · cases hf
            exact nil_item hi hm
      simp only [okStmt, okS, Bool.and_eq_false_iff]
      refine .inr (.inr (.inr (.inl ?_)))
      rw [List.all_eq_false]
      exact ⟨_, hn, by simp⟩

/-- C30. `Using` of DELETE takes exactly the given tables, in order, and refuses tables without
name. -/
theorem C30_delete_using (b b' : DeleteStmt) (hb : b.usings = []) (args : List Any) :
    b.Using args = .ok b' ↔ ∃ ts, Each TableArg args ts ∧ b' = { b with usings := ts } := by
  unfold DeleteStmt.Using
  rw [if_neg (by simp [hb])]
  cases h : toTables args with
  | error p =>
    constructor
    · intro hh; cases hh
    · rintro ⟨ts, he, _⟩
      rw [(toTables_iff args _).2 he] at h
      cases h
  | ok ts =>
    have he := (toTables_iff args _).1 h
    simp only [Except.ok.injEq]
    constructor
    · rintro rfl; exact ⟨ts, he, rfl⟩
    · rintro ⟨ts', he', rfl⟩
      have := (toTables_iff args _).2 he'
      rw [h] at this
      cases this
      rfl

/-- What a table of USING is written as. -/
def UsingText (a : Any) (t : Str) : Prop := ∃ u, TableArg a u ∧ u.write.string = .ok t

private theorem each_using {args : List Any} {us : List Table} (he : Each TableArg args us)
    {f : List Str} (hf : Texts (fun u : Table => u.write.string) us f) : Each UsingText args f := by
  induction he generalizing f with
  | nil =>
    cases f with
    | nil => exact .nil
    | cons _ _ => cases hf
  | @cons a i l m h1 _ ih =>
    cases f with
    | nil => cases hf
    | cons x f =>
      simp only [Texts, List.map_cons, List.cons.injEq] at hf
      exact .cons ⟨i, h1, hf.1⟩ (ih hf.2)

private theorem oneSpace_two (a x : Str) (r : List (Option Str)) :
    ∃ post, oneSpace (some a :: some x :: r) = a ++ (s%" " ++ x) ++ post := by
  have : (some a :: some x :: r).filterMap id = a :: x :: r.filterMap id := rfl
  unfold oneSpace
  rw [this]
  cases r.filterMap id with
  | nil => exact ⟨[], by simp [List.intercalate]⟩
  | cons y l => exact ⟨s%" " ++ List.intercalate s%" " (y :: l), by simp [List.intercalate]⟩

/-- C30, the text of UPDATE and DELETE: FROM, and USING of DELETE, are followed by exactly the texts of
the arguments, in order. -/
theorem C30_text_others (args : List Any) :
    (∀ (b b' : UpdateStmt) (a : Any), NotFromClause a → b.tables = [] → b.From a = .ok b' →
      ∀ t, (Stmt.update b').write.string = .ok t →
        ∃ x pre post, FromText a x ∧ t = pre ++ (s%" FROM " ++ x) ++ post) ∧
    (∀ b b' : DeleteStmt, (∀ a ∈ args, NotFromClause a) → b.tables = [] → b.From args = .ok b' →
      ∀ t, (Stmt.delete b').write.string = .ok t →
        ∃ ts post, Each FromText args ts ∧ t = s%"DELETE FROM " ++ commaText ts ++ post) ∧
    (∀ b b' : DeleteStmt, args ≠ [] → b.usings = [] → b.Using args = .ok b' →
      ∀ t, (Stmt.delete b').write.string = .ok t →
        ∃ ts pre post, Each UsingText args ts ∧
          t = pre ++ (s%" USING " ++ commaText ts) ++ post) := by
  refine ⟨fun b b' a hn hb h t ht => ?_, fun b b' hn hb h t ht => ?_, fun b b' hne hb h t ht => ?_⟩
  · obtain ⟨i, hi, rfl⟩ := ((C30_update_delete [a] (by simpa using hn)).1 b b' a rfl hb).1 h
    obtain ⟨w, f, r, ta, se, wt, -, -, -, hf, -, -, -, rfl⟩ := C25_update _ _ ht
    have he := each_text (.cons hi .nil) hf
    cases he with
    | @cons _ x _ m h1 h2 =>
      cases h2
      obtain ⟨pre, post, hs⟩ := oneSpace_split (a := s%"UPDATE") (x := s%"FROM " ++ x)
        (l := [when (!b.withs.isEmpty) (s%"WITH " ++ commaText w), some s%"UPDATE",
          when b.only s%"ONLY", some ta, some se])
        (r := [when (!blank b.whr) (s%"WHERE " ++ wt),
          when (!b.returning.isEmpty) (s%"RETURNING " ++ commaText r)]) (by simp)
      refine ⟨x, pre, post ++ commentText b.comment, h1, ?_⟩
      have hw : when (![i].isEmpty) (s%"FROM " ++ commaText [x]) = some (s%"FROM " ++ x) := by
        simp [when, commaText]
      simp only
      rw [hw]
      exact (congrArg (· ++ commentText b.comment) hs).trans (by simp)
  · obtain ⟨hne, is, he, rfl⟩ := ((C30_update_delete args hn).2 b b' hb).1 h
    obtain ⟨f, u, r, wt, hf, -, -, -, -, rfl⟩ := C25_delete _ _ ht
    obtain ⟨post, hp⟩ := oneSpace_two s%"DELETE" (s%"FROM " ++ commaText f)
      [when (!b.usings.isEmpty) (s%"USING " ++ commaText u), when (!blank b.whr) (s%"WHERE " ++ wt),
        when (!b.returning.isEmpty) (s%"RETURNING " ++ commaText r)]
    refine ⟨f, post ++ commentText b.comment, each_text he hf, ?_⟩
    simp only at hp ⊢
    rw [hp]
    simp
  · obtain ⟨us, he, rfl⟩ := (C30_delete_using b b' hb args).1 h
    obtain ⟨f, u, r, wt, -, hu, -, -, -, rfl⟩ := C25_delete _ _ ht
    have huse : us.isEmpty = false := by
      cases us with
      | nil => exact absurd ((each_nil_iff he).2 rfl) hne
      | cons _ _ => rfl
    obtain ⟨pre, post, hs⟩ := oneSpace_split (a := s%"DELETE") (x := s%"USING " ++ commaText u)
      (l := [some s%"DELETE", some (s%"FROM " ++ commaText f)])
      (r := [when (!blank b.whr) (s%"WHERE " ++ wt),
        when (!b.returning.isEmpty) (s%"RETURNING " ++ commaText r)]) (by simp)
    refine ⟨u, pre, post ++ commentText b.comment, each_using he hu, ?_⟩
    have hw : when (!us.isEmpty) (s%"USING " ++ commaText u) = some (s%"USING " ++ commaText u) := by
      simp [when, huse]
    simp only
    rw [hw]
    exact (congrArg (· ++ commentText b.comment) hs).trans (by simp)

end

/-! ## Cases -/

section
attribute [local instance] Runtime.sample

/-- A decimal string is a number. -/
example : IntArg (.val (.str s%"+0042")) 42 :=
  ⟨s%"+", s%"0042", rfl, by simp, by simp [Digit], .inl ⟨.inr rfl, by decide⟩⟩

/-- 2^63 as `uint64` is refused rather than wrapped. -/
example : toInt64 (.val (.uint .uint64 (2 ^ 63))) = none := by rfl

/-- C26 applies: a limit given as string. -/
example : Sample.groups.Limit (.val (.str s%"10")) = .ok { Sample.groups with limit := 10 } ∧
    ({ Sample.groups with limit := 10 } : SelectStmt).write.string =
      .ok s%"SELECT \"id\" FROM \"groups\" WHERE (\"active\" = true) LIMIT 10" := ⟨rfl, rfl⟩

/-- Outside C26 (it is about plain values): a value that already is a `stmt.Limit` is not checked, so
a negative limit is rendered. -/
theorem C26_limit_value_unchecked :
    Sample.groups.Limit (.limit (-5)) = .ok { Sample.groups with limit := -5 } ∧
    ({ Sample.groups with limit := -5 } : SelectStmt).write.string =
      .ok s%"SELECT \"id\" FROM \"groups\" WHERE (\"active\" = true) LIMIT -5" := ⟨rfl, rfl⟩

/-- C28 applies: names in a string. -/
example : toColumns [.val (.str s%" a,b\t"), .selExpr (.column { name := s%"c" })] =
    .ok [{ name := s%"a" }, { name := s%"b" }, { name := s%"c" }] := rfl
example : Names s%" a,b\t" [s%"a", s%"b"] := (names_iff _ _).2 ⟨rfl, by decide⟩
example : Separate [.val (.str s%" a,b\t"), .selExpr (.column { name := s%"c" })] := trivial

/-- C29 applies: a string, an aggregate and a raw fragment. -/
example : toSelectExpressions [.val (.str s%"a, b"), .selExpr (.max s%"c" s%"m"),
    .expr (.raw s%"now()")] =
    .ok [.column { name := s%"a" }, .column { name := s%"b" }, .max s%"c" s%"m", .raw s%"now()"] :=
  rfl

/-- The case of a slice of strings: neither split nor trimmed nor refused when empty. -/
example : toSelectExpressions [.val (.slice .string [.str s%"a, b", .str s%""])] =
    .ok [.column { name := s%"a, b" }, .column { name := s%"" }] := rfl

/-- C30 applies. -/
example : (do
    let b ← select [.val (.str s%"a")]
    let b ← b.From [.val (.str s%"x"), .table { name := s%"y", alias := s%"z" }, .expr (.raw s%"f()")]
    b.write.string) = .ok s%"SELECT \"a\" FROM \"x\", \"y\" AS \"z\", f()" := rfl

/-- `C30_from_value` applies. -/
example : Sample.groups.tables ≠ [] ∧
    ({ Sample.groups with tables := [] } : SelectStmt).From [.fromClause [.table { name := s%"x" }]] =
      .ok { Sample.groups with tables := [.nil] } := ⟨by simp [Sample.groups], rfl⟩

end

end Verif.Props
