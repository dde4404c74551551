import Verif.Lemmas.Unquote
import Verif.Lemmas.Literal
import Verif.Lemmas.RawText
import Verif.Props.Sample

/-!
# Strings are bytes

C64: on strings that are the UTF-8 encoding of characters, each function that looks into a string does
on the bytes what the rest of the model says of the characters. C65: names of any bytes. C66: literals of any bytes.
-/

namespace Verif.Props
open Spec

/-! ## C64 -/

/-- The literal of a string. -/
theorem C64_literal (s : Str) : Raw.formatString (utf8 s) = utf8 (formatString s) := by
  rw [← Raw.ofRunes_eq, ← Raw.ofRunes_eq, Raw.formatString_eq, Raw.runes_ofRunes]

section
variable [GoRuntime]

/-- A quoted name. -/
theorem C64_name (s : Str) : Raw.quote (utf8 s) = utf8 (quote s) := by
  rw [← Raw.ofRunes_eq, ← Raw.ofRunes_eq, Raw.quote_ofRunes]

/-- The bytes that a piece of a statement should become in String(). -/
def pieceBytes : Piece → Bytes
  | .sql t => utf8 t
  | .name s => Raw.quote (utf8 s)
  | .raw t => utf8 t
  | .note c => utf8 s%"; -- " ++ utf8 c
  | .val (.str s) => Raw.formatString (utf8 s)
  | .val v => match formatValue v with
    | .ok t => utf8 t
    | .error _ => []

/-- The bytes of String() are those of the pieces of the statement one after the other, each name
quoted and each string formatted byte by byte. -/
theorem C64_statement (s : Stmt) (t : Str) (h : s.write.string = .ok t) :
    utf8 t = (layout s).flatMap pieceBytes := by
  replace h := ((stmt_string s t).1 h).2
  generalize layout s = l at h
  induction l generalizing t with
  | nil => cases h; rfl
  | cons p l ih =>
    rw [rawText] at h
    cases hp : p.rawText with
    | error e => rw [hp] at h; cases h
    | ok u =>
      rw [hp] at h
      cases hl : rawText l with
      | error e => rw [hl] at h; cases h
      | ok v =>
        rw [hl] at h
        cases h
        rw [List.flatMap_cons, ← ih v hl]
        refine (List.flatMap_append).trans ?_
        congr 1
        cases p with
        | sql t => cases hp; rfl
        | name s => cases hp; exact (C64_name s).symm
        | raw t => cases hp; rfl
        | note c => cases hp; exact List.flatMap_append
        | val w =>
          cases w with
          | str s => cases hp; exact (C64_literal s).symm
          | _ =>
            rw [pieceBytes, show formatValue _ = _ from hp]
            · rfl
            · intro s e; cases e

end

/-- Cutting a string in two around `=` or `,` or `.`. -/
theorem C64_split (sep : Char) (h : sep.toNat < 128) (s : Str) :
    Raw.splitOn (UInt8.ofNat sep.toNat) (utf8 s) = (splitOn sep s).map utf8 := by
  rw [← Raw.ofRunes_eq, Raw.splitOn_ofRunes sep h]
  exact List.map_congr_left fun p _ => Raw.ofRunes_eq p

/-- White space at both ends of a string. -/
theorem C64_trim (s : Str) : Raw.trimSpace (utf8 s) = utf8 (trimSpace s) := by
  rw [← Raw.ofRunes_eq, ← Raw.ofRunes_eq, Raw.trimSpace_ofRunes]

/-- The order in which the columns of SET are sorted. -/
theorem C64_order (s t : Str) : Raw.less (utf8 s) (utf8 t) = strLt s t := by
  rw [← Raw.ofRunes_eq, ← Raw.ofRunes_eq, Raw.less_ofRunes]

/-- A number in a string, for LIMIT and OFFSET. -/
theorem C64_number (s : Str) : Raw.parseInt64 (utf8 s) = parseInt64 s := by
  rw [← Raw.ofRunes_eq, Raw.parseInt64_ofRunes]

/-- The tokens of a join condition. -/
theorem C64_tokens (s : Str) :
    Raw.lexAll (utf8 s) = (lexAll s).map fun t => (t.type, utf8 t.value) := by
  unfold Raw.lexAll
  rw [← Raw.ofRunes_eq, Raw.runes_ofRunes]
  exact List.map_congr_left fun t _ => by rw [Raw.ofRunes_eq]

/-! ## C65 -/

section
variable [GoRuntime]

/-- A name of any bytes is written as valid UTF-8: Go string literals joined by dots, which denote the
parts of the name between its dots. -/
theorem C65_name (b : Bytes) : ∃ t parts, Raw.quote b = utf8 t ∧
    unquoteDotted (t.length) t = some parts ∧ ([0x2E] : Bytes).intercalate parts = b ∧
    ∀ p ∈ parts, (0x2E : UInt8) ∉ p := by
  refine ⟨_, Raw.splitOn 0x2E b, by rw [Raw.quote_text, Raw.ofRunes_eq], ?_, ?_,
    Raw.splitOn_no_sep 0x2E b⟩
  · exact Raw.unquoteDotted_text _ (Raw.splitOn_ne_nil _ _) _ (Raw.dottedText_length _)
  · rw [Raw.intercalate_eq, Raw.joinWith_splitOn]

/-- Different names are written differently. -/
theorem C65_name_injective (b b' : Bytes) (h : Raw.quote b = Raw.quote b') : b = b' := by
  obtain ⟨t, ps, h1, h2, h3, -⟩ := C65_name b
  obtain ⟨t', ps', h1', h2', h3', -⟩ := C65_name b'
  have : t = t' := by
    rw [h1, h1', ← Raw.ofRunes_eq, ← Raw.ofRunes_eq] at h
    exact Raw.ofRunes_inj h
  subst this
  rw [h2] at h2'
  cases h2'
  rw [← h3, h3']

end

/-! ## C66 -/

/-- The literal of any bytes is the literal of the characters they are decoded to, with U+FFFD for a
byte that is no part of a character. -/
theorem C66_literal (b : Bytes) (s : Str) (h : Decodes b s) :
    Raw.formatString b = utf8 (formatString s) := by
  rw [← Raw.ofRunes_eq, Raw.formatString_eq, Raw.decodes_unique h]

/-- Every sequence of bytes is decoded to exactly one sequence of characters, and its literal is that
of this sequence. -/
theorem C66_decodes (b : Bytes) :
    ∃ s, Decodes b s ∧ (∀ s', Decodes b s' → s' = s) ∧ Raw.formatString b = utf8 (formatString s) :=
  ⟨_, Raw.decodes_runes b, fun _ h => Raw.decodes_unique h, C66_literal b _ (Raw.decodes_runes b)⟩

/-- The literal is valid UTF-8 whatever the bytes are, and it reads back as the bytes given if and only
if these are valid UTF-8. -/
theorem C66_partial (b : Bytes) : ∃ t s, Raw.formatString b = utf8 t ∧
    readEsc t = some (s, []) ∧ (utf8 s = b ↔ ValidUtf8 b) := by
  refine ⟨formatString (Raw.runes b), Raw.runes b, C66_literal b _ (Raw.decodes_runes b), ?_, ?_⟩
  · have := readEsc_formatString (s := Raw.runes b) (rest := []) (by simp)
    rwa [List.append_nil] at this
  · rw [← Raw.ofRunes_eq]; exact Raw.ofRunes_runes b

/-- Two strings have the same literal exactly if the same characters are decoded from them. -/
theorem C66_exact (b b' : Bytes) :
    Raw.formatString b = Raw.formatString b' ↔ ∃ s, Decodes b s ∧ Decodes b' s := by
  constructor
  · intro h
    rw [C66_literal b _ (Raw.decodes_runes b), C66_literal b' _ (Raw.decodes_runes b'),
      ← Raw.ofRunes_eq, ← Raw.ofRunes_eq] at h
    have h1 := readEsc_formatString (s := Raw.runes b) (rest := []) (by simp)
    rw [Raw.ofRunes_inj h, readEsc_formatString (s := Raw.runes b') (rest := []) (by simp)] at h1
    simp only [Option.some.injEq, Prod.mk.injEq, and_true] at h1
    exact ⟨Raw.runes b, Raw.decodes_runes b, h1 ▸ Raw.decodes_runes b'⟩
  · rintro ⟨s, h, h'⟩
    rw [C66_literal b s h, C66_literal b' s h']

/-- Two different strings with the same literal: PostgreSQL is not asked for what was given. -/
theorem C66_false : ∃ b b' : Bytes, b ≠ b' ∧ Raw.formatString b = Raw.formatString b' :=
  ⟨[0xFF], [0xFE], by decide, by decide⟩

/-! ## Cases -/

section
attribute [local instance] Runtime.sample

-- An apostrophe and a letter of two bytes.
example : Raw.formatString (utf8 s%"l'été") =
    [0x27, 0x6C, 0x5C, 0x27, 0xC3, 0xA9, 0x74, 0xC3, 0xA9, 0x27] := by decide

-- The separator is found between letters of three and four bytes.
example : Raw.splitOn 0x2E (utf8 s%"语.𝄞") = [[0xE8, 0xAF, 0xAD], [0xF0, 0x9D, 0x84, 0x9E]] := by decide

example : Raw.quote (utf8 s%"été.n") = utf8 (quote s%"été.n") := C64_name _

-- A no-break space and an ideographic space.
example : Raw.trimSpace (utf8 s%"\u00a0 é\u3000") = utf8 s%"é" := by decide

-- The last byte of `à` is `0xA0`, which alone would be a no-break space.
example : Raw.trimSpace (utf8 s%" à") = utf8 s%"à" := by decide

example : Raw.less (utf8 s%"z") (utf8 s%"é") = true ∧ Raw.less (utf8 s%"￿") (utf8 s%"𝄞") = true := by
  decide

example : Raw.parseInt64 (utf8 s%"-12") = some (-12) ∧ Raw.parseInt64 (utf8 s%"１２") = none := by
  decide

example : Raw.lexAll (utf8 s%"é.b") = (lexAll s%"é.b").map fun t => (t.type, utf8 t.value) :=
  C64_tokens _

/-- `DELETE FROM "users" WHERE ("name" = 'l\'é'); -- ü` -/
def accented : Stmt := .delete { Sample.deleteUsers with
  whr := .infx (.ident (.str s%"name")) (.comparison s%"=") (.value (.str s%"l'é"))
  comment := s%"ü" }

example : accented.write.string =
    .ok s%"DELETE FROM \"users\" WHERE (\"name\" = 'l\\'é'); -- ü" := by rfl

-- A byte that begins no character.
example : Decodes [0x61, 0xFF, 0xC3, 0xA9] s%"a�é" := Raw.decodes_runes _

example : Raw.formatString [0x61, 0xFF] = utf8 s%"'a�'" := C66_literal _ s%"a�" (Raw.decodes_runes _)

example : ValidUtf8 [0xC3, 0xA9] := ⟨s%"é", rfl⟩

-- A surrogate, an overlong encoding and a truncated character are not valid.
example : ¬ ValidUtf8 [0xED, 0xA0, 0x80] ∧ ¬ ValidUtf8 [0xC0, 0xAF] ∧ ¬ ValidUtf8 [0xE2, 0x82] := by
  simp only [← Raw.ofRunes_runes]
  decide

example : Raw.quote [0x61, 0x2E, 0xFF, 0x22] = utf8 s%"\"a\".\"\\xff\\\"\"" := by decide

example : unquoteDotted 30 s%"\"a\".\"\\xff\\\"\"" = some [[0x61], [0xFF, 0x22]] := by decide

end

end Verif.Props
