import Verif.Lemmas.QuoteExact
import Verif.Props.Format

/-!
# C09: exactly which dotted names are read as names
-/

namespace Verif.Props
open Verif.Spec

section
variable [GoRuntime]

/-- C09 for dotted names, exactly: the emitted text is read as one dotted name that ends where the
text ends if and only if no part is empty and none contains a double quote, whatever follows the text;
it is read as the parts that were given if and only if moreover they contain no backslash and no
unprintable rune. -/
theorem C09_dotted_exact (parts : List Str) (rest : Str) (hparts : parts ≠ [])
    (hd : ∀ p ∈ parts, '.' ∉ p) (h1 : rest.head? ≠ some '"') (h2 : rest.head? ≠ some '.') :
    ((∃ xs, readName (quote (List.intercalate s%"." parts) ++ rest) = some (xs, rest)) ↔
      ∀ p ∈ parts, p ≠ [] ∧ '"' ∉ p) ∧
    (readName (quote (List.intercalate s%"." parts) ++ rest) = some (parts, rest) ↔
      ∀ p ∈ parts, p ≠ [] ∧ ∀ c ∈ p, c ≠ '"' ∧ c ≠ '\\' ∧ GoRuntime.isPrint c = true) := by
  have hq : quote (List.intercalate s%"." parts) = quotedParts parts := by
    show quotedParts (splitOn '.' _) = _
    rw [show (s%"." : Str) = ['.'] from rfl, splitOn_intercalate hparts hd]
  rw [hq]
  have hgood : (∀ p ∈ parts, p ≠ [] ∧ '"' ∉ p) →
      readName (quotedParts parts ++ rest) = some (parts.map (·.flatMap quoteRune), rest) :=
    fun h => readName_parts hparts (fun p hp => ⟨(h p hp).2, (h p hp).1⟩) h1 h2
  have hbad : ∀ xs, readName (quotedParts parts ++ rest) = some (xs, rest) →
      ∀ p ∈ parts, p ≠ [] ∧ '"' ∉ p :=
    fun xs h => readNameUpTo_exact _ parts hparts hd rest h1 xs h
  refine ⟨⟨fun ⟨xs, h⟩ => hbad xs h, fun h => ⟨_, hgood h⟩⟩, fun h => ?_, fun h => ?_⟩
  · have hb := hbad _ h
    rw [hgood hb] at h
    simp only [Option.some.injEq, Prod.mk.injEq, and_true] at h
    intro p hp
    refine ⟨(hb p hp).1, (flatMap_quoteRune_eq_self p).1 ?_⟩
    have : ∀ (l : List Str), l.map (·.flatMap quoteRune) = l → ∀ p ∈ l, p.flatMap quoteRune = p := by
      intro l
      induction l with
      | nil => simp
      | cons a l ih =>
        intro h p hp
        simp only [List.map_cons, List.cons.injEq] at h
        rcases List.mem_cons.1 hp with rfl | hp
        · exact h.1
        · exact ih h.2 p hp
    exact this parts h p hp
  · rw [hgood fun p hp => ⟨(h p hp).1, fun hm => ((h p hp).2 _ hm).1 rfl⟩]
    have : parts.map (·.flatMap quoteRune) = parts := by
      refine (List.map_congr_left fun p hp => (flatMap_quoteRune_eq_self p).2 (h p hp).2).trans ?_
      exact List.map_id' _
    rw [this]

end

/-! ## Cases -/

section
attribute [local instance] Runtime.sample

/-- A table of a schema, in front of a space. -/
example : ∀ p ∈ [s%"public", s%"users"], p ≠ [] ∧ ∀ c ∈ p, c ≠ '"' ∧ c ≠ '\\' ∧
    GoRuntime.isPrint c = true := by decide

/-- Two quotes do not make up for each other, even around the dot. -/
example : readName (quote s%"a\".\"b" ++ s%" x") = some ([s%"a\\\"."], s%"\\\"b\" x") := by decide

end

end Verif.Props
