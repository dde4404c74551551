import Verif.Lemmas.Slice
import Verif.Model.Construct
import Verif.Model.Runtime
import Verif.Spec.Tokens

/-!
# C68: slices as values
-/

namespace Verif.Props
open Verif Spec

section
variable [GoRuntime]

/-- C68, as far as it holds, for slices of integers: the text is closed, and the numbers can be read
from it. -/
theorem C68_partial (b : Bool) (k : IntKind) (ns : List Int) :
    ∃ t, formatValue (.slice (.int k) (ns.map (.int k))) = .ok t ∧ SelfContained b t ∧
      (readItems t).bind readInts = some ns := by
  refine ⟨_, rfl, closed_formatSlice (b := b) trivial, ?_⟩
  have e : (ns.map (Val.int k)).map (sprintElem (.int k)) = ns.map formatInt := by
    rw [List.map_map]; rfl
  rw [formatSlice, e, readItems_join, Option.bind_some, readInts_formatInt]
  intro p hp
  obtain ⟨n, -, rfl⟩ := List.mem_map.1 hp
  exact formatInt_word n

/-- C68 for slices of unsigned integers. -/
theorem C68_unsigned (b : Bool) (k : UintKind) (ns : List Nat) :
    ∃ t, formatValue (.slice (.uint k) (ns.map (.uint k))) = .ok t ∧ SelfContained b t ∧
      (readItems t).bind readInts = some (ns.map Int.ofNat) := by
  refine ⟨_, rfl, closed_formatSlice (b := b) trivial, ?_⟩
  have e : (ns.map (Val.uint k)).map (sprintElem (.uint k)) = (ns.map Int.ofNat).map formatInt := by
    rw [List.map_map, List.map_map]; rfl
  rw [formatSlice, e, readItems_join, Option.bind_some, readInts_formatInt]
  intro p hp
  obtain ⟨n, -, rfl⟩ := List.mem_map.1 hp
  exact formatInt_word n

/-- C68 for slices of booleans: the text is closed, and its items are `true` and `false` as the
elements are. -/
theorem C68_booleans (b : Bool) (xs : List Bool) :
    ∃ t, formatValue (.slice .bool (xs.map .bool)) = .ok t ∧ SelfContained b t ∧
      readItems t = some (xs.map fun x => bif x then s%"true" else s%"false") := by
  refine ⟨_, rfl, closed_formatSlice (b := b) trivial, ?_⟩
  have e : (xs.map Val.bool).map (sprintElem .bool) =
      xs.map fun x => bif x then s%"true" else s%"false" := by
    rw [List.map_map]
    exact List.map_congr_left fun x _ => by cases x <;> rfl
  rw [formatSlice, e, readItems_join]
  intro p hp
  obtain ⟨x, -, rfl⟩ := List.mem_map.1 hp
  cases x <;> decide

/-- For slices of strings: the strings can be read from the text exactly if no string contains a space
and the slice is not that of one empty string. What is missing: other strings, see `C68_false`. -/
theorem C68_words_partial (ss : List Str) :
    ∃ t, formatValue (.slice .string (ss.map .str)) = .ok t ∧
      (readItems t = some ss ↔ (∀ s ∈ ss, ' ' ∉ s) ∧ ss ≠ [[]]) := by
  refine ⟨_, rfl, ?_⟩
  have e : (ss.map Val.str).map (sprintElem .string) = ss := by
    rw [List.map_map]; exact (List.map_congr_left fun _ _ => rfl).trans (List.map_id _)
  rw [formatSlice, e, readItems_exact]

/-- The text of a slice of strings is closed exactly if the strings as they are, with spaces between
them, are: nothing is quoted or escaped. -/
theorem C68_closed (b : Bool) (ss : List Str) (t : Str)
    (h : formatValue (.slice .string (ss.map .str)) = .ok t) :
    SelfContained b t ↔ SelfContained b (List.intercalate s%" " ss) := by
  cases h
  have e : (ss.map Val.str).map (sprintElem .string) = ss := by
    rw [List.map_map]; exact (List.map_congr_left fun _ _ => rfl).trans (List.map_id _)
  rw [formatSlice, e, joinWith_intercalate]
  exact ⟨closed_of_bracketed, closed_bracketed⟩

/-- C68 is false for slices of strings. A quote in a string opens a literal; two different slices
have the same text. -/
theorem C68_false :
    (∃ t, formatValue (.slice .string [.str s%"it's"]) = .ok t ∧ ∀ b, ¬ SelfContained b t) ∧
    formatValue (.slice .string [.str s%"a b"]) =
      formatValue (.slice .string [.str s%"a", .str s%"b"]) ∧
    formatValue (.slice .string [.str []]) = formatValue (.slice .string []) := by
  refine ⟨⟨s%"[it's]", rfl, fun b => ?_⟩, rfl, rfl⟩
  cases b <;> decide

end

/-! ## Examples -/

section
attribute [local instance] Runtime.sample

example : formatValue (.slice (.int .int64) [.int .int64 1, .int .int64 (-2)]) = .ok s%"[1 -2]" := by
  rfl
example : (readItems s%"[1 -2]").bind readInts = some [1, -2] := by rfl
example : formatValue (.slice .bool [.bool true, .bool false]) = .ok s%"[true false]" := by rfl
example : readItems s%"[true false]" = some [s%"true", s%"false"] := by rfl
example : formatValue (.slice (.uint .uint32) [.uint .uint32 7, .uint .uint32 0]) = .ok s%"[7 0]" := by
  rfl
example : (∀ s ∈ [s%"red", s%"", s%"it's"], ' ' ∉ s) ∧ [s%"red", s%"", s%"it's"] ≠ [[]] := by decide

/-- `Condition("tags").Contains([]string{"x]); DROP TABLE a; --"})`: what is a string of an argument in
`Query` becomes a statement of its own in `String`. -/
example : ((Ident.Contains (.str s%"tags")
      (.val (.slice .string [.str s%"x]); DROP TABLE a; --"]))).toOption.map fun e =>
        (e.write.string, e.write.query)) =
    some (.ok s%"(\"tags\" @> [x]); DROP TABLE a; --])",
      .ok (s%"(\"tags\" @> $1)", [.slice .string [.str s%"x]); DROP TABLE a; --"]])) := by rfl

example : tokens true s%"(\"tags\" @> [x]); DROP TABLE a; --])" =
    some [.sym '(', .name s%"tags", .sym '@', .sym '>', .sym '[', .word s%"x", .sym ']', .sym ')',
      .sym ';', .word s%"DROP", .word s%"TABLE", .word s%"a", .sym ';'] := by decide +kernel

end

end Verif.Props
