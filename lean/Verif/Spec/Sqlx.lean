import Verif.Spec.Utf8
import Verif.Spec.Weave

/-!
# How sqlx reads a named query

The README (README.md:40, :61-370) and examples/named (comment.go:93-123, user.go:20-44) hand the
text and the map of `NamedQuery` to the package sqlx, which is not part of the repository. This is
its function `compileNamedQuery` (named.go of sqlx 1.3, for drivers with placeholders `$1`, `$2`,
...), written from the published source: a loop over bytes that knows of colons and words only, not
of quotes or comments.
-/

namespace Verif.Spec.Sqlx

/-- `unicode.IsOneOf(allowedBindRunes, rune(b))`: letters and digits, where a byte is taken for the
character with that number. -/
def letter (b : UInt8) : Bool :=
  let n := b.toNat
  (48 ≤ n && n ≤ 57) || (65 ≤ n && n ≤ 90) || (97 ≤ n && n ≤ 122) ||
  n = 0xAA || n = 0xB5 || n = 0xBA || (0xC0 ≤ n && n ≠ 0xD7 && n ≠ 0xF7)

/-- Bytes that may stand in the name of a parameter: also `_` and `.`. -/
def allowed (b : UInt8) : Bool := letter b || b = 0x5F || b = 0x2E

/-- `$k` -/
def placeholder (k : Nat) : Bytes := utf8 (s%"$" ++ numeral k)

/-- The loop of `compileNamedQuery`. The state is the name read so far, if one has been begun with a
colon, and the number of the next placeholder. The result is the query for the database and the
names of its parameters; `none` is the error "unexpected `:` while reading named param". -/
def loop : Option Bytes → Nat → Bytes → Option (Bytes × List Bytes)
  | _, _, [] => some ([], [])
  | none, k, b :: t =>
    if b = 0x3A then loop (some []) k t
    else (loop none k t).map fun (q, ns) => (b :: q, ns)
  | some name, k, b :: t =>
    if b = 0x3A then
      if name.isEmpty then (loop none k t).map fun (q, ns) => (b :: q, ns) else none
    else if b = 0x3D && name.isEmpty then
      (loop none k t).map fun (q, ns) => (0x3A :: 0x3D :: q, ns)
    else if allowed b && !t.isEmpty then loop (some (name ++ [b])) k t
    else if t.isEmpty then
      if letter b then some (placeholder k, [name ++ [b]])
      else some (placeholder k ++ [b], [name])
    else (loop none (k + 1) t).map fun (q, ns) => (placeholder k ++ b :: q, name :: ns)

/-- `compileNamedQuery` -/
def compile (text : Bytes) : Option (Bytes × List Bytes) := loop none 1 text

/-- `bindMapArgs`: the values of the names; `none` is the error "could not find name". -/
def bindMap (m : Option (List (Str × Val))) : List Bytes → Option (List Val)
  | [] => some []
  | n :: ns =>
    match (m.getD []).find? (fun kv => utf8 kv.1 = n) with
    | none => none
    | some kv => (bindMap m ns).map (kv.2 :: ·)

/-- What is sent to the database for a named query and its map: the text and the arguments. `none`
is an error. -/
def send (text : Str) (m : Option (List (Str × Val))) : Option (Bytes × List Val) :=
  match compile (utf8 text) with
  | none => none
  | some (q, ns) => (bindMap m ns).map (q, ·)

end Verif.Spec.Sqlx

namespace Verif.Spec

/-- Every colon of the text is followed by an equals sign. -/
def ColonsAssign (q : Str) : Prop := ∀ a b, q = a ++ ':' :: b → b.head? = some '='

/-- The text that the user gave for a piece, other than a value: a name, a raw fragment, a
comment. -/
def givenText : Piece → Str
  | .name n => n
  | .raw t => t
  | .note c => c
  | .sql _ | .val _ => []

end Verif.Spec
