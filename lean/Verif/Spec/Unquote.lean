import Verif.Spec.Utf8
import Verif.Spec.Read

/-!
# Go string literals

A reader of interpreted string literals after the Go language specification ("Rune literals", "String
literals"): what bytes the text between two double quotes denotes. Octal escapes are refused. Nothing
here refers to the model.
-/

namespace Verif.Spec

/-- `n` hexadecimal digits from the front, after those that gave `acc`. -/
def takeHex : Nat → Nat → Str → Option (Nat × Str)
  | 0, acc, r => some (acc, r)
  | _ + 1, _, [] => none
  | n + 1, acc, c :: r =>
    match hexValue c with
    | none => none
    | some d => takeHex n (acc * 16 + d) r

/-- What an escape denotes, from behind the backslash: `\x` a byte, `\u` and `\U` a character. -/
def unescape : Str → Option (Bytes × Str)
  | [] => none
  | c :: r =>
    if c = 'a' then some ([7], r)
    else if c = 'b' then some ([8], r)
    else if c = 'f' then some ([12], r)
    else if c = 'n' then some ([10], r)
    else if c = 'r' then some ([13], r)
    else if c = 't' then some ([9], r)
    else if c = 'v' then some ([11], r)
    else if c = '\\' then some ([92], r)
    else if c = '"' then some ([34], r)
    else if c = 'x' then (takeHex 2 0 r).map fun (n, r) => ([.ofNat n], r)
    else if c = 'u' then (takeHex 4 0 r).map fun (n, r) => (String.utf8EncodeChar (.ofNat n), r)
    else if c = 'U' then (takeHex 8 0 r).map fun (n, r) => (String.utf8EncodeChar (.ofNat n), r)
    else none

/-- The bytes up to the closing double quote, of at most `n` items. -/
def unquoteBody : Nat → Str → Option (Bytes × Str)
  | 0, _ => none
  | _ + 1, [] => none
  | n + 1, c :: r =>
    if c = '"' then some ([], r)
    else if c = '\\' then
      match unescape r with
      | none => none
      | some (x, r) => (unquoteBody n r).map fun (b, r) => (x ++ b, r)
    else (unquoteBody n r).map fun (b, r) => (String.utf8EncodeChar c ++ b, r)

/-- A string literal at the front of the text. -/
def unquote : Str → Option (Bytes × Str)
  | '"' :: r => unquoteBody (r.length + 1) r
  | _ => none

/-- String literals with a dot between them, at most `n`, and nothing after them. -/
def unquoteDotted : Nat → Str → Option (List Bytes)
  | 0, _ => none
  | n + 1, t =>
    match unquote t with
    | some (b, []) => some [b]
    | some (b, '.' :: r) => (unquoteDotted n r).map (b :: ·)
    | _ => none

end Verif.Spec
