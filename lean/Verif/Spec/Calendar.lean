import Verif.Spec.Read

/-!
# Reading a timestamp

The Gregorian calendar, counted year by year and month by month, and a reader for timestamps
`'YYYY-MM-DD hh:mm:ss[.ffffff]+00'`.  Independent of the model.
-/

namespace Verif.Spec

/-- Gregorian leap years. -/
def isLeap (y : Nat) : Bool := y % 4 == 0 && (y % 100 != 0 || y % 400 == 0)

/-- Days of month `m` (1 to 12). -/
def daysInMonth (leap : Bool) (m : Nat) : Nat :=
  if m == 2 then (if leap then 29 else 28)
  else if m == 4 || m == 6 || m == 9 || m == 11 then 30
  else 31

/-- Days of a year before month `m`, adding up the months before it. -/
def daysBeforeMonth (leap : Bool) : Nat → Nat
  | 0 => 0
  | 1 => 0
  | m + 2 => daysBeforeMonth leap (m + 1) + daysInMonth leap (m + 1)

/-- Days from 0000-01-01 to the first day of year `y`, adding up the years before it. -/
def daysBeforeYear : Nat → Nat
  | 0 => 0
  | y + 1 => daysBeforeYear y + (if isLeap y then 366 else 365)

/-- Days from 1970-01-01 to the given date. -/
def dayNumber (y m d : Nat) : Int :=
  (daysBeforeYear y + daysBeforeMonth (isLeap y) m + (d - 1) : Nat) - (daysBeforeYear 1970 : Nat)

/-- The character `c`. -/
def readChar (c : Char) : Str → Option Str
  | [] => none
  | d :: s => if d = c then some s else none

/-- Exactly `n` digits, continuing the number `acc`. -/
def readDigits : Nat → Nat → Str → Option (Nat × Str)
  | 0, acc, s => some (acc, s)
  | _ + 1, _, [] => none
  | n + 1, acc, c :: s =>
    match digitValue c with
    | none => none
    | some d => readDigits n (10 * acc + d) s

/-- A decimal fraction in microseconds: nothing, or a dot and one to six digits. -/
def readFraction (s : Str) : Option (Nat × Str) :=
  match readChar '.' s with
  | none => some (0, s)
  | some s =>
    let ds := s.takeWhile fun c => (digitValue c).isSome
    if 1 ≤ ds.length ∧ ds.length ≤ 6 then
      (digitsValue 0 ds).map fun n => (n * 10 ^ (6 - ds.length), s.drop ds.length)
    else none

/-- A timestamp literal, read as microseconds since 1970-01-01 00:00:00 UTC; `none` unless it
is a well-formed, valid date and time of day. -/
def readTimestamp (s : Str) : Option (Int × Str) := do
  let s ← readChar '\'' s
  let (y, s) ← readDigits 4 0 s
  let s ← readChar '-' s
  let (m, s) ← readDigits 2 0 s
  let s ← readChar '-' s
  let (d, s) ← readDigits 2 0 s
  let s ← readChar ' ' s
  let (hour, s) ← readDigits 2 0 s
  let s ← readChar ':' s
  let (minute, s) ← readDigits 2 0 s
  let s ← readChar ':' s
  let (second, s) ← readDigits 2 0 s
  let (micro, s) ← readFraction s
  let s ← readChar '+' s
  let s ← readChar '0' s
  let s ← readChar '0' s
  let s ← readChar '\'' s
  if 1 ≤ m ∧ m ≤ 12 ∧ 1 ≤ d ∧ d ≤ daysInMonth (isLeap y) m ∧ hour < 24 ∧ minute < 60 ∧ second < 60 then
    some (((dayNumber y m d * 24 + hour) * 60 + minute) * 60000000 + second * 1000000 + micro, s)
  else none

/-- Leap years among all years, where the year before year 1 is year 0 (ISO 8601): the calendar repeats
every 400 years. -/
def isLeapAny (y : Int) : Bool := isLeap (y % 400).toNat

/-- Days from 1970-01-01 to a date of any year. -/
def dayNumberAny (y : Int) (m d : Nat) : Int := dayNumber (y % 400).toNat m d + y / 400 * 146097

/-- A year: a minus sign or none, and at least four digits. -/
def readYear (s : Str) : Option (Int × Str) :=
  let unsigned := fun s : Str =>
    let ds := s.takeWhile fun c => (digitValue c).isSome
    if 4 ≤ ds.length then (digitsValue 0 ds).map fun n => (n, s.drop ds.length) else none
  match readChar '-' s with
  | some s => (unsigned s).map fun ys => (-(ys.1 : Int), ys.2)
  | none => (unsigned s).map fun ys => ((ys.1 : Int), ys.2)

/-- A timestamp literal of any year, otherwise like `readTimestamp`. -/
def readTimestampAny (s : Str) : Option (Int × Str) := do
  let s ← readChar '\'' s
  let (y, s) ← readYear s
  let s ← readChar '-' s
  let (m, s) ← readDigits 2 0 s
  let s ← readChar '-' s
  let (d, s) ← readDigits 2 0 s
  let s ← readChar ' ' s
  let (hour, s) ← readDigits 2 0 s
  let s ← readChar ':' s
  let (minute, s) ← readDigits 2 0 s
  let s ← readChar ':' s
  let (second, s) ← readDigits 2 0 s
  let (micro, s) ← readFraction s
  let s ← readChar '+' s
  let s ← readChar '0' s
  let s ← readChar '0' s
  let s ← readChar '\'' s
  if 1 ≤ m ∧ m ≤ 12 ∧ 1 ≤ d ∧ d ≤ daysInMonth (isLeapAny y) m ∧ hour < 24 ∧ minute < 60 ∧ second < 60 then
    some (((dayNumberAny y m d * 24 + hour) * 60 + minute) * 60000000 + second * 1000000 + micro, s)
  else none

end Verif.Spec
