import Verif.Spec.Read

/-!
# Conditions: trees, truth values, and a reader with SQL precedence

Nothing here refers to the model.
-/

namespace Verif.Spec

/-- SQL truth values. -/
inductive Truth where
  | no | unknown | yes
deriving DecidableEq, Repr

/-- SQL `AND`. -/
def Truth.and : Truth → Truth → Truth
  | .no, _ => .no
  | _, .no => .no
  | .yes, b => b
  | a, .yes => a
  | .unknown, .unknown => .unknown

/-- SQL `OR`. -/
def Truth.or : Truth → Truth → Truth
  | .yes, _ => .yes
  | _, .yes => .yes
  | .no, b => b
  | a, .no => a
  | .unknown, .unknown => .unknown

/-- A connective. -/
inductive Conn where
  | and | or
deriving DecidableEq, Repr

/-- The keyword of a connective. -/
def Conn.word : Conn → Str
  | .and => s%"AND"
  | .or => s%"OR"

/-- A tree of conditions. -/
inductive Cond (α : Type) where
  | atom (a : α)
  | and (l r : Cond α)
  | or (l r : Cond α)
deriving DecidableEq, Repr

namespace Cond

/-- Apply a function to the atoms. -/
def map {α β : Type} (f : α → β) : Cond α → Cond β
  | .atom a => .atom (f a)
  | .and l r => .and (l.map f) (r.map f)
  | .or l r => .or (l.map f) (r.map f)

/-- The truth value of a tree. -/
def eval {α : Type} (ν : α → Truth) : Cond α → Truth
  | .atom a => ν a
  | .and l r => (l.eval ν).and (r.eval ν)
  | .or l r => (l.eval ν).or (r.eval ν)

/-- The atoms, from left to right. -/
def atoms {α : Type} : Cond α → List α
  | .atom a => [a]
  | .and l r => l.atoms ++ r.atoms
  | .or l r => l.atoms ++ r.atoms

/-- Combine by a connective. -/
def join {α : Type} (c : Conn) (l r : Cond α) : Cond α :=
  match c with
  | .and => .and l r
  | .or => .or l r

end Cond

/-- The truth value SQL gives to `a c1 a1 c2 a2 ...` written without parentheses: `AND` binds
tighter than `OR`. -/
def flatEval {α : Type} (ν : α → Truth) (acc : Truth) : List (Conn × α) → Truth
  | [] => acc
  | (.and, a) :: l => flatEval ν (acc.and (ν a)) l
  | (.or, a) :: l => acc.or (flatEval ν (ν a) l)

/-! ## Reading conditions -/

/-- An operand of a comparison. -/
inductive Operand where
  | name (parts : List Str)
  | param (k : Nat)
  | null
deriving DecidableEq, Repr

/-- A comparison. -/
structure Comparison where
  left : Operand
  op : Str
  right : Operand
deriving DecidableEq, Repr

/-- The comparison operators. One that extends another comes before it. -/
def comparisonOps : List Str :=
  [s%"IS NOT DISTINCT FROM", s%"IS DISTINCT FROM", s%"IS NOT", s%"IS", s%"NOT ILIKE",
   s%"NOT LIKE", s%"ILIKE", s%"LIKE", s%"!=", s%">=", s%"<=", s%"<@", s%"@>", s%"&&", s%"=",
   s%">", s%"<"]

/-- Remove a prefix. -/
def strip : Str → Str → Option Str
  | [], s => some s
  | _ :: _, [] => none
  | c :: p, d :: s => if c = d then strip p s else none

/-- An operand: a quoted name, `$k` or `NULL`. -/
def readOperand (s : Str) : Option (Operand × Str) :=
  if s.head? = some '"' then
    match readName s with
    | none => none
    | some (parts, r) => some (.name parts, r)
  else if s.head? = some '$' then
    match readNat (s.tail.takeWhile Char.isDigit) with
    | none => none
    | some k => some (.param k, s.tail.dropWhile Char.isDigit)
  else
    match strip s%"NULL" s with
    | none => none
    | some r => some (.null, r)

/-- One of the given operators, followed by a space. -/
def readOp : List Str → Str → Option (Str × Str)
  | [], _ => none
  | o :: os, s =>
    match strip (o ++ s%" ") s with
    | some r => some (o, r)
    | none => readOp os s

/-- A comparison `operand operator operand`. -/
def readComparison (s : Str) : Option (Comparison × Str) :=
  match readOperand s with
  | none => none
  | some (l, r) =>
    match strip s%" " r with
    | none => none
    | some r =>
      match readOp comparisonOps r with
      | none => none
      | some (op, r) =>
        match readOperand r with
        | none => none
        | some (x, r) => some (⟨l, op, x⟩, r)

mutual

/-- Conditions separated by `OR`. -/
def readOr : Nat → Str → Option (Cond Comparison × Str)
  | 0, _ => none
  | n + 1, s =>
    match readAnd n s with
    | none => none
    | some (t, r) => readOrs n t r

/-- What follows a condition `t` among conditions separated by `OR`. -/
def readOrs : Nat → Cond Comparison → Str → Option (Cond Comparison × Str)
  | 0, _, _ => none
  | n + 1, t, s =>
    match strip s%" OR " s with
    | none => some (t, s)
    | some r =>
      match readAnd n r with
      | none => none
      | some (u, r') => readOrs n (.or t u) r'

/-- Conditions separated by `AND`. -/
def readAnd : Nat → Str → Option (Cond Comparison × Str)
  | 0, _ => none
  | n + 1, s =>
    match readUnit n s with
    | none => none
    | some (t, r) => readAnds n t r

/-- What follows a condition `t` among conditions separated by `AND`. -/
def readAnds : Nat → Cond Comparison → Str → Option (Cond Comparison × Str)
  | 0, _, _ => none
  | n + 1, t, s =>
    match strip s%" AND " s with
    | none => some (t, s)
    | some r =>
      match readUnit n r with
      | none => none
      | some (u, r') => readAnds n (.and t u) r'

/-- A parenthesised condition, or a comparison. -/
def readUnit : Nat → Str → Option (Cond Comparison × Str)
  | 0, _ => none
  | n + 1, s =>
    match strip s%"(" s with
    | none =>
      match readComparison s with
      | none => none
      | some (c, r) => some (.atom c, r)
    | some r =>
      match readOr n r with
      | none => none
      | some (t, r') =>
        match strip s%")" r' with
        | none => none
        | some r'' => some (t, r'')

end

/-- The condition a text stands for (the number bounds the depth of recursion). -/
def readCond (s : Str) : Option (Cond Comparison) :=
  match readOr (4 * s.length + 4) s with
  | some (t, []) => some t
  | _ => none

end Verif.Spec
