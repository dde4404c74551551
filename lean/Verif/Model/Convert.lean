import Verif.Model.Construct
import Verif.Model.ParseJoin

/-!
# `builder/builder.go`: conversion of user arguments.
-/

namespace Verif

/-- builder/builder.go:53-70 `ToColumn` -/
def toColumn (arg : Any) : Go Column :=
  let column : Go Column :=
    match arg with
    | .val (.str s) => .ok { name := trimSpace s }
    | .selExpr (.column c) => .ok c
    | _ => Go.panic "loukoum: cannot use value as column"
  match column with
  | .error p => .error p
  | .ok c => if c.isEmpty then Go.panic "loukoum: given column is undefined" else .ok c

/-- builder/builder.go:98-105 (and :154-161): the columns named by one string. -/
def columnsOfString (value : Str) : Go (List Column) :=
  let cols := (splitOn ',' value).map (fun part => ({ name := trimSpace part } : Column))
  if cols.any Column.isEmpty then Go.panic "loukoum: given column is undefined" else .ok cols

/-- One iteration of builder/builder.go:95-114. -/
def columnsOfArg (a : Any) : Go (List Column) :=
  match a with
  | .val (.str s) => columnsOfString s
  | .selExpr (.column c) =>
    if c.isEmpty then Go.panic "loukoum: given column is undefined" else .ok [c]
  | _ => Go.panic "loukoum: cannot use value as column"

/-- The loop of builder/builder.go:95-114. -/
def toColumnsLoop : List Any → Go (List Column)
  | [] => .ok []
  | a :: l =>
    match columnsOfArg a with
    | .error p => .error p
    | .ok cs =>
      match toColumnsLoop l with
      | .error p => .error p
      | .ok rest => .ok (cs ++ rest)

/-- builder/builder.go:73-117 `ToColumns`. In the `[]string` case (:84-89) the recursive
call receives strings only, so it never takes the slice cases again. -/
def toColumns (values : List Any) : Go (List Column) :=
  match values with
  | [.columns l] =>
    if l.any Column.isEmpty then Go.panic "loukoum: given column is undefined" else .ok l
  | [.val (.slice .string l)] => toColumnsLoop (l.map .val)
  | vs => toColumnsLoop vs

/-- Go type switch case `stmt.SelectExpression` (builder/builder.go:148). -/
def Any.asSelExpr : Any → Option SelExpr
  | .selExpr .nil => none
  | .selExpr s => some s
  | .expr (.raw s) => some (.raw s)
  | .expr (.exist e) => some (.exist e)
  | .expr (.notExist e) => some (.notExist e)
  | _ => none

/-- builder/builder.go:148-153: a select expression is kept unless it is empty. -/
def selectsOfSelExpr (s : SelExpr) : Go (List SelExpr) :=
  match s.isEmpty with
  | .error p => .error p
  | .ok true => Go.panic "loukoum: given column is undefined"
  | .ok false => .ok [s]

/-- builder/builder.go:154-161: the columns named by a string. -/
def selectsOfString (s : Str) : Go (List SelExpr) :=
  match columnsOfString s with
  | .error p => .error p
  | .ok cs => .ok (cs.map .column)

/-- One iteration of builder/builder.go:146-165. -/
def selectsOfArg (a : Any) : Go (List SelExpr) :=
  match a.asSelExpr with
  | some s => selectsOfSelExpr s
  | none =>
    match a with
    | .val (.str s) => selectsOfString s
    | _ => Go.panic "loukoum: cannot use value as column"

/-- The loop of builder/builder.go:146-165. -/
def toSelectExpressionsLoop : List Any → Go (List SelExpr)
  | [] => .ok []
  | a :: l =>
    match selectsOfArg a with
    | .error p => .error p
    | .ok es =>
      match toSelectExpressionsLoop l with
      | .error p => .error p
      | .ok rest => .ok (es ++ rest)

/-- The string held by an element of a `[]string`. -/
def Val.asStr : Val → Str
  | .str s => s
  | _ => []

/-- builder/builder.go:120-168 `ToSelectExpressions` (the `[]string` case :135-140 neither
splits, trims nor checks for emptiness) -/
def toSelectExpressions (values : List Any) : Go (List SelExpr) :=
  match values with
  | [.selExprs l] => .ok l
  | [.columns l] =>
    if l.any Column.isEmpty then Go.panic "loukoum: given column is undefined"
    else .ok (l.map .column)
  | [.val (.slice .string l)] => .ok (l.map (fun v => .column { name := v.asStr }))
  | vs => toSelectExpressionsLoop vs

/-- builder/builder.go:171-188 `ToTable` -/
def toTable (arg : Any) : Go Table :=
  let table : Go Table :=
    match arg with
    | .val (.str s) => .ok { name := s }
    | .table t => .ok t
    | _ => Go.panic "loukoum: cannot use value as table"
  match table with
  | .error p => .error p
  | .ok t => if t.isEmpty then Go.panic "loukoum: given table is undefined" else .ok t

/-- builder/builder.go:191-199 `ToTables` -/
def toTables : List Any → Go (List Table)
  | [] => .ok []
  | a :: l =>
    match toTable a with
    | .error p => .error p
    | .ok t =>
      match toTables l with
      | .error p => .error p
      | .ok ts => .ok (t :: ts)

/-- One iteration of builder/builder.go:206-219; the `stmt.From` case assigns a variable that
is overwritten at line 221 and leaves a nil entry in the table list. -/
def fromItemOf (a : Any) : Go FromItem :=
  match a with
  | .val (.str s) => .ok (.table { name := s })
  | .fromClause _ => .ok .nil
  | .table t => .ok (.table t)
  | .expr (.raw s) => .ok (.raw s)
  | .selExpr (.raw s) => .ok (.raw s)
  | _ => Go.panic "loukoum: cannot use value as from clause"

/-- The loop of builder/builder.go:206-219. -/
def toFromItems : List Any → Go (List FromItem)
  | [] => .ok []
  | a :: l =>
    match fromItemOf a with
    | .error p => .error p
    | .ok i =>
      match toFromItems l with
      | .error p => .error p
      | .ok is => .ok (i :: is)

/-- builder/builder.go:202-227 `ToFrom` -/
def toFrom (args : List Any) : Go (List FromItem) :=
  match toFromItems args with
  | .error p => .error p
  | .ok is => if is.isEmpty then Go.panic "loukoum: given from clause is undefined" else .ok is

/-- builder/builder.go:230-249 `ToInto` -/
def toInto (arg : Any) : Go Table :=
  let into : Go Table :=
    match arg with
    | .val (.str s) => .ok { name := s }
    | .into t => .ok t
    | .table t => .ok t
    | _ => Go.panic "loukoum: cannot use value as into clause"
  match into with
  | .error p => .error p
  | .ok t => if t.isEmpty then Go.panic "loukoum: given into clause is undefined" else .ok t

/-- builder/builder.go:252-269 `ToSuffix` -/
def toSuffix (arg : Any) : Go Str :=
  match arg with
  | .val (.str s) | .suffix s =>
    if s.isEmpty then Go.panic "loukoum: given suffix is undefined" else .ok s
  | _ => Go.panic "loukoum: cannot use value as suffix"

/-- builder/builder.go:272-289 `ToPrefix` -/
def toPrefix (arg : Any) : Go Str :=
  match arg with
  | .val (.str s) | .prefix s =>
    if s.isEmpty then Go.panic "loukoum: given prefix is undefined" else .ok s
  | _ => Go.panic "loukoum: cannot use value as prefix"

/-- Decimal digits of `strconv.ParseUint(s, 10, 64)` accumulated from the left; `none`
on any other rune. -/
def parseDigits (acc : Nat) : Str → Option Nat
  | [] => some acc
  | c :: s =>
    if '0'.toNat ≤ c.toNat ∧ c.toNat ≤ '9'.toNat then parseDigits (acc * 10 + (c.toNat - '0'.toNat)) s
    else none

/-- `strconv.ParseInt(s, 10, 64)` (Go library; used at builder/builder.go:315); `none` is an
error (syntax or range). -/
def parseInt64 (s : Str) : Option Int :=
  let sign : Bool × Str :=
    match s with
    | '+' :: r => (false, r)
    | '-' :: r => (true, r)
    | r => (false, r)
  match sign with
  | (_, []) => none
  | (neg, ds) =>
    match parseDigits 0 ds with
    | none => none
    | some n =>
      if neg then (if n ≤ 2 ^ 63 then some (-(n : Int)) else none)
      else (if n < 2 ^ 63 then some (n : Int) else none)

/-- builder/builder.go:292-321 `ToInt64`; `none` is `(0, false)`. -/
def toInt64 (value : Any) : Option Int :=
  match value with
  | .val (.int .int64 n) => some n
  | .val (.int .int n) => some (toInt64Wrap n)
  | .val (.int .int8 n) => some (toInt64Wrap n)
  | .val (.int .int16 n) => some (toInt64Wrap n)
  | .val (.int .int32 n) => some (toInt64Wrap n)
  | .val (.uint .uint8 n) => some (toInt64Wrap n)
  | .val (.uint .uint16 n) => some (toInt64Wrap n)
  | .val (.uint .uint32 n) => some (toInt64Wrap n)
  | .val (.uint .uint64 n) => if n ≤ 2 ^ 63 - 1 then some (toInt64Wrap n) else none
  | .val (.str s) => parseInt64 s
  | _ => none

/-- builder/builder.go:358-372 `ToLimit` -/
def toLimit (arg : Any) : Go Int :=
  match arg with
  | .limit n => .ok n
  | a =>
    match toInt64 a with
    | none => Go.panic "loukoum: cannot use value as limit"
    | some n => if n ≤ 0 then Go.panic "loukoum: limit must be a positive integer" else .ok n

/-- builder/builder.go:375-389 `ToOffset` -/
def toOffset (arg : Any) : Go Int :=
  match arg with
  | .offset n => .ok n
  | a =>
    match toInt64 a with
    | none => Go.panic "loukoum: cannot use value as offset"
    | some n => if n < 0 then Go.panic "loukoum: offset must be a non-negative integer" else .ok n

/-! ## SET arguments -/

/-- builder/builder.go:334, :338, :341: one key-value pair. -/
def addPair (set : PairContainer) (key value : Any) : Go PairContainer :=
  match toColumn key with
  | .error p => .error p
  | .ok c =>
    match newWrapped value with
    | .error p => .error p
    | .ok e => set.add c e

/-- builder/builder.go:333-335 and :337-339: the entries of a map in iteration order. -/
def addPairs (set : PairContainer) : List (Any × Any) → Go PairContainer
  | [] => .ok set
  | (k, v) :: l =>
    match addPair set k v with
    | .error p => .error p
    | .ok set' => addPairs set' l

/-- builder/builder.go:329-331 -/
def setColumns (set : PairContainer) : List Column → Go PairContainer
  | [] => .ok set
  | c :: l =>
    match set.set c with
    | .error p => .error p
    | .ok set' => setColumns set' l

/-- One iteration of builder/builder.go:325-345. -/
def mergeSetArg (set : PairContainer) (arg : Any) : Go PairContainer :=
  match arg with
  | .val (.str s) =>
    match toColumns [.val (.str s)] with
    | .error p => .error p
    | .ok cs => setColumns set cs
  | .selExpr (.column c) =>
    match toColumns [.selExpr (.column c)] with
    | .error p => .error p
    | .ok cs => setColumns set cs
  | .strMap _ entries => addPairs set (entries.map (fun kv => (.val (.str kv.1), kv.2)))
  | .anyMap entries => addPairs set entries
  | .pair k v => addPair set k v
  | _ => Go.panic "loukoum: cannot use value as pair"

/-- builder/builder.go:324-347 `MergeSet` -/
def mergeSet (set : PairContainer) : List Any → Go PairContainer
  | [] => .ok set
  | a :: l =>
    match mergeSetArg set a with
    | .error p => .error p
    | .ok set' => mergeSet set' l

/-- builder/builder.go:350-355 `ToSet` -/
def toSet (args : List Any) : Go PairContainer :=
  mergeSet { PairContainer.new with mode := .associative } args

end Verif
