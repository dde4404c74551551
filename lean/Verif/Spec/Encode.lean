import Verif.Spec.Compare
import Verif.Spec.Embed
import Verif.Model.Construct

/-!
# How a Go value is used in a query
-/

namespace Verif.Spec

/-- The ways in which a value can be used. -/
inductive Way where
  /-- it is an SQL expression -/
  | expression
  /-- it has a type the database driver understands, or is a `driver.Valuer` -/
  | driver
  /-- it is a `time.Time` or points to one -/
  | time
  /-- it has a method `Statement()` -/
  | statement
  /-- it has a method `Int64()` -/
  | int64
  /-- it has a method `Bool()` -/
  | bool
  /-- it has a method `Time()` -/
  | timeMethod
  /-- it has a method `String()` -/
  | string
deriving DecidableEq

/-- All ways, the preferred ones first. -/
def precedence : List Way :=
  [.expression, .driver, .time, .statement, .int64, .bool, .timeMethod, .string]

/-- The first way comes before the second one. -/
def Way.before (w w' : Way) : Prop := precedence.idxOf w < precedence.idxOf w'

instance (w w' : Way) : Decidable (w.before w') := inferInstanceAs (Decidable (_ < _))

/-- The types of values taken by the driver: basic types, `[]byte`, `[]int64`, `[]string`,
valuers, and five more types. -/
def DriverType : Val → Prop
  | .str _ | .bytes _ | .bool _ | .int _ _ | .uint _ _ | .float32 _ | .float64 _ => True
  | .valuerNil _ | .valuerErr _ | .valuerOk _ _ => True
  | .slice k _ => k = .int .int64 ∨ k = .string
  | .opaque ty _ => ty ≠ .other
  | .nil | .time _ _ => False

/-- What is meant when a value is used in a way it allows: an expression, or a panic. Where a type
of the library or of Go has a method `String()`, its text is left open. -/
inductive Offers : Any → Way → Go Expr → Prop where
  | expr {e : Expr} : e ≠ .nil → Offers (.expr e) .expression (.ok e)
  | raw (s : Str) : Offers (.selExpr (.raw s)) .expression (.ok (.raw s))
  | exist (e : Expr) : Offers (.selExpr (.exist e)) .expression (.ok (.exist e))
  | notExist (e : Expr) : Offers (.selExpr (.notExist e)) .expression (.ok (.notExist e))
  | object {o : Obj} {e : Expr} : o.expression = some e → e ≠ .nil →
      Offers (.obj o) .expression (.ok e)
  | objectNil {o : Obj} : o.expression = some .nil →
      Offers (.obj o) .expression (.ok (.wrapper .nil))
  | driver {v : Val} : DriverType v → Offers (.val v) .driver (.ok (.value v))
  | map (id : Nat) (m : List (Str × Any)) :
      Offers (.strMap id m) .driver (.ok (.value (.opaque .mapStringAny id)))
  | valuer {o : Obj} {v : Val} : o.valuer = some v → Offers (.obj o) .driver (.ok (.value v))
  | time (ns : Int) (loc : Nat) : Offers (.val (.time ns loc)) .time (.ok (.value (.time ns loc)))
  | timePtr (ns : Int) (loc : Nat) :
      Offers (.timePtr (some (ns, loc))) .time (.ok (.value (.time ns loc)))
  | timeNil : Offers (.timePtr none) .time (.error .nilDeref)
  | builder (s : SelectStmt) : Offers (.selectB s) .statement (.ok (.select s))
  | otherBuilder : Offers .otherB .statement cannotUse
  | encoder {o : Obj} {e : Expr} : o.statement = some (some e) → e ≠ .nil →
      Offers (.obj o) .statement (.ok e)
  | encoderNil {o : Obj} : o.statement = some (some .nil) → Offers (.obj o) .statement cannotUse
  | encoderOther {o : Obj} : o.statement = some none → Offers (.obj o) .statement cannotUse
  | int64 {o : Obj} {n : Int} : o.int64 = some n → Offers (.obj o) .int64 (.ok (.value (.int .int64 n)))
  | bool {o : Obj} {b : Bool} : o.bool = some b → Offers (.obj o) .bool (.ok (.value (.bool b)))
  | timeMethod {o : Obj} {ns : Int} {loc : Nat} : o.time = some (ns, loc) →
      Offers (.obj o) .timeMethod (.ok (.value (.time ns loc)))
  | string {o : Obj} {s : Str} : o.string = some s → Offers (.obj o) .string (.ok (.value (.str s)))
  | joinType (s : Str) : Offers (.joinType s) .string (.ok (.value (.str s)))
  | timeString (ns : Int) (loc : Nat) (s : Str) :
      Offers (.val (.time ns loc)) .string (.ok (.value (.str s)))
  | timePtrString (t : Option (Int × Nat)) (s : Str) :
      Offers (.timePtr t) .string (.ok (.value (.str s)))
  | builderString (b : SelectStmt) (s : Str) :
      Offers (.selectB b) .string (.ok (.value (.str s)))
  | otherString (s : Str) : Offers .otherB .string (.ok (.value (.str s)))

/-- The nil value, as such or in a variable of an interface type. -/
def IsNull (a : Any) : Prop := a = .val .nil ∨ a = .expr .nil ∨ a = .selExpr .nil

/-- What a value is used as: nil is NULL, other values are used in the first way they allow, and
values that allow none are refused. -/
inductive UsedAs : Any → Go Expr → Prop where
  | null {a : Any} : IsNull a → UsedAs a (.ok (.value .nil))
  | way {a : Any} {w : Way} {r : Go Expr} : ¬ IsNull a → Offers a w r →
      (∀ w' r', w'.before w → ¬ Offers a w' r') → UsedAs a r
  | refused {a : Any} : ¬ IsNull a → (∀ w r, ¬ Offers a w r) → UsedAs a cannotUse

end Verif.Spec
