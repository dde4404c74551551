import Verif.Model.Format

/-!
# `types/context.go`: contexts and writers.
-/

namespace Verif

/-- types/context.go:11-14 `Context`: an object with state `σ` and two methods.
`Write` on a `strings.Builder` never returns an error (Go library), so the panic of
types/context.go:24-26 cannot occur; `Bind` may panic. -/
structure Context (σ : Type) where
  write : Str → σ → σ
  bind : Val → σ → Go σ

/-- A writer: the effect of a `Write(ctx types.Context)` method, for any context. -/
def W : Type 1 := ∀ (σ : Type), Context σ → σ → Go σ

namespace W

/-- Go statement sequence. -/
def seq (a b : W) : W := fun σ C s =>
  match a σ C s with
  | .error p => .error p
  | .ok s' => b σ C s'

@[inherit_doc] infixr:60 " ;; " => W.seq

/-- `ctx.Write(t)` -/
def text (t : Str) : W := fun _ C s => .ok (C.write t s)

/-- `ctx.Bind(v)` -/
def bind (v : Val) : W := fun _ C s => C.bind v s

/-- no statement -/
def skip : W := fun _ _ s => .ok s

/-- a panic -/
def panic (p : Panic) : W := fun _ _ _ => .error p

/-- `if cond { a } else { b }` where evaluating the condition may panic -/
def ite (cond : Go Bool) (a b : W) : W :=
  match cond with
  | .error p => panic p
  | .ok true => a
  | .ok false => b

end W

/-! ## The three contexts -/

/-- types/context.go:17-19 `RawContext`: the buffer. -/
abbrev RawState := Str

section
variable [GoRuntime]

/-- types/context.go:22-32 `RawContext.Write`, `RawContext.Bind` -/
def rawContext : Context RawState where
  write t buf := buf ++ t
  bind v buf :=
    match formatValue v with
    | .error p => .error p
    | .ok t => .ok (buf ++ t)

end

/-- types/context.go:40-43 `NamedContext`: the buffer and the values; `none` is the
nil map. The map is an association list; assigning an existing key replaces it. -/
structure NamedState where
  buf : Str
  values : Option (List (Str × Val))

/-- Go map assignment `m[k] = v` on an association list. -/
def mapAssign {κ ν : Type} [DecidableEq κ] (k : κ) (v : ν) : List (κ × ν) → List (κ × ν)
  | [] => [(k, v)]
  | (k', v') :: m => if k' = k then (k, v) :: m else (k', v') :: mapAssign k v m

/-- types/context.go:46-54 `NamedContext.Bind` (and the embedded `Write`, :22-27) -/
def namedContext : Context NamedState where
  write t st := { st with buf := st.buf ++ t }
  bind v st :=
    let values := st.values.getD []
    let idx := values.length + 1
    let name := s%"arg_" ++ formatNat idx
    .ok { buf := st.buf ++ (s%":" ++ name), values := some (mapAssign name v values) }

/-- types/context.go:62-65 `StdContext` -/
structure StdState where
  buf : Str
  values : List Val

/-- types/context.go:68-72 `StdContext.Bind` (and the embedded `Write`, :22-27) -/
def stdContext : Context StdState where
  write t st := { st with buf := st.buf ++ t }
  bind v st :=
    let idx := st.values.length + 1
    .ok { buf := st.buf ++ (s%"$" ++ formatNat idx), values := st.values ++ [v] }

/-- builder/select.go:257-261 `String` (same text at builder/insert.go:132-136,
builder/update.go:120-124, builder/delete.go:85-89) -/
def W.string [GoRuntime] (w : W) : Go Str := w RawState rawContext []

/-- builder/select.go:264-268 `NamedQuery` (same at builder/insert.go:139-143,
builder/update.go:127-131, builder/delete.go:92-96) -/
def W.namedQuery (w : W) : Go (Str × Option (List (Str × Val))) :=
  match w NamedState namedContext ⟨[], none⟩ with
  | .error p => .error p
  | .ok st => .ok (st.buf, st.values)

/-- builder/select.go:271-275 `Query` (same at builder/insert.go:146-150,
builder/update.go:134-138, builder/delete.go:99-103) -/
def W.query (w : W) : Go (Str × List Val) :=
  match w StdState stdContext ⟨[], []⟩ with
  | .error p => .error p
  | .ok st => .ok (st.buf, st.values)

end Verif
