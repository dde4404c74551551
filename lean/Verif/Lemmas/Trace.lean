import Verif.Spec.Layout

/-!
# Writers as sequences of events

A writer only uses its context through `Write` and `Bind`; what it does is therefore
described by a list of events, whatever the context, possibly ending with a panic.
-/

namespace Verif
open W Spec

/-- What a writer does to its context, one character or one value at a time. -/
inductive Ev where
  | ch (c : Char)
  | bind (v : Val)

/-- Events writing a text. -/
def chs (t : Str) : List Ev := t.map .ch

@[simp] theorem chs_nil : chs [] = [] := rfl
@[simp] theorem chs_append (a b : Str) : chs (a ++ b) = chs a ++ chs b := List.map_append
@[simp] theorem chs_cons (a : Char) (b : Str) : chs (a :: b) = .ch a :: chs b := rfl

/-- Replay events on a context. -/
def Context.run {σ : Type} (C : Context σ) : List Ev → σ → Go σ
  | [], s => .ok s
  | .ch c :: l, s => run C l (C.write [c] s)
  | .bind v :: l, s =>
    match C.bind v s with
    | .error p => .error p
    | .ok s' => run C l s'

/-- Writing two texts is writing their concatenation. -/
structure Context.Additive {σ : Type} (C : Context σ) : Prop where
  write_nil : ∀ s, C.write [] s = s
  write_append : ∀ a b s, C.write (a ++ b) s = C.write b (C.write a s)

theorem Context.run_append {σ : Type} (C : Context σ) (a b : List Ev) (s : σ) :
    C.run (a ++ b) s = match C.run a s with | .error p => .error p | .ok s' => C.run b s' := by
  induction a generalizing s with
  | nil => rfl
  | cons e l ih =>
    cases e with
    | ch c => simp [Context.run, ih]
    | bind v =>
      simp only [List.cons_append, Context.run]
      cases C.bind v s with
      | error p => rfl
      | ok s' => simp [ih]

theorem Context.run_chs {σ : Type} (C : Context σ) (hC : C.Additive) (t : Str) (s : σ) :
    C.run (chs t) s = .ok (C.write t s) := by
  induction t generalizing s with
  | nil => simp [Context.run, hC.write_nil]
  | cons c t ih =>
    rw [chs_cons, Context.run, ih, ← hC.write_append]; rfl

/-- `w` succeeds exactly when `ok`, doing then exactly `t` (up to the context's own
panics); otherwise it panics, after some events. -/
def Denotes (w : W) (ok : Bool) (t : List Ev) : Prop :=
  (ok = true → ∀ (σ : Type) (C : Context σ), C.Additive → ∀ s, w σ C s = C.run t s) ∧
  (ok = false → ∃ (p : Panic) (evs : List Ev), ∀ (σ : Type) (C : Context σ), C.Additive → ∀ s,
    w σ C s = match C.run evs s with | .error q => .error q | .ok _ => .error p)

namespace Denotes

theorem congr {w : W} {o o' : Bool} {t t' : List Ev} (h : Denotes w o t) (ho : o = o')
    (ht : t = t') : Denotes w o' t' := by
  subst ho; subst ht; exact h

theorem skip : Denotes W.skip true [] :=
  ⟨fun _ _ _ _ _ => rfl, fun h => by cases h⟩

theorem text (t : Str) : Denotes (W.text t) true (chs t) :=
  ⟨fun _ _ C hC s => (C.run_chs hC t s).symm, fun h => by cases h⟩

theorem bind (v : Val) : Denotes (W.bind v) true [.bind v] := by
  refine ⟨fun _ σ C hC s => ?_, fun h => by cases h⟩
  simp only [W.bind, Context.run]
  cases C.bind v s <;> rfl

theorem panic (p : Panic) (t : List Ev) : Denotes (W.panic p) false t :=
  ⟨fun h => (by cases h), fun _ => ⟨p, [], fun _ _ _ _ => rfl⟩⟩

theorem seq {a b : W} {oa ob : Bool} {ta tb : List Ev} (ha : Denotes a oa ta)
    (hb : Denotes b ob tb) : Denotes (a ;; b) (oa && ob) (ta ++ tb) := by
  cases oa with
  | false =>
    refine ⟨fun h => (by cases h), fun _ => ?_⟩
    obtain ⟨p, evs, h⟩ := ha.2 rfl
    refine ⟨p, evs, fun σ C hC s => ?_⟩
    simp only [W.seq, h σ C hC s]
    cases C.run evs s <;> rfl
  | true =>
    have h1 := ha.1 rfl
    cases ob with
    | true =>
      refine ⟨fun _ σ C hC s => ?_, fun h => (by cases h)⟩
      simp only [W.seq, h1 σ C hC s, C.run_append]
      cases C.run ta s with
      | error p => rfl
      | ok s' => exact hb.1 rfl σ C hC s'
    | false =>
      refine ⟨fun h => (by cases h), fun _ => ?_⟩
      obtain ⟨p, evs, h⟩ := hb.2 rfl
      refine ⟨p, ta ++ evs, fun σ C hC s => ?_⟩
      simp only [W.seq, h1 σ C hC s, C.run_append]
      cases C.run ta s with
      | error p => rfl
      | ok s' => simp only [h σ C hC s']

theorem ifThen {c : Prop} [Decidable c] {a b : W} {oa ob : Bool} {ta tb : List Ev}
    (ha : Denotes a oa ta) (hb : Denotes b ob tb) :
    Denotes (if c then a else b) (if c then oa else ob) (if c then ta else tb) := by
  split <;> assumption

end Denotes

/-- `if cond { succeed } else { ok }` -/
def okIf (g : Go Bool) (ok : Bool) : Bool :=
  match g with
  | .error _ => false
  | .ok true => true
  | .ok false => ok

namespace Denotes

theorem iteSkip {g : Go Bool} {bl : Bool} {w : W} {ok : Bool} {t : List Ev}
    (hg : ∀ b, g = .ok b → bl = b) (h : Denotes w ok t) :
    Denotes (W.ite g W.skip w) (okIf g ok) (if bl then [] else t) := by
  match g, hg with
  | .error p, _ => exact panic p _
  | .ok true, hg => rw [hg _ rfl]; exact skip
  | .ok false, hg => rw [hg _ rfl]; exact h

theorem itePanic {g : Go Bool} {bl : Bool} {p : Panic} {w : W} {ok : Bool} {t : List Ev}
    (hg : ∀ b, g = .ok b → bl = b) (he : ∀ p, g = .error p → ok = false) (h : Denotes w ok t) :
    Denotes (W.ite g (W.panic p) w) (!bl && ok) t := by
  match g, hg, he with
  | .error q, _, he => rw [he _ rfl, Bool.and_false]; exact panic q _
  | .ok true, hg, _ => rw [hg _ rfl]; exact panic p _
  | .ok false, hg, _ => rw [hg _ rfl, Bool.not_false, Bool.true_and]; exact h

end Denotes

section
variable [GoRuntime]

/-- The events of a piece. -/
def Spec.Piece.evs : Piece → List Ev
  | .sql t => chs t
  | .name s => chs (quote s)
  | .raw t => chs t
  | .note c => chs (s%"; -- " ++ c)
  | .val .nil => chs s%"NULL"
  | .val v => [.bind v]

/-- The events of a list of pieces. -/
def evs (l : List Piece) : List Ev := l.flatMap Piece.evs

@[simp] theorem evs_nil : evs [] = [] := rfl
@[simp] theorem evs_cons (p : Piece) (l : List Piece) : evs (p :: l) = p.evs ++ evs l := rfl
@[simp] theorem evs_append (a b : List Piece) : evs (a ++ b) = evs a ++ evs b := by
  simp [evs]

end

end Verif
