import Verif.Spec.Encode
import Verif.Props.Compare
import Verif.Props.Placeholders

/-!
# C50: how values of user types are used
-/

set_option linter.unusedSectionVars false

namespace Verif.Props
open Spec

private theorem isNil_iff (a : Any) : a.isNil = true ↔ IsNull a := by
  unfold Any.isNil IsNull
  split <;> simp_all

private theorem accepted_iff {v : Val} (h : v ≠ .nil) (ht : ∀ ns loc, v ≠ .time ns loc) :
    v.accepted = true ↔ DriverType v := by
  cases v with
  | slice k l =>
    cases k with
    | int k => cases k <;> simp [Val.accepted, DriverType]
    | _ => simp [Val.accepted, DriverType]
  | «opaque» ty id => cases ty <;> simp [Val.accepted, DriverType]
  | time ns loc => exact absurd rfl (ht ns loc)
  | nil => exact absurd rfl h
  | _ => simp [Val.accepted, DriverType]

private theorem embedded_eq {o : Option Expr} {e : Expr} (h : o = some e) :
    embedded o = some (if absent e then .wrapper .nil else e) := by
  subst h
  cases e <;> rfl

private theorem obj_first {o : Obj} {w : Way} (h : ∀ w' r', w'.before w → ¬ Offers (.obj o) w' r') :
    (Way.before .expression w → o.expression = none) ∧
    (Way.before .driver w → o.valuer = none) ∧
    (Way.before .statement w → o.statement = none) ∧
    (Way.before .int64 w → o.int64 = none) ∧
    (Way.before .bool w → o.bool = none) ∧
    (Way.before .timeMethod w → o.time = none) := by
  refine ⟨?_, ?_, ?_, ?_, ?_, ?_⟩
  all_goals intro hb
  · cases he : o.expression with
    | none => rfl
    | some e =>
      by_cases hn : e = .nil
      · subst hn; exact (h _ _ hb (.objectNil he)).elim
      · exact (h _ _ hb (.object he hn)).elim
  · cases he : o.valuer with
    | none => rfl
    | some e => exact (h _ _ hb (.valuer he)).elim
  · cases he : o.statement with
    | none => rfl
    | some e =>
      cases e with
      | none => exact (h _ _ hb (.encoderOther he)).elim
      | some e =>
        by_cases hn : e = .nil
        · subst hn; exact (h _ _ hb (.encoderNil he)).elim
        · exact (h _ _ hb (.encoder he hn)).elim
  · cases he : o.int64 with
    | none => rfl
    | some e => exact (h _ _ hb (.int64 he)).elim
  · cases he : o.bool with
    | none => rfl
    | some e => exact (h _ _ hb (.bool he)).elim
  · cases he : o.time with
    | none => rfl
    | some e => exact (h _ _ hb (.timeMethod (ns := e.1) (loc := e.2) he)).elim

private theorem used_unique {a : Any} {r : Go Expr} (h : UsedAs a r) : newExpression a = r := by
  cases h with
  | null h =>
    unfold newExpression
    rw [if_pos ((isNil_iff a).2 h)]
  | way hn ho hb =>
    have hn' : a.isNil = false := by
      cases h : a.isNil with
      | false => rfl
      | true => exact absurd ((isNil_iff a).1 h) hn
    unfold newExpression
    rw [hn']
    cases ho with
    | expr he =>
      rename_i e
      cases e <;> first | exact absurd rfl he | rfl
    | raw => rfl
    | exist => rfl
    | notExist => rfl
    | object h1 h2 =>
      rename_i o e
      simp only [Any.asExpr, embedded_eq h1]
      cases e <;> first | exact absurd rfl h2 | rfl
    | objectNil h1 =>
      simp only [Any.asExpr, embedded_eq h1]
      rfl
    | driver hd =>
      rename_i v
      have h1 : v ≠ .nil := by intro h; subst h; exact hd
      have h2 : ∀ ns loc, v ≠ .time ns loc := by intro ns loc h; subst h; exact hd
      simp [Any.asExpr, (accepted_iff h1 h2).2 hd]
    | map => rfl
    | time => rfl
    | timePtr => rfl
    | timeNil => rfl
    | builder => rfl
    | otherBuilder => rfl
    | joinType => rfl
    | timeString ns loc s => exact (hb .time _ (by decide) (.time ns loc)).elim
    | timePtrString t s =>
      cases t with
      | none => exact (hb .time _ (by decide) .timeNil).elim
      | some t => exact (hb .time _ (by decide) (.timePtr t.1 t.2)).elim
    | builderString b s => exact (hb .statement _ (by decide) (.builder b)).elim
    | otherString s => exact (hb .statement _ (by decide) .otherBuilder).elim
    | valuer h1 =>
      obtain ⟨p1, -⟩ := obj_first hb
      simp [Any.asExpr, p1 (by decide), embedded, h1]
    | encoder h1 h2 =>
      rename_i o e
      obtain ⟨p1, p2, -⟩ := obj_first hb
      simp only [Any.asExpr, p1 (by decide), embedded, p2 (by decide), h1]
      cases e <;> first | exact absurd rfl h2 | rfl
    | encoderNil h1 =>
      obtain ⟨p1, p2, -⟩ := obj_first hb
      simp [Any.asExpr, p1 (by decide), embedded, p2 (by decide), h1]
    | encoderOther h1 =>
      obtain ⟨p1, p2, -⟩ := obj_first hb
      simp [Any.asExpr, p1 (by decide), embedded, p2 (by decide), h1]
    | int64 h1 =>
      obtain ⟨p1, p2, p3, -⟩ := obj_first hb
      simp [Any.asExpr, p1 (by decide), embedded, p2 (by decide), p3 (by decide), h1]
    | bool h1 =>
      obtain ⟨p1, p2, p3, p4, -⟩ := obj_first hb
      simp [Any.asExpr, p1 (by decide), embedded, p2 (by decide), p3 (by decide), p4 (by decide), h1]
    | timeMethod h1 =>
      obtain ⟨p1, p2, p3, p4, p5, -⟩ := obj_first hb
      simp [Any.asExpr, p1 (by decide), embedded, p2 (by decide), p3 (by decide), p4 (by decide),
        p5 (by decide), h1]
    | string h1 =>
      obtain ⟨p1, p2, p3, p4, p5, p6⟩ := obj_first hb
      simp [Any.asExpr, p1 (by decide), embedded, p2 (by decide), p3 (by decide), p4 (by decide),
        p5 (by decide), p6 (by decide), h1]
  | refused hn ho =>
    have hn' : a.isNil = false := by
      cases h : a.isNil with
      | false => rfl
      | true => exact absurd ((isNil_iff a).1 h) hn
    unfold newExpression
    rw [hn']
    cases a with
    | val v =>
      have h1 : v ≠ .nil := by intro h; subst h; exact hn (.inl rfl)
      have h2 : ∀ ns loc, v ≠ .time ns loc := by intro ns loc h; subst h; exact ho _ _ (.time ..)
      have h3 : ¬ DriverType v := fun h => ho _ _ (.driver h)
      have h4 : v.accepted = false := by
        rw [← Bool.not_eq_true, accepted_iff h1 h2]; exact h3
      simp [Any.asExpr, h4]
    | expr e =>
      by_cases h : e = .nil
      · exact absurd (by rw [h]; exact .inr (.inl rfl)) hn
      · exact (ho _ _ (.expr h)).elim
    | selExpr e =>
      cases e with
      | nil => exact absurd (.inr (.inr rfl)) hn
      | raw s => exact (ho _ _ (.raw s)).elim
      | exist s => exact (ho _ _ (.exist s)).elim
      | notExist s => exact (ho _ _ (.notExist s)).elim
      | _ => rfl
    | timePtr t => exact (ho _ _ (.timePtrString t [])).elim
    | strMap id m => exact (ho _ _ (.map id m)).elim
    | selectB b => exact (ho _ _ (.builder b)).elim
    | otherB => exact (ho _ _ .otherBuilder).elim
    | joinType t => exact (ho _ _ (.joinType t)).elim
    | obj o =>
      obtain ⟨p1, p2, p3, p4, p5, p6⟩ := obj_first (w := .string) fun w' r' _ => ho w' r'
      have p7 : o.string = none := by
        cases he : o.string with
        | none => rfl
        | some s => exact (ho _ _ (.string he)).elim
      simp [Any.asExpr, p1 (by decide), embedded, p2 (by decide), p3 (by decide), p4 (by decide),
        p5 (by decide), p6 (by decide), p7]
    | _ => rfl

private theorem first_way {a : Any} : ∀ (n : Nat) (w : Way) (r : Go Expr), precedence.idxOf w < n →
    Offers a w r → ∃ w r, Offers a w r ∧ ∀ w' r', w'.before w → ¬ Offers a w' r'
  | 0, _, _, h, _ => absurd h (Nat.not_lt_zero _)
  | n + 1, w, r, h, ho => by
    by_cases hm : ∃ w' r', w'.before w ∧ Offers a w' r'
    · obtain ⟨w', r', hb, ho'⟩ := hm
      exact first_way n w' r' (by unfold Way.before at hb; omega) ho'
    · exact ⟨w, r, ho, fun w' r' hb ho' => hm ⟨w', r', hb, ho'⟩⟩

/-- C50. A value is used in the first of the ways it allows, in the order: expression, driver
value, time, statement, `Int64()`, `Bool()`, `Time()`, `String()`; nil is NULL; a value that allows
no way is refused, and so is one whose statement is not an expression. -/
theorem C50_precedence (a : Any) (r : Go Expr) : newExpression a = r ↔ UsedAs a r := by
  constructor
  · intro h
    have : ∃ r', UsedAs a r' := by
      by_cases hn : IsNull a
      · exact ⟨_, .null hn⟩
      · by_cases hw : ∃ w r, Offers a w r
        · obtain ⟨w, r, ho⟩ := hw
          obtain ⟨w, r, ho, hb⟩ := first_way _ w r (Nat.lt_succ_self _) ho
          exact ⟨r, .way hn ho hb⟩
        · exact ⟨_, .refused hn fun w r ho => hw ⟨w, r, ho⟩⟩
    obtain ⟨r', hr⟩ := this
    rw [← h, used_unique hr]
    exact hr
  · exact used_unique

/-- An expression made of a value by one of the functions that take a value of any type. -/
inductive MadeOf (a : Any) : Expr → Prop where
  | compareIdent {i : Ident} {m : Cmp} {e : Expr} : onIdent i m a = .ok e → MadeOf a e
  | compareValue {v : Val} {m : Cmp} {f : Any → Go Expr} {e : Expr} : onValue v m = some f →
      f a = .ok e → MadeOf a e
  | compareCall {g : Str} {l : List Expr} {m : Cmp} {f : Any → Go Expr} {e : Expr} :
      onCall g l m = some f → f a = .ok e → MadeOf a e
  | member {i : Ident} {l : List Any} {e : Expr} : a ∈ l → i.In l = .ok e → MadeOf a e
  | notMember {i : Ident} {l : List Any} {e : Expr} : a ∈ l → i.NotIn l = .ok e → MadeOf a e
  | memberCall {g : Str} {args : List Expr} {l : List Any} {e : Expr} : a ∈ l →
      callIn g args l = .ok e → MadeOf a e
  | betweenLow {i : Ident} {b : Any} {e : Expr} : i.Between a b = .ok e → MadeOf a e
  | betweenHigh {i : Ident} {b : Any} {e : Expr} : i.Between b a = .ok e → MadeOf a e
  | notBetweenLow {i : Ident} {b : Any} {e : Expr} : i.NotBetween a b = .ok e → MadeOf a e
  | notBetweenHigh {i : Ident} {b : Any} {e : Expr} : i.NotBetween b a = .ok e → MadeOf a e
  | exist {e : Expr} : newExists a = .ok e → MadeOf a e
  | notExist {e : Expr} : newNotExists a = .ok e → MadeOf a e


private theorem wrapped_in {s : SelectStmt} {left e : Expr} {op : Str}
    (h : compareWrapped left op (.selectB s) = .ok e) : InE s e := by
  cases h
  exact .infxR (.wrapper .here)

private theorem plain_in {s : SelectStmt} {left e : Expr} {op : Str}
    (h : comparePlain left op (.selectB s) = .ok e) : InE s e := by
  cases h
  exact .infxR .here

theorem appendAll_in {s : SelectStmt} : ∀ {l : List Any} {es : List Expr}, .selectB s ∈ l →
    appendAll l = .ok es → .select s ∈ es
  | a :: l, es, hm, h => by
    unfold appendAll at h
    split at h
    · cases h
    · next e he =>
      split at h
      · cases h
      · next es' hes =>
        cases h
        rcases List.mem_cons.1 hm with rfl | hm
        · cases he
          exact List.mem_cons_self
        · exact List.mem_cons_of_mem _ (appendAll_in hm hes)

theorem array_in {s : SelectStmt} {l : List Any} {e : Expr} (hm : .selectB s ∈ l)
    (h : newArrayExpression l = .ok e) : InE s e ∧ blank e = false := by
  unfold newArrayExpression at h
  split at h
  · cases List.mem_singleton.1 hm
    cases h
    exact ⟨.array List.mem_cons_self .here, rfl⟩
  · split at h
    · cases h
    · next es hes =>
      cases h
      have := appendAll_in hm hes
      refine ⟨.array this .here, ?_⟩
      cases es with
      | nil => cases this
      | cons e es => rfl

/-- C50. A SELECT builder given as a value to any comparison, IN, BETWEEN or EXISTS becomes a
sub-select of the resulting expression. -/
theorem C50_builder (s : SelectStmt) (e : Expr) (h : MadeOf (.selectB s) e) : InE s e := by
  cases h with
  | compareIdent h =>
    rename_i i m
    cases m <;> first | exact wrapped_in h | exact plain_in h
  | compareValue h1 h2 =>
    rename_i v m f
    cases m <;> cases h1 <;> first | exact wrapped_in h2 | exact plain_in h2
  | compareCall h1 h2 =>
    rename_i g l m f
    cases m <;> cases h1 <;> first | exact wrapped_in h2 | exact plain_in h2
  | member hm h =>
    unfold Ident.In at h
    split at h
    · cases h
    · next a ha =>
      cases h
      obtain ⟨h1, h2⟩ := array_in hm ha
      exact .inxV h1 h2
  | notMember hm h =>
    unfold Ident.NotIn at h
    split at h
    · cases h
    · next a ha =>
      cases h
      obtain ⟨h1, h2⟩ := array_in hm ha
      exact .inxV h1 h2
  | memberCall hm h =>
    unfold callIn at h
    split at h
    · cases h
    · next a ha =>
      cases h
      obtain ⟨h1, h2⟩ := array_in hm ha
      exact .inxV h1 h2
  | betweenLow h =>
    unfold Ident.Between at h
    split at h
    · cases h
    · next hl =>
      split at h
      · cases h
      · cases h
        cases hl
        exact .betweenLo .here
  | betweenHigh h =>
    unfold Ident.Between at h
    split at h
    · cases h
    · split at h
      · cases h
      · next hl =>
        cases h
        cases hl
        exact .betweenHi .here
  | notBetweenLow h =>
    unfold Ident.NotBetween at h
    split at h
    · cases h
    · next hl =>
      split at h
      · cases h
      · cases h
        cases hl
        exact .betweenLo .here
  | notBetweenHigh h =>
    unfold Ident.NotBetween at h
    split at h
    · cases h
    · split at h
      · cases h
      · next hl =>
        cases h
        cases hl
        exact .betweenHi .here
  | exist h => cases h; exact .exist .here
  | notExist h => cases h; exact .notExist .here

section
variable [GoRuntime]

/-- C50. So the builder is never bound as its own SQL text: in a query whose WHERE clause holds the
expression, the fragments of the builder's query appear in the text with their placeholders
numbered on, and its arguments appear among the arguments. -/
theorem C50_builder_query (s : SelectStmt) (e : Expr) (h : MadeOf (.selectB s) e)
    (q : SelectStmt) (hq : q.whr = e) (hb : blank e = false) (text : Str) (args : List Val)
    (ht : q.write.query = .ok (text, args)) :
    ∃ (frags : List Str) (innerArgs before after : List Val) (pre post : Str),
      frags.length = innerArgs.length + 1 ∧
      s.write.query = .ok (weave frags (dollars 1 innerArgs.length), innerArgs) ∧
      text = pre ++ weave frags (dollars (before.length + 1) innerArgs.length) ++ post ∧
      args = before ++ innerArgs ++ after :=
  C51_embedding s (.select q)
    (.select (.select (.whr (by rw [hq]; exact C50_builder s e h) (by rw [hq]; exact hb)))) text args ht

end

/-! ## Concrete cases -/

/-- An object with the methods `Bool()`, `Time()` and `String()` is used as a boolean. -/
example : newExpression (.obj { bool := some true, time := some (0, 0), string := some s%"x" })
    = .ok (.value (.bool true)) := rfl

/-- The hypotheses of the `way` case are met by this object. -/
example : UsedAs (.obj { bool := some true, time := some (0, 0), string := some s%"x" })
    (.ok (.value (.bool true))) := (C50_precedence _ _).1 rfl

/-- A valuer with a method `Statement()` is bound as a valuer. -/
example : newExpression (.obj { valuer := some (.valuerOk 1 (.str s%"v")), statement := some none })
    = .ok (.value (.valuerOk 1 (.str s%"v"))) := rfl

/-- An object that embeds an expression is that expression, whatever else it can do. -/
example : newExpression (.obj {
      expression := some (.raw s%"now()"), valuer := some (.valuerNil 1) }) = .ok (.raw s%"now()") := rfl

/-- An object whose statement is not an expression is refused although it has a method
`String()`. -/
example : newExpression (.obj { statement := some none, string := some s%"x" }) = cannotUse := rfl

/-- A slice of booleans, a table and an INSERT builder are refused. -/
example : newExpression (.val (.slice .bool [])) = cannotUse ∧
    newExpression (.table { name := s%"t" }) = cannotUse ∧ newExpression .otherB = cannotUse :=
  ⟨rfl, rfl, rfl⟩

section
attribute [local instance] Runtime.sample

/-- A builder as element of IN beside a value. -/
example : (do
    let e ← (Ident.str s%"id").In [.val (.int .int 7), .selectB Sample.groups]
    let q ← (← select [.val (.str s%"a")]).From [.val (.str s%"t")]
    (← q.Where e).write.query) = .ok
      (s%"SELECT \"a\" FROM \"t\" WHERE (\"id\" IN ($1, SELECT \"id\" FROM \"groups\" " ++
        s%"WHERE (\"active\" = $2)))", [.int .int 7, .bool true]) := by
  rfl

end

end Verif.Props
