import Verif.Lemmas.Fault
import Verif.Lemmas.PanicCalls
import Verif.Spec.Program
import Verif.Model.Runtime

/-!
# C72: panics are loukoum's own

Wrong use is answered with `panic("loukoum: ...")`. This fails for a few arguments, which end in a
nil dereference or an index out of range instead.
-/

set_option linter.unusedSectionVars false

namespace Verif.Props
open Spec

/-- None of the three renderings ends in a panic of the Go runtime. -/
def RendersOwn [GoRuntime] (s : Stmt) : Prop :=
  (∀ p, s.write.query = .error p → ∃ m, p = .msg m) ∧
  (∀ p, s.write.namedQuery = .error p → ∃ m, p = .msg m) ∧
  ∀ p, s.write.string = .error p → ∃ m, p = .msg m

/-- A panic of the Go runtime. -/
def Crashes {α : Type} (x : Go α) : Prop := ∃ p, x = .error p ∧ ∀ m, p ≠ .msg m

section
variable [GoRuntime]

/-- C72, rendering: a statement without a nil where an expression is needed is rendered, or refused
with a message. -/
theorem C72_render (s : Stmt) (h : noHoleStmt s = true) : RendersOwn s := by
  have hw := own_stmt s h
  refine ⟨fun p hp => ?_, fun p hp => ?_, fun p hp => ?_⟩
  · have := hw _ _ ⟨[], []⟩ std_own
    unfold W.query at hp
    split at hp
    · rename_i hx; rw [hx] at this; cases hp; exact this
    · cases hp
  · have := hw _ _ ⟨[], none⟩ named_own
    unfold W.namedQuery at hp
    split at hp
    · rename_i hx; rw [hx] at this; cases hp; exact this
    · cases hp
  · have := hw _ _ [] raw_own
    rw [show s.write _ rawContext [] = s.write.string from rfl, hp] at this
    exact this

/-- C72, rendering, exactly: each of the three renderings ends in the first fault of the statement, in
the order of the text, and succeeds if there is none. The faults are those of `Spec.Fault`: `String` has
in addition those of values that cannot be formatted. -/
theorem C72_render_exact (s : Stmt) (p : Panic) :
    (s.write.query = .error p ↔ (faultsStmt (fun _ => []) s).head? = some p) ∧
    (s.write.namedQuery = .error p ↔ (faultsStmt (fun _ => []) s).head? = some p) ∧
    (s.write.string = .error p ↔ (faultsStmt valueFaults s).head? = some p) := by
  refine ⟨?_, ?_, ?_⟩
  · have h := faulty_stmt std_faulty s ⟨[], []⟩
    unfold W.query
    cases hf : faultsStmt (fun _ => []) s with
    | nil => rw [hf] at h; obtain ⟨t, ht⟩ := h; rw [ht]; simp
    | cons q l =>
      rw [hf] at h
      rw [show s.write StdState stdContext ⟨[], []⟩ = .error q from h]
      simp
  · have h := faulty_stmt named_faulty s ⟨[], none⟩
    unfold W.namedQuery
    cases hf : faultsStmt (fun _ => []) s with
    | nil => rw [hf] at h; obtain ⟨t, ht⟩ := h; rw [ht]; simp
    | cons q l =>
      rw [hf] at h
      rw [show s.write NamedState namedContext ⟨[], none⟩ = .error q from h]
      simp
  · have h := faulty_stmt raw_faulty s []
    unfold W.string
    cases hf : faultsStmt valueFaults s with
    | nil => rw [hf] at h; obtain ⟨t, ht⟩ := h; rw [ht]; simp
    | cons q l =>
      rw [hf] at h
      rw [show s.write RawState rawContext [] = .error q from h]
      simp

/-- C72, rendering: a crash is the call of a nil, and happens just when that is the first fault. -/
theorem C72_render_crash (s : Stmt) :
    RendersOwn s ↔ (faultsStmt (fun _ => []) s).head? ≠ some .nilDeref ∧
      (faultsStmt valueFaults s).head? ≠ some .nilDeref := by
  rw [← noIndex_head (noIndex_stmt (fun _ => noIndex_nil) s), ← noIndex_head (noIndex_stmt noIndex_value s)]
  unfold RendersOwn
  simp only [C72_render_exact]
  exact ⟨fun h => ⟨h.1, h.2.2⟩, fun h => ⟨h.1, h.1, h.2⟩⟩

/-- What C72 says of building a statement: it is built or refused with a message, and what is built
is rendered or refused with a message. (The second part says that it can be used in its turn as an
argument.) -/
def Builds {α : Type} (stmt : α → Stmt) (x : Go α) : Prop :=
  Deliberate (fun b => RendersOwn (stmt b) ∧ noHoleStmt (stmt b) = true) x

theorem builds_of {α C : Type} {stmt : α → Stmt} {apply : C → α → Go α} {sound : C → Prop}
    (h : ∀ c b, noHoleStmt (stmt b) = true → sound c →
      Deliberate (fun b => noHoleStmt (stmt b) = true) (apply c b)) {x : Go α}
    (hx : Deliberate (fun b => noHoleStmt (stmt b) = true) x) {calls : List C}
    (hc : ∀ c ∈ calls, sound c) : Builds stmt (x >>= runAll apply calls) := by
  cases x with
  | error p => exact hx
  | ok b =>
    exact deliberate_mono (runAll_deliberate (P := fun b => noHoleStmt (stmt b) = true) h hx hc)
      fun b hb => ⟨C72_render _ hb, hb⟩

/-- C72, what holds: a program whose arguments contain no nil that would be called, no `stmt.From`
value, no `Values` without arguments and no join string that ends after `AND` or `OR` and a name or has
no comparison, never ends in a panic of the Go runtime, neither while it is built nor when it is
rendered. What is missing from C72 are these arguments (`C72_false`, `C72_join`). -/
theorem C72_partial :
    (∀ (columns : List Any) (calls : List SelCall), (∀ a ∈ columns, Sound a) →
      (∀ c ∈ calls, c.sound) → Builds .select (select columns >>= runAll SelCall.apply calls)) ∧
    (∀ (into : Any) (calls : List InsCall), (∀ c ∈ calls, c.sound) →
      Builds .insert (insert into >>= runAll InsCall.apply calls)) ∧
    (∀ (table : Any) (calls : List UpdCall), (∀ c ∈ calls, c.sound) →
      Builds .update (update table >>= runAll UpdCall.apply calls)) ∧
    (∀ (table : Any) (calls : List DelCall), Sound table → (∀ c ∈ calls, c.sound) →
      Builds .delete (delete table >>= runAll DelCall.apply calls)) := by
  refine ⟨fun columns calls ha hc => ?_, fun into calls hc => ?_, fun table calls hc => ?_,
    fun table calls ha hc => ?_⟩
  · exact builds_of (stmt := .select) (sound := SelCall.sound) (fun _ _ hb hc => selCall_deliberate hb hc)
      (selCall_deliberate (c := .columns columns) (b := .zero) rfl ha) hc
  · exact builds_of (stmt := .insert) (sound := InsCall.sound) (fun _ _ hb hc => insCall_deliberate hb hc)
      (insCall_deliberate (c := .into into) (b := .zero) rfl trivial) hc
  · refine builds_of (stmt := .update) (sound := UpdCall.sound) (fun _ _ hb hc => updCall_deliberate hb hc) ?_ hc
    have := toTable_own table
    unfold update UpdateStmt.new
    split
    · rename_i hx; rw [hx] at this; exact this
    · rfl
  · exact builds_of (stmt := .delete) (sound := DelCall.sound) (fun _ _ hb hc => delCall_deliberate hb hc)
      (delCall_deliberate (c := .from [table]) (b := .zero) rfl (fun a h => by
        rw [List.mem_singleton.1 h]; exact ha)) hc

end

/-- C72, expressions: the comparison methods of columns, values and calls, `In`, `Between`, `Exists`,
`With` and `DoUpdate` give an expression without a nil where one is needed, or refuse with a message. -/
theorem C72_expressions (a b : Any) (l : List Any) (ha : Sound a) (hb : Sound b)
    (hl : ∀ x ∈ l, Sound x) (i : Ident) (v : Val) (f : Str) (args : List Expr)
    (hargs : noHoles args = true) (name : Str) :
    (∀ m ∈ identMethods i ++ valueMethods v ++ callMethods f args,
      Deliberate (fun e => noHole e = true) (m.2 a)) ∧
    (∀ n, Deliberate (fun e => noHole e = true) (i.IsNull n)) ∧
    Deliberate (fun e => noHole e = true) (i.In l) ∧
    Deliberate (fun e => noHole e = true) (i.NotIn l) ∧
    Deliberate (fun e => noHole e = true) (callIn f args l) ∧
    Deliberate (fun e => noHole e = true) (i.Between a b) ∧
    Deliberate (fun e => noHole e = true) (i.NotBetween a b) ∧
    Deliberate (fun e => noHole e = true) (Api.Exists a) ∧
    Deliberate (fun e => noHole e = true) (Api.NotExists a) ∧
    Deliberate (fun w => noHoleWiths [w] = true) (Api.With name a) ∧
    Deliberate Sound (doUpdate l) := by
  have hc : noHole (.call f args) = true := hargs
  have hea := newExpression_deliberate ha
  have heb := newExpression_deliberate hb
  have hel := newArray_deliberate hl
  refine ⟨fun m hm => ?_, fun n => ?_, ?_, ?_, ?_, ?_, ?_, ?_, ?_, ?_, ?_⟩
  · simp only [List.mem_append, identMethods, valueMethods, callMethods, List.mem_cons,
      List.not_mem_nil, or_false, or_assoc] at hm
    rcases hm with rfl | rfl | rfl | rfl | rfl | rfl | rfl | rfl | rfl | rfl | rfl | rfl | rfl | rfl |
      rfl | rfl | rfl | rfl | rfl | rfl | rfl | rfl | rfl | rfl | rfl | rfl | rfl | rfl <;>
    first
    | exact compareWrapped_deliberate rfl ha
    | exact comparePlain_deliberate rfl ha
    | exact compareWrapped_deliberate hc ha
    | exact comparePlain_deliberate hc ha
  · cases n <;> exact comparePlain_deliberate rfl (.val .nil)
  · unfold Ident.In
    split
    · rename_i hx; rw [hx] at hel; exact hel
    · rename_i hx; rw [hx] at hel
      show noHole (.inx _ _ _) = true
      simp only [noHole, opt_of_noHole hel, Bool.and_self]
  · unfold Ident.NotIn
    split
    · rename_i hx; rw [hx] at hel; exact hel
    · rename_i hx; rw [hx] at hel
      show noHole (.inx _ _ _) = true
      simp only [noHole, opt_of_noHole hel, Bool.and_self]
  · unfold callIn
    split
    · rename_i hx; rw [hx] at hel; exact hel
    · rename_i hx; rw [hx] at hel
      show noHole (.inx _ _ _) = true
      rw [noHole, hc, opt_of_noHole hel]; rfl
  · unfold Ident.Between
    split
    · rename_i hx; rw [hx] at hea; exact hea
    · rename_i hx; rw [hx] at hea
      split
      · rename_i hy; rw [hy] at heb; exact heb
      · rename_i hy; rw [hy] at heb
        show noHole (.between _ _ _ _ _) = true
        rw [noHole, opt_of_noHole hea, opt_of_noHole heb]; rfl
  · unfold Ident.NotBetween
    split
    · rename_i hx; rw [hx] at hea; exact hea
    · rename_i hx; rw [hx] at hea
      split
      · rename_i hy; rw [hy] at heb; exact heb
      · rename_i hy; rw [hy] at heb
        show noHole (.between _ _ _ _ _) = true
        rw [noHole, opt_of_noHole hea, opt_of_noHole heb]; rfl
  · unfold Api.Exists newExists
    split
    · rename_i hx; rw [hx] at hea; exact hea
    · rename_i hx; rw [hx] at hea; exact hea
  · unfold Api.NotExists newNotExists
    split
    · rename_i hx; rw [hx] at hea; exact hea
    · rename_i hx; rw [hx] at hea; exact hea
  · unfold Api.With newWithQuery
    split
    · rename_i hx; rw [hx] at hea; exact hea
    · rename_i hx; rw [hx] at hea
      show noHoleWiths [_] = true
      rw [noHoleWiths, opt_of_noHole hea]; rfl
  · have := toSet_deliberate hl
    unfold doUpdate
    split
    · rename_i hx; rw [hx] at this; exact this
    · rename_i hx; rw [hx] at this; exact .conflictUpdate _ this

/-- C72, conditions: combining conditions, nil or not, gives a condition of the kind needed. -/
theorem C72_conditions (l r : Expr) (hl : (absent l || noHole l) = true)
    (hr : (absent r || noHole r) = true) :
    ∀ e ∈ [infixAnd l r, infixOr l r, plainAnd l r, plainOr l r, Api.And l r, Api.Or l r,
      Api.AndOn l r, Api.OrOn l r], noHole e = true := by
  have hw := wrapper_opt hr
  intro e he
  simp only [List.mem_cons, List.not_mem_nil, or_false, Api.And, Api.Or, Api.AndOn, Api.OrOn, plainAnd,
    plainOr, onAnd, onOr, infixAnd, infixOr] at he
  rcases he with rfl | rfl | rfl | rfl | rfl | rfl | rfl | rfl <;> rw [noHole, hl] <;>
    first | rw [hr]; rfl | rw [hw]; rfl

/-! ## The exceptions -/

theorem typeOfItems_ne : ∀ (items : List JoinItem) {type : Str}, (∀ i ∈ items, i.good) → type ≠ [] →
    typeOfItems items type ≠ []
  | [], _, _, h => h
  | i :: l, type, hi, h => by
    have hl : ∀ i ∈ l, i.good := fun x hx => hi x (List.mem_cons_of_mem _ hx)
    cases i with
    | kind k j ty =>
      refine typeOfItems_ne l hl (type := ty) ?_
      rcases (hi (.kind k j ty) (by simp)).1 with ⟨_, rfl⟩ | ⟨_, rfl⟩ | ⟨_, rfl⟩ <;> decide
    | join _ | table _ _ | cond _ _ _ | on _ | paren _ => exact typeOfItems_ne l hl h

theorem not_crashes {α : Type} {P : α → Prop} {x : Go α} (h : Deliberate P x) : ¬ Crashes x := by
  rintro ⟨p, rfl, hm⟩
  obtain ⟨m, rfl⟩ := h
  exact hm m rfl

/-- The texts of join strings that are read as a join without a condition, or not read at all. -/
def JoinHole (table : List JoinItem → Prop) (text : Str) : Prop :=
  ∃ (items : List JoinItem) (rest : List Str) (v : JoinVerdict),
    Spelled (items.flatMap JoinItem.lexemes ++ rest) (text.takeWhile (· ≠ '\x00')) ∧
    (∀ i ∈ items, i.good) ∧ JoinRest (endsInCond false items) rest v ∧
    (v = .crash ∨ v = .accepted ∧ condOfItems items none = none ∧ table items)

theorem addJoin_nil {b : SelectStmt} {j : Join} (ht : j.type ≠ []) (hc : j.cond = .nil) :
    (j.table.name ≠ [] → b.addJoin j = .error .nilDeref) ∧
    (j.table.name = [] → ∃ m, b.addJoin j = .error (.msg m)) := by
  obtain ⟨type, ⟨name, alias, only⟩, cond⟩ := j
  subst hc
  cases type with
  | nil => exact absurd rfl ht
  | cons c cs =>
    cases name with
    | nil => exact ⟨fun h => absurd rfl h, fun _ => ⟨_, rfl⟩⟩
    | cons d ds => exact ⟨fun _ => rfl, nofun⟩

theorem addJoin_crash {b : SelectStmt} {j : Join} (h : noHole j.cond = true) :
    ¬ Crashes (b.addJoin j) := by
  rintro ⟨p, hp, hm⟩
  unfold SelectStmt.addJoin at hp
  split at hp
  · rename_i hx
    exact Go.or_total ok_total (fun _ => Go.or_total ok_total fun _ => isEmpty_total _ h) _ hx
  · exact hm _ (Except.error.inj hp).symm
  · cases hp

theorem joinCall_exact (b : SelectStmt) (text : Str) (table : List JoinItem → Prop)
    (name : Table → Table) (hname : ∀ items, (name { name := tableOfItems items [] }).name ≠ [] ↔ table items)
    {x : Go SelectStmt}
    (hx : x = match mustParseJoin text with
      | .error p => .error p
      | .ok j => b.addJoin { j with table := name j.table }) :
    Crashes x ↔ JoinHole table text := by
  have key : ∀ (items : List JoinItem) (rest : List Str) (v : JoinVerdict),
      Spelled (items.flatMap JoinItem.lexemes ++ rest) (text.takeWhile (· ≠ '\x00')) →
      (∀ i ∈ items, i.good) → JoinRest (endsInCond false items) rest v →
      (Crashes x ↔ v = .crash ∨ v = .accepted ∧ condOfItems items none = none ∧ table items) := by
    intro items rest v hs hi hr
    have ho := C44_exact text items rest v hs hi hr
    subst hx
    unfold mustParseJoin
    cases v with
    | crash =>
      rw [show parseJoin text = .error .index from ho]
      exact ⟨fun _ => .inl rfl, fun _ => ⟨_, rfl, nofun⟩⟩
    | refused =>
      rw [show parseJoin text = .ok none from ho]
      refine ⟨?_, by rintro (h | ⟨h, _⟩) <;> cases h⟩
      rintro ⟨p, hp, hm⟩
      exact absurd (Except.error.inj hp).symm (hm _)
    | accepted =>
      obtain ⟨j, hj, hty, hta, hc, hn⟩ := ho
      rw [hj]
      show Crashes (b.addJoin { j with table := name j.table }) ↔ _
      rw [hta]
      have hne : j.type ≠ [] := by rw [hty]; exact typeOfItems_ne items hi (by decide)
      by_cases hcond : condOfItems items none = none
      · obtain ⟨h1, h2⟩ := addJoin_nil (b := b)
          (j := { j with table := name { name := tableOfItems items [] } }) hne (hn hcond)
        by_cases ht : table items
        · have := h1 ((hname items).2 ht)
          exact ⟨fun _ => .inr ⟨rfl, hcond, ht⟩, fun _ => ⟨_, this, nofun⟩⟩
        · obtain ⟨m, hm⟩ := h2 (Classical.byContradiction fun h => ht ((hname items).1 h))
          refine ⟨?_, ?_⟩
          · rintro ⟨p, hp, hq⟩
            rw [hm] at hp
            exact absurd (Except.error.inj hp).symm (hq m)
          · rintro (h | ⟨_, _, h⟩)
            · cases h
            · exact absurd h ht
      · refine ⟨fun h => absurd h (addJoin_crash (noHole_onTree j.cond (by rw [hc]; exact hcond))), ?_⟩
        rintro (h | ⟨_, h, _⟩)
        · cases h
        · exact absurd h hcond
  constructor
  · intro h
    obtain ⟨items, rest, v, hs, hi, hr⟩ := join_text_items text
    exact ⟨items, rest, v, hs, hi, hr, (key items rest v hs hi hr).1 h⟩
  · rintro ⟨items, rest, v, hs, hi, hr, h⟩
    exact (key items rest v hs hi hr).2 h

/-- C72, join strings, exactly: `Join` with a text crashes just for the texts that end after `AND` or `OR`
and a name, and for those that are read as a join with a table but without a condition; with a table
and a text, just for the former and those without a condition, unless the table is the empty text. -/
theorem C72_join (b : SelectStmt) (text table : Str) :
    (Crashes (b.Join [.val (.str text)]) ↔ JoinHole (fun items => tableOfItems items [] ≠ []) text) ∧
    (Crashes (b.Join [.val (.str table), .val (.str text)]) ↔ JoinHole (fun _ => table ≠ []) text) := by
  constructor
  · refine joinCall_exact b text _ id (fun _ => Iff.rfl) ?_
    simp only [SelectStmt.Join, SelectStmt.joinOfArg]
    cases mustParseJoin text with
    | error p => rfl
    | ok j => cases j; rfl
  · refine joinCall_exact b text _ (fun _ => { name := table }) (fun _ => Iff.rfl) ?_
    simp only [SelectStmt.Join, SelectStmt.handleSelectJoin]
    cases mustParseJoin text <;> rfl

end Verif.Props

namespace Verif.Props
open Spec
attribute [local instance] Runtime.sample

/-- C72 is false. A nil `*time.Time` as a value, `Values` without arguments, two join strings; and three
statements that are built but cannot be rendered: a `stmt.From` value as table, a nil select expression in a
slice, and a value that embeds a nil expression. -/
theorem C72_false :
    (Ident.str s%"x").Equal (.timePtr none) = .error .nilDeref ∧
    (insert (.val (.str s%"t")) >>= fun b => b.Values []) = .error .index ∧
    (select [] >>= fun b => b.Join [.val (.str s%"JOIN u ON")]) = .error .nilDeref ∧
    (select [] >>= fun b => b.Join [.val (.str s%"u"), .val (.str s%"ON a = b AND c")]) = .error .index ∧
    (select [] >>= fun b => (b.From [.fromClause [.table { name := s%"t" }]] >>= fun b => b.write.query))
      = .error .nilDeref ∧
    (select [.selExprs [.nil]] >>= fun b => b.write.query) = .error .nilDeref ∧
    ((Ident.str s%"x").Equal (.obj { expression := some .nil }) >>= fun e =>
      select [] >>= fun b => b.Where e >>= fun b => b.write.query) = .error .nilDeref := by
  refine ⟨rfl, rfl, rfl, rfl, rfl, rfl, rfl⟩

/-- `SELECT id FROM nil WHERE (x IN (()))`, where the condition holds a nil: the first fault is the table. A
condition that has no left operand is left out with the nil in its right operand. And for `String` alone,
a value that cannot be formatted comes before a nil. -/
example :
    faultsStmt (fun _ => []) (.select { SelectStmt.zero with
      exprs := [.column { name := s%"id" }]
      tables := [.nil]
      whr := .inx (.ident (.str s%"x")) s%"IN" (.array [.infx .nil .nil .nil]) }) =
      [.nilDeref, .msg "loukoum: expression is undefined"] ∧
    noHoleStmt (.delete { DeleteStmt.zero with
      tables := [.raw s%"t"]
      whr := .infx .nil (.comparison s%"=") (.wrapper .nil) }) = false ∧
    faultsStmt (fun _ => []) (.delete { DeleteStmt.zero with
      tables := [.raw s%"t"]
      whr := .infx .nil (.comparison s%"=") (.wrapper .nil) }) = [] ∧
    faultsStmt valueFaults (.delete { DeleteStmt.zero with
      tables := [.raw s%"t"]
      whr := .inx (.ident (.str s%"x")) s%"IN" (.array [.value (.valuerErr 7), .nil]) }) =
      [.msg "loukoum: was not able to retrieve valuer value", .nilDeref] :=
  ⟨rfl, rfl, rfl, rfl⟩

/-- `SELECT id FROM users JOIN g ON a = b WHERE x = (SELECT 1)`, built with a join string, a sub-select and
a nil condition, is a program of the kind covered by `C72_partial`. -/
example : ∀ c ∈ [SelCall.from [.val (.str s%"users")], .join [.val (.str s%"g"), .val (.str s%"ON a = b")],
    .where (.infx (.ident (.str s%"x")) (.comparison s%"=")
      (.wrapper (.select { SelectStmt.zero with exprs := [.raw s%"1"] }))),
    .or .nil, .limit (.val (.str s%"-3"))], c.sound := by
  intro c hc
  simp only [List.mem_cons, List.not_mem_nil, or_false] at hc
  rcases hc with rfl | rfl | rfl | rfl | rfl
  · intro a ha
    rw [List.mem_singleton.1 ha]; exact .val _
  · refine ⟨fun a ha => ?_, fun text ht => ?_⟩
    · simp only [List.mem_cons, List.not_mem_nil, or_false] at ha
      rcases ha with rfl | rfl <;> exact .val _
    · rw [joinTexts, List.mem_singleton] at ht
      subst ht
      have w : ∀ {x : Str}, isWord x → isLexeme x := .inl
      have sy : ∀ {c : Char}, symbolRune c → isLexeme [c] := fun h => .inr ⟨_, h, rfl⟩
      refine ⟨[.on s%"ON", .cond s%"a" s%"b" []], [], .accepted, ?_, ?_, .done _, .inr ⟨rfl, nofun⟩⟩
      · refine .more [] s%"ON" _ s%" a = b" (by decide)
          (w ⟨by decide, by decide⟩) ?_ (by rintro - c h; cases h; rfl)
        refine .more s%" " s%"a" _ s%" = b" (by decide)
          (w ⟨by decide, by decide⟩) ?_ (by rintro - c h; cases h; rfl)
        refine .more s%" " s%"=" _ s%" b" (by decide)
          (sy ⟨by decide, by decide, by decide⟩) ?_ (fun h => absurd (h.2 '=' (by simp)) (by decide))
        exact .more s%" " s%"b" [] [] (by decide) (w ⟨by decide, by decide⟩) (.done [] (by simp)) (by simp)
      · intro i hi
        simp only [List.mem_cons, List.not_mem_nil, or_false] at hi
        rcases hi with rfl | rfl
        · show spells _ _; decide
        · exact ⟨⟨⟨by decide, by decide⟩, by decide⟩, ⟨⟨by decide, by decide⟩, by decide⟩, nofun⟩
  · rfl
  · rfl
  · trivial

end Verif.Props
