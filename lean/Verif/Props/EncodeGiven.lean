import Verif.Props.Encode
import Verif.Model.Api
import Verif.Lemmas.Determined

/-!
# C50: a builder given as a value to SET, VALUES, USING, ON CONFLICT or WITH
-/

set_option linter.unusedSectionVars false

namespace Verif.Props
open Spec

section
variable [GoRuntime]

/-- The statement has been made by giving the SELECT builder as a value to one of the methods that
take values, and every other argument is such that this one is not replaced. -/
inductive GivenTo (s : SelectStmt) : Stmt → Prop
  /-- `Values(v, builder, w)` -/
  | values {b b' : InsertStmt} {args : List Any} : .selectB s ∈ args →
      (∀ a ∈ args, a = .selectB s ∨ ∃ v, a = .val v) → b.Values args = .ok b' →
      GivenTo s (.insert b')
  /-- `Values([][]interface{}{{v, builder}, …})` -/
  | rows {b b' : InsertStmt} {l : List (List Any)} {row : List Any} : .selectB s ∈ row → row ∈ l →
      b.Values [.anyss l] = .ok b' → GivenTo s (.insert b')
  /-- `Set(…, Pair(key, builder))` of INSERT -/
  | insertSet {b b' : InsertStmt} {args : List Any} {k : Any} :
      b.Set (args ++ [Api.Pair k (.selectB s)]) = .ok b' → GivenTo s (.insert b')
  /-- `OnConflict("a", "b", DoUpdate(…, Pair(key, builder)))` -/
  | onConflict {b b' : InsertStmt} {names : List Str} {args : List Any} {k a : Any} :
      doUpdate (args ++ [Api.Pair k (.selectB s)]) = .ok a →
      b.OnConflict (names.map (fun n => .val (.str n)) ++ [a]) = .ok b' → GivenTo s (.insert b')
  /-- `Set(…, Pair(key, builder))` of UPDATE, after any calls -/
  | updateSet {table k : Any} {calls : List UpdCall} {b0 b b' : UpdateStmt} {args : List Any} :
      update table = .ok b0 → runAll UpdCall.apply calls b0 = .ok b →
      b.Set (args ++ [Api.Pair k (.selectB s)]) = .ok b' → GivenTo s (.update b')
  /-- `Using(v, builder, w)` of UPDATE -/
  | «using» {b b' : UpdateStmt} {args : List Any} : .selectB s ∈ args → b.Using args = .ok b' →
      GivenTo s (.update b')
  /-- `With(…, With(name, builder), …)` of UPDATE -/
  | updateWith {b b' : UpdateStmt} {ws : List WithQuery} {w : WithQuery} {name : Str} :
      name ≠ [] → s.exprs ≠ [] → Api.With name (.selectB s) = .ok w → w ∈ ws →
      b.With ws = .ok b' → GivenTo s (.update b')
  /-- `With(…, With(name, builder), …)` of SELECT -/
  | selectWith {b b' : SelectStmt} {ws : List WithQuery} {w : WithQuery} {name : Str} :
      name ≠ [] → s.exprs ≠ [] → Api.With name (.selectB s) = .ok w → w ∈ ws →
      b.With ws = .ok b' → GivenTo s (.select b')

private theorem merge_last {p q : PairContainer} {args : List Any} {a : Any}
    (h : mergeSet p (args ++ [a]) = .ok q) :
    ∃ p', mergeSet p args = .ok p' ∧ mergeSetArg p' a = .ok q := by
  induction args generalizing p with
  | nil =>
    simp only [List.nil_append, mergeSet] at h
    split at h
    · cases h
    · next p' h' => cases h; exact ⟨p, rfl, h'⟩
  | cons b l ih =>
    simp only [List.cons_append, mergeSet] at h ⊢
    split at h
    · cases h
    · next p' h' => exact ih h

private theorem pair_in {s : SelectStmt} {p q : PairContainer} {args : List Any} {k : Any}
    (hp : p.mode ≠ .array → KeysOk p)
    (h : mergeSet p (args ++ [Api.Pair k (.selectB s)]) = .ok q) :
    q.mode = .associative ∧ ∃ l : List (Column × Expr), ∃ c e,
      q.values = .ok (l.map (·.1), l.map (·.2)) ∧ (c, e) ∈ l ∧ InE s e ∧ q.map ≠ [] := by
  obtain ⟨p', h1, h2⟩ := merge_last h
  have h2' : addPair p' k (.selectB s) = .ok q := h2
  obtain ⟨_, ⟨c, e⟩, ⟨_, he⟩, hq⟩ := addPair_inv h2'
  have hm : q.mode = .associative := by rw [hq]; rfl
  have hq' : mapLookup c q.map = some e := by rw [hq, assignOne, mapLookup_assign, if_pos rfl]
  have hne : q.map ≠ [] := by intro h; rw [h] at hq'; cases hq'
  cases he
  have hk : KeysOk q := kept_merge hp h (by rw [hm]; exact fun h => nomatch h)
  obtain ⟨l, h3, _, h4⟩ := values_ok hm hk
  exact ⟨hm, l, c, _, h3, (h4 c _).2 hq', .wrapper .here, hne⟩

private theorem toSet_in {s : SelectStmt} {q : PairContainer} {args : List Any} {k : Any}
    (h : toSet (args ++ [Api.Pair k (.selectB s)]) = .ok q) :
    q.mode = .associative ∧ ∃ l : List (Column × Expr), ∃ c e,
      q.values = .ok (l.map (·.1), l.map (·.2)) ∧ (c, e) ∈ l ∧ InE s e ∧ q.map ≠ [] :=
  pair_in (p := { PairContainer.new with mode := .associative })
    (fun _ => ⟨.nil, by simp [PairContainer.new, mapLookup]⟩) h

private theorem exprs_in {e : Expr} (hn : e.isNil = false) : ∀ {l es : List Expr}, e ∈ l →
    appendAll (l.map .expr) = .ok es → e ∈ es
  | x :: l, es, hm, h => by
    rw [List.map_cons, appendAll] at h
    split at h
    · cases h
    · next y hy =>
      split at h
      · cases h
      · next ys hys =>
        cases h
        rcases List.mem_cons.1 hm with rfl | hm
        · have : newExpression (.expr e) = .ok e := by
            cases e <;> first | rfl | cases hn
          rw [this] at hy
          cases hy
          exact List.mem_cons_self
        · exact List.mem_cons_of_mem _ (exprs_in hn hm hys)

private theorem rows_in {s : SelectStmt} {row : List Any} (hs : .selectB s ∈ row) :
    ∀ {l : List (List Any)} {es : List Expr}, row ∈ l → arrayRows l = .ok es →
      ∃ e ∈ es, InE s e
  | r :: l, es, hm, h => by
    rw [arrayRows] at h
    split at h
    · cases h
    · next e he =>
      split at h
      · cases h
      · next es' hes =>
        cases h
        rcases List.mem_cons.1 hm with rfl | hm
        · exact ⟨e, List.mem_cons_self, (array_in hs he).1⟩
        · obtain ⟨e', h1, h2⟩ := rows_in hs hm hes
          exact ⟨e', List.mem_cons_of_mem _ h1, h2⟩

private theorem conflict_in {a : Any} {set : PairContainer} (ha : a = .conflictUpdate set) :
    ∀ {names : List Str} {b b' : InsertStmt},
      b.onConflictLoop (names.map (fun n => .val (.str n)) ++ [a]) = .ok b' →
      b'.action = .update set
  | [], b, b', h => by
    subst ha
    simp only [List.map_nil, List.nil_append, InsertStmt.onConflictLoop] at h
    split at h
    · cases h
    · cases h; rfl
  | n :: names, b, b', h => by
    simp only [List.map_cons, List.cons_append, InsertStmt.onConflictLoop] at h
    split at h
    · cases h
    · exact conflict_in ha h

private theorem with_in {s : SelectStmt} {name : Str} {w : WithQuery} (hn : name ≠ [])
    (he : s.exprs ≠ []) (h : Api.With name (.selectB s) = .ok w) :
    w.name ≠ [] ∧ blank w.subquery = false ∧ InE s w.subquery := by
  cases h
  refine ⟨hn, ?_, .here⟩
  cases s
  simpa [blank] using he

private theorem each_builder {s : SelectStmt} {args : List Any} {es : List Expr}
    (hm : .selectB s ∈ args) (h : Each (fun a e => newExpression a = .ok e) args es) :
    .select s ∈ es := by
  induction h with
  | nil => cases hm
  | cons hx _ ih =>
    rcases List.mem_cons.1 hm with rfl | hm
    · cases hx; exact List.mem_cons_self
    · exact List.mem_cons_of_mem _ (ih hm)

/-- C50. A SELECT builder given as a value to `Values`, `Set`, `Using`, `DoUpdate` or `With` is a
sub-select of the statement. -/
theorem C50_given (s : SelectStmt) (q : Stmt) (h : GivenTo s q) : InStmt s q := by
  cases h with
  | @values b b' args hm ha h =>
    unfold InsertStmt.Values at h
    split at h
    · cases h
    · cases h
    · unfold newArrayListExpression at h
      cases args with
      | nil => cases hm
      | cons v l =>
        have hv : toArrayList v = .ok [] := by
          rcases ha v List.mem_cons_self with rfl | ⟨x, rfl⟩ <;> rfl
        simp only [hv] at h
        generalize he : newArrayExpression (v :: l) = r at h
        cases r with
        | error p => cases h
        | ok e =>
          cases h
          exact .insertValues (.arrayList List.mem_cons_self (array_in hm he).1) rfl
  | @rows b b' l row hm hl h =>
    unfold InsertStmt.Values at h
    split at h
    · cases h
    · cases h
    · simp only [newArrayListExpression, toArrayList] at h
      generalize he : arrayRows l = r at h
      cases r with
      | error p => cases h
      | ok es =>
        obtain ⟨e, h1, h2⟩ := rows_in hm hl he
        cases es with
        | nil => cases h1
        | cons x xs =>
          cases h
          exact .insertValues (.arrayList h1 h2) rfl
  | @insertSet b b' args k h =>
    unfold InsertStmt.Set at h
    split at h
    · cases h
    · split at h
      · cases h
      · cases h
      · split at h
        · cases h
        · next set hset =>
          obtain ⟨hm, l, c, e, hv, hl, he, hne⟩ := toSet_in hset
          simp only [hv] at h
          simp only [newArrayListExpression, toArrayList, newArrayExpression, toArray, Any.isNil] at h
          generalize hap : appendAll ((l.map (·.2)).map .expr) = r at h
          cases r with
          | error p => cases h
          | ok es =>
            cases h
            have : e ∈ es := exprs_in (by cases he <;> rfl) (List.mem_map.2 ⟨_, hl, rfl⟩) hap
            exact .insertValues (.arrayList List.mem_cons_self (.array this he)) rfl
  | @onConflict b b' names args k a ha h =>
    unfold doUpdate at ha
    split at ha
    · cases ha
    · next set hset =>
      cases ha
      obtain ⟨hm, l, c, e, hv, hl, he, hne⟩ := toSet_in hset
      unfold InsertStmt.OnConflict at h
      split at h
      · cases h
      · split at h
        · cases h
        · have hact := conflict_in rfl h
          refine .insertConflict hact ?_ (.assoc (c := c) (e := e) hm ?_ he)
          · rw [hact]
            simp [actionBlank, setBlank, hm, hne]
          · rw [assignments_eq hv]; exact hl
  | @updateSet table k calls b0 b b' args h0 hr h =>
    obtain ⟨_, set, hset, rfl⟩ := updateSet_inv h
    obtain ⟨hm, l, c, e, hv, hl, he, _⟩ := pair_in
      (kept_run (by rw [update_set h0]; exact fun _ => keysOk_new) hr) hset
    exact .updateSet (.assoc (c := c) (e := e) hm (by rw [assignments_eq hv]; exact hl) he)
  | @«using» b b' args hm h =>
    unfold UpdateStmt.Using at h
    split at h
    · cases h
    · next hmode =>
      split at h
      · cases h
      · split at h
        · cases h
        · next p hp =>
          cases h
          obtain ⟨_, es, h1, rfl⟩ := useAll_inv hp
          have : .select s ∈ es := each_builder hm h1
          exact .updateSet (.array (Decidable.not_not.1 hmode)
            (List.mem_append_right _ this) .here)
  | updateWith hn hx hw hm h =>
    obtain ⟨h1, h2, h3⟩ := with_in hn hx hw
    unfold UpdateStmt.With at h
    split at h
    · cases h; exact .updateWith hm h1 h2 h3
    · cases h; exact .updateWith (List.mem_append_right _ hm) h1 h2 h3
  | selectWith hn hx hw hm h =>
    obtain ⟨h1, h2, h3⟩ := with_in hn hx hw
    unfold SelectStmt.With at h
    split at h
    · cases h; exact .select (.select (.withs hm h1 h2 h3))
    · cases h; exact .select (.select (.withs (List.mem_append_right _ hm) h1 h2 h3))

/-- C50. So its query appears in the text with the placeholders numbered on, and its arguments
among the arguments. -/
theorem C50_given_query (s : SelectStmt) (q : Stmt) (h : GivenTo s q) (text : Str)
    (args : List Val) (ht : q.write.query = .ok (text, args)) :
    ∃ (frags : List Str) (innerArgs before after : List Val) (pre post : Str),
      frags.length = innerArgs.length + 1 ∧
      s.write.query = .ok (weave frags (dollars 1 innerArgs.length), innerArgs) ∧
      text = pre ++ weave frags (dollars (before.length + 1) innerArgs.length) ++ post ∧
      args = before ++ innerArgs ++ after :=
  C51_embedding s q (C50_given s q h) text args ht

end

/-! ## Concrete cases -/

section
attribute [local instance] Runtime.sample

/-- A builder given to SET beside a value. -/
example : (do
    let b ← update (.val (.str s%"t"))
    let b ← b.Set [Api.Pair (.val (.str s%"a")) (.val (.int .int 7)),
      Api.Pair (.val (.str s%"b")) (.selectB Sample.groups)]
    b.write.query) = .ok
      (s%"UPDATE \"t\" SET \"a\" = $1, \"b\" = (SELECT \"id\" FROM \"groups\" " ++
        s%"WHERE (\"active\" = $2))", [.int .int 7, .bool true]) := by
  rfl

/-- A builder given to VALUES beside a value. -/
example : (do
    let b ← insert (.val (.str s%"t"))
    let b ← b.Values [.val (.int .int 7), .selectB Sample.groups]
    b.write.query) = .ok
      (s%"INSERT INTO \"t\" VALUES ($1, SELECT \"id\" FROM \"groups\" " ++
        s%"WHERE (\"active\" = $2))", [.int .int 7, .bool true]) := by
  rfl

/-- Values given in this way meet the hypotheses. -/
example : ∃ b, GivenTo Sample.groups (.insert b) :=
  ⟨_, .values (b := InsertStmt.zero) (args := [.val (.int .int 7), .selectB Sample.groups])
    (List.mem_cons_of_mem _ List.mem_cons_self) (by
      intro a ha
      simp only [List.mem_cons, List.not_mem_nil, or_false] at ha
      rcases ha with rfl | rfl
      · exact .inr ⟨_, rfl⟩
      · exact .inl rfl) rfl⟩

end

end Verif.Props
