import Verif.Spec.Accumulate
import Verif.Lemmas.Insert
import Verif.Props.Calls
import Verif.Props.Clauses
import Verif.Props.JoinText

/-!
# C49 and C52: joins, orderings and common table expressions
-/

set_option linter.unusedSectionVars false

namespace Verif.Props
open Spec

/-! ## C52 -/

private theorem mustParse_iff (s : Str) (j : Join) :
    mustParseJoin s = .ok j ↔ parseJoin s = .ok (some j) := by
  unfold mustParseJoin
  split
  · next p h => simp [h]
  · next h => simp [h, Go.panic]
  · next j' h => simp [h]

private theorem handle_table (t : Table) (a1 : Any) (j : Join) :
    SelectStmt.handleSelectJoin (.table t) a1 = .ok j ↔
      j.table = t ∧ JoinCond a1 j.type j.cond := by
  unfold SelectStmt.handleSelectJoin
  obtain ⟨type, table, cond⟩ := j
  simp only
  cases a1 with
  | val v =>
    cases v with
    | str s =>
      simp only [JoinCond]
      cases h : parseJoin s with
      | error p => simp [mustParseJoin, h]
      | ok o =>
        cases o with
        | none => simp [mustParseJoin, h, Go.panic]
        | some j' =>
          obtain ⟨type', table', cond'⟩ := j'
          simp only [mustParseJoin, h, Except.ok.injEq, Option.some.injEq, Join.mk.injEq]
          constructor
          · rintro ⟨rfl, rfl, rfl⟩; exact ⟨rfl, _, rfl, rfl, rfl⟩
          · rintro ⟨rfl, _, rfl, -, rfl⟩; exact ⟨rfl, rfl, rfl⟩
    | _ => simp [JoinCond, Go.panic]
  | expr e =>
    cases e with
    | onClause l r =>
      simp only [JoinCond, Except.ok.injEq, Join.mk.injEq]
      constructor
      · rintro ⟨rfl, rfl, rfl⟩; exact ⟨rfl, rfl, rfl⟩
      · rintro ⟨rfl, rfl, rfl⟩; exact ⟨rfl, rfl, rfl⟩
    | infixOn l op r =>
      simp only [JoinCond, Except.ok.injEq, Join.mk.injEq]
      constructor
      · rintro ⟨rfl, rfl, rfl⟩; exact ⟨rfl, rfl, rfl⟩
      · rintro ⟨rfl, rfl, rfl⟩; exact ⟨rfl, rfl, rfl⟩
    | _ => simp [JoinCond, Go.panic]
  | _ => simp [JoinCond, Go.panic]

private theorem handle_iff (a0 a1 : Any) (j : Join) :
    SelectStmt.handleSelectJoin a0 a1 = .ok j ↔ JoinTable a0 j.table ∧ JoinCond a1 j.type j.cond := by
  cases a0 with
  | val v =>
    cases v with
    | str s => exact handle_table { name := s } a1 j
    | _ => simp [JoinTable, SelectStmt.handleSelectJoin, Go.panic]
  | table t => exact handle_table t a1 j
  | _ => simp [JoinTable, SelectStmt.handleSelectJoin, Go.panic]

private theorem joinIsEmpty_iff (j : Join) : j.isEmpty = .ok false ↔ JoinComplete j := by
  unfold Join.isEmpty JoinComplete
  cases j.type with
  | nil => simp [Go.or]
  | cons _ _ =>
    cases h : j.table.isEmpty with
    | true =>
      have : j.table.name = [] := by simpa [Table.isEmpty] using h
      simp [Go.or, this]
    | false =>
      have : j.table.name ≠ [] := by simpa [Table.isEmpty] using h
      simp [Go.or, this]

private theorem addJoin_iff (b b' : SelectStmt) (j : Join) :
    b.addJoin j = .ok b' ↔ JoinComplete j ∧ b' = { b with joins := b.joins ++ [j] } := by
  rw [← joinIsEmpty_iff]
  unfold SelectStmt.addJoin
  split
  · next p h => simp [h]
  · next h => simp [h, Go.panic]
  · next h => simp [h, eq_comm]

/-- C52, C49. What a call of `Join` does: it is accepted exactly when its arguments ask for a join
that has a type, a table and a condition, and it appends that join. With a third argument the type
is that argument; the table is always the first of several arguments. -/
theorem C52_join (b b' : SelectStmt) (args : List Any) : b.Join args = .ok b' ↔
    ∃ j, JoinArgs args j ∧ JoinComplete j ∧ b' = { b with joins := b.joins ++ [j] } := by
  unfold SelectStmt.Join
  constructor
  · intro h
    split at h
    · next a =>
      split at h
      · cases h
      · next j hj =>
        obtain ⟨h1, h2⟩ := (addJoin_iff _ _ _).1 h
        refine ⟨j, ?_, h1, h2⟩
        unfold SelectStmt.joinOfArg at hj
        split at hj
        · exact .text ((mustParse_iff _ _).1 hj)
        · cases hj; exact .join _
        · cases hj
    · next a0 a1 =>
      split at h
      · cases h
      · next j hj =>
        obtain ⟨h1, h2⟩ := (addJoin_iff _ _ _).1 h
        obtain ⟨h3, h4⟩ := (handle_iff _ _ _).1 hj
        obtain ⟨ty, t, c⟩ := j
        exact ⟨_, .two h3 h4, h1, h2⟩
    · next a0 a1 a2 =>
      split at h
      · cases h
      · next j hj =>
        split at h
        · obtain ⟨h1, h2⟩ := (addJoin_iff _ _ _).1 h
          obtain ⟨h3, h4⟩ := (handle_iff _ _ _).1 hj
          obtain ⟨ty, t, c⟩ := j
          exact ⟨_, .three h3 h4, h1, h2⟩
        · cases h
    · cases h
  · rintro ⟨j, h1, h2, h3⟩
    have ha := (addJoin_iff b b' j).2 ⟨h2, h3⟩
    cases h1 with
    | text h => simp only [SelectStmt.joinOfArg, (mustParse_iff _ _).2 h]; exact ha
    | join j => exact ha
    | two h4 h5 =>
      simp only
      rw [(handle_iff _ _ ⟨_, _, _⟩).2 ⟨h4, h5⟩]
      exact ha
    | three h4 h5 =>
      simp only
      rw [(handle_iff _ _ ⟨_, _, _⟩).2 ⟨h4, h5⟩]
      exact ha

section
variable [GoRuntime]

private theorem rawText_raw_inv {x t : Str} {l : List Piece} (h : rawText (.raw x :: l) = .ok t) :
    ∃ u, rawText l = .ok u ∧ t = x ++ u := by
  simp only [rawText, Piece.rawText] at h
  cases hl : rawText l with
  | error e => rw [hl] at h; cases h
  | ok u => rw [hl] at h; exact ⟨u, rfl, by cases h; rfl⟩

private theorem each_of_texts {α : Type} {text : α → Go Str} {R : α → Str → Prop}
    (hR : ∀ a x, text a = .ok x → R a x) {l : List α} {ts : List Str} (h : Texts text l ts) :
    Each R l ts := by
  induction l generalizing ts with
  | nil =>
    cases ts with
    | nil => exact .nil
    | cons _ _ => cases h
  | cons e l ih =>
    cases ts with
    | nil => cases h
    | cons t ts =>
      simp only [Texts, List.map_cons, List.cons.injEq] at h
      exact .cons (hR _ _ h.1) (ih h.2)

private theorem join_text {j : Join} {x : Str} (h : j.write.string = .ok x) : JoinText j x := by
  obtain ⟨hok, ht⟩ := (string_denotes (denotes_join j) x).1 h
  obtain ⟨ty, t, c⟩ := j
  rw [joinL] at ht
  obtain ⟨t1, t2, e1, e2, rfl⟩ := rawText_append_inv ht
  obtain ⟨t3, e3, rfl⟩ := rawText_sql_inv e1
  obtain ⟨t4, e4, rfl⟩ := rawText_sql_inv e3
  obtain ⟨t5, e5, rfl⟩ := rawText_sql_inv e2
  exact ⟨t4, t5, (string_denotes (denotes_table t) _).2 ⟨rfl, e4⟩, (expr_string _ _).2 ⟨hok, e5⟩,
    by simp⟩

private theorem order_text {o : Order} {x : Str} (h : o.write.string = .ok x) : OrderText o x := by
  obtain ⟨-, ht⟩ := (string_denotes (denotes_order o) x).1 h
  unfold orderL at ht
  constructor
  · intro hne
    rw [if_neg (by simpa using hne)] at ht
    cases ht
    simp
  · intro he
    rw [if_pos (by simp [he])] at ht
    cases ht
    rfl

private theorem with_text {w : WithQuery} {x : Str} (h : w.write.string = .ok x) : WithText w x := by
  obtain ⟨n, e⟩ := w
  obtain ⟨hok, ht⟩ := (string_denotes (denotes_with n e) x).1 h
  rw [withL] at ht
  refine ⟨fun hn hb => ?_, fun hb => ?_⟩
  · have hne : (n.isEmpty || blank e) = false := by simpa [hb] using hn
    rw [hne, if_neg (by simp)] at ht
    have hoke := okIf_of_not (fun _ hx => withIsEmpty_ok hx) hne hok
    obtain ⟨t1, t2, e1, e2, rfl⟩ := rawText_append_inv ht
    obtain ⟨t3, e3, rfl⟩ := rawText_raw_inv e1
    obtain ⟨t4, e4, rfl⟩ := rawText_sql_inv e3
    obtain ⟨t5, e5, rfl⟩ := rawText_sql_inv e2
    cases e5
    exact ⟨t4, (expr_string _ _).2 ⟨hoke, e4⟩, by simp⟩
  · rw [if_pos (by simpa using hb)] at ht
    cases ht
    rfl

/-! ## C49 -/

private theorem intercalate_head (x y : Str) : ∀ r : List Str,
    List.intercalate s%" " ((x ++ y) :: r) = x ++ List.intercalate s%" " (y :: r)
  | [] => by simp [List.intercalate]
  | z :: r => by simp only [intercalate_cons2, List.append_assoc]

private theorem intercalate_group (m : List Str) (hm : m ≠ []) (r : List Str) : ∀ l : List Str,
    List.intercalate s%" " (l ++ m ++ r) =
      List.intercalate s%" " (l ++ List.intercalate s%" " m :: r)
  | [] => by
    induction m with
    | nil => exact absurd rfl hm
    | cons x m ih =>
      cases m with
      | nil => simp [List.intercalate]
      | cons y m =>
        have := ih (by simp)
        simp only [List.nil_append, List.cons_append] at this ⊢
        rw [intercalate_cons2, intercalate_cons2, this, intercalate_head]
  | [x] => by
    have := intercalate_group m hm r []
    cases m with
    | nil => exact absurd rfl hm
    | cons y m =>
      simp only [List.nil_append, List.cons_append] at this ⊢
      rw [intercalate_cons2, this]
      exact (intercalate_cons2 ..).symm
  | x :: y :: l => by
    have := intercalate_group m hm r (y :: l)
    simp only [List.cons_append] at this ⊢
    rw [intercalate_cons2, this]
    exact (intercalate_cons2 ..).symm

private theorem oneSpace_group (l m r : List (Option Str)) (a : Str) (h : some a ∈ m) :
    oneSpace (l ++ m ++ r) = oneSpace (l ++ some (oneSpace m) :: r) := by
  have := intercalate_group (m.filterMap id) (by
    intro h0
    have : a ∈ m.filterMap id := List.mem_filterMap.2 ⟨some a, h, rfl⟩
    rw [h0] at this
    cases this) (r.filterMap id) (l.filterMap id)
  unfold oneSpace
  simpa using this

private theorem oneSpace_cons (x : Str) (m : List (Option Str)) (a : Str) (h : some a ∈ m) :
    oneSpace (some x :: m) = x ++ s%" " ++ oneSpace m := by
  have hm : m.filterMap id ≠ [] := by
    intro h0
    have : a ∈ m.filterMap id := List.mem_filterMap.2 ⟨some a, h, rfl⟩
    rw [h0] at this
    cases this
  unfold oneSpace
  cases hf : m.filterMap id with
  | nil => exact absurd hf hm
  | cons y l =>
    rw [← intercalate_cons2]
    simp [hf]

private theorem select_group (p w d1 d2 : Option Str) (c : Str) (tail : List (Option Str)) :
    oneSpace (p :: w :: some s%"SELECT" :: d1 :: d2 :: some c :: tail) =
      oneSpace (p :: w :: some (s%"SELECT " ++ oneSpace [d1, d2, some c]) :: tail) := by
  have h1 := oneSpace_group [p, w] [some s%"SELECT", d1, d2, some c] tail s%"SELECT" (by simp)
  rw [oneSpace_cons _ _ c (by simp)] at h1
  exact h1

/-- The joins, orderings and common table expressions of a SELECT after any calls are those it had
before, then those given to the calls, in order. -/
theorem C49_select (calls : List SelCall) (b b' : SelectStmt)
    (h : runAll SelCall.apply calls b = .ok b') :
    (∃ js, Each JoinArgs (joinCalls calls) js ∧ b'.joins = b.joins ++ js) ∧
    b'.orderBy = b.orderBy ++ orderCalls calls ∧ b'.withs = b.withs ++ withCalls calls := by
  induction calls generalizing b with
  | nil => cases h; exact ⟨⟨[], .nil, by simp⟩, by simp [orderCalls], by simp [withCalls]⟩
  | cons call l ih =>
    rw [runAll] at h
    split at h
    · cases h
    · next b1 h1 =>
      obtain ⟨⟨js, h2, h3⟩, h4, h5⟩ := ih b1 h
      have hf := C23_select_frame call b b1 h1
      have fj : .joins ≠ call.clause → b1.joins = b.joins := hf .joins
      have fo : .orderBy ≠ call.clause → b1.orderBy = b.orderBy := hf .orderBy
      have fw : .with ≠ call.clause → b1.withs = b.withs := hf .with
      have other : .joins ≠ call.clause → .orderBy ≠ call.clause → .with ≠ call.clause →
          joinCalls (call :: l) = joinCalls l → orderCalls (call :: l) = orderCalls l →
          withCalls (call :: l) = withCalls l →
          (∃ js, Each JoinArgs (joinCalls (call :: l)) js ∧ b'.joins = b.joins ++ js) ∧
          b'.orderBy = b.orderBy ++ orderCalls (call :: l) ∧
          b'.withs = b.withs ++ withCalls (call :: l) := by
        intro a1 a2 a3 e1 e2 e3
        rw [e1, e2, e3, ← fj a1, ← fo a2, ← fw a3]
        exact ⟨⟨js, h2, h3⟩, h4, h5⟩
      cases call with
      | join args =>
        obtain ⟨j, h6, -, h7⟩ := (C52_join b b1 args).1 h1
        have e1 : b1.joins = b.joins ++ [j] := by rw [h7]
        refine ⟨⟨j :: js, .cons h6 h2, by rw [h3, e1]; simp⟩, ?_, ?_⟩
        · rw [h4, fo (by simp [SelCall.clause])]; rfl
        · rw [h5, fw (by simp [SelCall.clause])]; rfl
      | orderBy os =>
        have e1 : b1.orderBy = b.orderBy ++ os := by
          have h1' : b.OrderBy os = .ok b1 := h1
          unfold SelectStmt.OrderBy at h1'
          rw [← Except.ok.inj h1']
        refine ⟨⟨js, h2, ?_⟩, ?_, ?_⟩
        · rw [h3, fj (by simp [SelCall.clause])]
        · rw [h4, e1, orderCalls]; simp
        · rw [h5, fw (by simp [SelCall.clause])]; rfl
      | «with» ws =>
        have e1 : b1.withs = b.withs ++ ws := by
          have h1' : b.With ws = .ok b1 := h1
          unfold SelectStmt.With at h1'
          split at h1'
          · next he =>
            have : b.withs = [] := by simpa using he
            rw [← Except.ok.inj h1', this]; rfl
          · rw [← Except.ok.inj h1']
        refine ⟨⟨js, h2, ?_⟩, ?_, ?_⟩
        · rw [h3, fj (by simp [SelCall.clause])]
        · rw [h4, fo (by simp [SelCall.clause])]; rfl
        · rw [h5, e1, withCalls]; simp
      | _ =>
        refine other ?_ ?_ ?_ rfl rfl rfl <;> simp [SelCall.clause]

/-- The common table expressions of an UPDATE after any calls. -/
theorem C49_update (calls : List UpdCall) (b b' : UpdateStmt)
    (h : runAll UpdCall.apply calls b = .ok b') : b'.withs = b.withs ++ updWithCalls calls := by
  induction calls generalizing b with
  | nil => cases h; simp [updWithCalls]
  | cons call l ih =>
    rw [runAll] at h
    split at h
    · cases h
    · next b1 h1 =>
      have h5 := ih b1 h
      have fw : .with ≠ call.clause → b1.withs = b.withs := C23_update_frame call b b1 h1 .with
      cases call with
      | «with» ws =>
        have e1 : b1.withs = b.withs ++ ws := by
          have h1' : b.With ws = .ok b1 := h1
          unfold UpdateStmt.With at h1'
          split at h1'
          · next he =>
            have : b.withs = [] := by simpa using he
            rw [← Except.ok.inj h1', this]; rfl
          · rw [← Except.ok.inj h1']
        rw [h5, e1, updWithCalls]; simp
      | _ => rw [h5, fw (by simp [UpdCall.clause])]; rfl

private theorem select_fresh {columns : List Any} {b : SelectStmt} (h : select columns = .ok b) :
    b.joins = [] ∧ b.orderBy = [] ∧ b.withs = [] := by
  unfold select SelectStmt.Columns at h
  simp only at h
  split at h
  · cases h
  · rw [← Except.ok.inj h]; exact ⟨rfl, rfl, rfl⟩

/-- C49. The text of a SELECT: the common table expressions given to all the calls of `With`, in
order; then the joins, one for each call of `Join`, in order; then the orderings given to all the
calls of `OrderBy`, in order. -/
theorem C49_text (columns : List Any) (b0 b : SelectStmt) (calls : List SelCall) (t : Str)
    (h0 : select columns = .ok b0) (hc : runAll SelCall.apply calls b0 = .ok b)
    (ht : b.write.string = .ok t) :
    ∃ js joins orders withs, Each JoinArgs (joinCalls calls) js ∧ Each JoinText js joins ∧
      Each OrderText (orderCalls calls) orders ∧ Each WithText (withCalls calls) withs ∧
      ∃ select tables whr groupBy having limit offset,
      t = oneSpace
        ([when (!b.pfx.isEmpty) b.pfx,
          when (!(withCalls calls).isEmpty) (s%"WITH " ++ commaText withs),
          some (s%"SELECT " ++ select), tables]
        ++ joins.map some ++
        [whr, groupBy, having,
          when (!(orderCalls calls).isEmpty) (s%"ORDER BY " ++ commaText orders),
          limit, offset, when (!b.sfx.isEmpty) b.sfx]) ++ commentText b.comment := by
  obtain ⟨⟨js, h1, h2⟩, h3, h4⟩ := C49_select calls b0 b hc
  obtain ⟨e1, e2, e3⟩ := select_fresh h0
  rw [e1, List.nil_append] at h2
  rw [e2, List.nil_append] at h3
  rw [e3, List.nil_append] at h4
  obtain ⟨withs, distinctOn, columns, tables, joins, groupBy, orderBy, whr, having, c1, c2, c3, c4,
    c5, c6, c7, c8, c9, c10, rfl⟩ := C25_select b t ht
  rw [h2] at c5
  rw [h3] at c9
  rw [h4] at c1
  refine ⟨js, joins, orderBy, withs, h1, each_of_texts (fun _ _ => join_text) c5,
    each_of_texts (fun _ _ => order_text) c9, each_of_texts (fun _ _ => with_text) c1, ?_⟩
  refine ⟨oneSpace [when (!b.distinctOn.isEmpty) (s%"DISTINCT ON (" ++ commaText distinctOn ++ s%")"),
          when b.distinct s%"DISTINCT", some (commaText columns)],
    when (!b.tables.isEmpty) (s%"FROM " ++ commaText tables),
    when (!blank b.whr) (s%"WHERE " ++ whr),
    when (!b.groupBy.isEmpty) (s%"GROUP BY " ++ commaText groupBy),
    when (!blank b.having) (s%"HAVING " ++ having),
    when (b.limit ≠ 0) (s%"LIMIT " ++ formatInt b.limit),
    when (b.offset ≠ 0) (s%"OFFSET " ++ formatInt b.offset), ?_⟩
  rw [h3, h4]
  exact congrArg (· ++ commentText b.comment) (select_group ..)

private theorem update_fresh {table : Any} {b : UpdateStmt} (h : update table = .ok b) :
    b.withs = [] := by
  unfold update UpdateStmt.new at h
  repeat' split at h
  all_goals first
    | cases h; done
    | (rw [← Except.ok.inj h])

/-- C49. The text of an UPDATE begins with the common table expressions given to all the calls of
`With`, in order, and goes on with the word UPDATE. -/
theorem C49_update_text (table : Any) (b0 b : UpdateStmt) (calls : List UpdCall) (t : Str)
    (h0 : update table = .ok b0) (hc : runAll UpdCall.apply calls b0 = .ok b)
    (ht : (Stmt.update b).write.string = .ok t) :
    ∃ withs rest, Each WithText (updWithCalls calls) withs ∧
      t = oneSpace
        (when (!(updWithCalls calls).isEmpty) (s%"WITH " ++ commaText withs) ::
          some s%"UPDATE" :: rest) ++ commentText b.comment := by
  have h4 := C49_update calls b0 b hc
  rw [update_fresh h0, List.nil_append] at h4
  obtain ⟨withs, tables, returning, tb, set, whr, c1, c2, c3, c4, c5, c6, c7, rfl⟩ :=
    C25_update b t ht
  rw [h4] at c1
  refine ⟨withs, ?rest, each_of_texts (fun _ _ => with_text) c1, ?_⟩
  case rest =>
    exact [when b.only s%"ONLY", some tb, some set,
      when (!b.tables.isEmpty) (s%"FROM " ++ commaText tables),
      when (!blank b.whr) (s%"WHERE " ++ whr),
      when (!b.returning.isEmpty) (s%"RETURNING " ++ commaText returning)]
  · rw [← h4]

private theorem each_split {α β : Type} {R : α → β → Prop} {l : List α} {a : α} {r : List α}
    {m : List β} (h : Each R (l ++ a :: r) m) : ∃ x y z, m = x ++ y :: z ∧ R a y := by
  induction l generalizing m with
  | nil => cases h with | cons h1 h2 => exact ⟨[], _, _, rfl, h1⟩
  | cons b l ih =>
    cases h with
    | cons h1 h2 =>
      obtain ⟨x, y, z, rfl, h3⟩ := ih h2
      exact ⟨_ :: x, y, z, rfl, h3⟩

private theorem joined_text {b1 b2 : SelectStmt} {l : List Join} {j : Join} {calls : List SelCall}
    {t : Str} (h1 : b1.joins = l ++ [j]) (hc : runAll SelCall.apply calls b1 = .ok b2)
    (ht : b2.write.string = .ok t) :
    ∃ x pre post, JoinText j x ∧ t = pre ++ (s%" " ++ x) ++ post := by
  obtain ⟨⟨js, -, h2⟩, -, -⟩ := C49_select calls b1 b2 hc
  obtain ⟨withs, distinctOn, columns, tables, joins, groupBy, orderBy, whr, having, c1, c2, c3, c4,
    c5, c6, c7, c8, c9, c10, rfl⟩ := C25_select b2 t ht
  rw [h2, h1, List.append_assoc] at c5
  obtain ⟨xs, x, ys, rfl, h3⟩ := each_split (each_of_texts (fun _ _ => join_text) c5)
  obtain ⟨pre, post, hp⟩ := oneSpace_split (a := s%"SELECT") (x := x)
    (l := [when (!b2.pfx.isEmpty) b2.pfx,
          when (!b2.withs.isEmpty) (s%"WITH " ++ commaText withs),
          some s%"SELECT",
          when (!b2.distinctOn.isEmpty) (s%"DISTINCT ON (" ++ commaText distinctOn ++ s%")"),
          when b2.distinct s%"DISTINCT",
          some (commaText columns),
          when (!b2.tables.isEmpty) (s%"FROM " ++ commaText tables)] ++ xs.map some)
    (r := ys.map some ++
         [when (!blank b2.whr) (s%"WHERE " ++ whr),
          when (!b2.groupBy.isEmpty) (s%"GROUP BY " ++ commaText groupBy),
          when (!blank b2.having) (s%"HAVING " ++ having),
          when (!b2.orderBy.isEmpty) (s%"ORDER BY " ++ commaText orderBy),
          when (b2.limit ≠ 0) (s%"LIMIT " ++ formatInt b2.limit),
          when (b2.offset ≠ 0) (s%"OFFSET " ++ formatInt b2.offset),
          when (!b2.sfx.isEmpty) b2.sfx]) (by simp)
  refine ⟨x, pre, post ++ commentText b2.comment, h3, ?_⟩
  rw [← List.append_assoc, ← hp]
  refine congrArg (oneSpace · ++ commentText b2.comment) ?_
  simp only [List.map_append, List.map_cons, List.append_assoc, List.cons_append]

/-- C52. `Join(table, cond)` with an On clause or a combination of them, followed by any calls: the
text joins the given table with INNER JOIN on this condition.

Missing for C52: a condition given as a text that names another type (`C52_false`). -/
theorem C52_on_partial (b b1 b2 : SelectStmt) (table : Any) (tb : Table) (cond : Expr)
    (calls : List SelCall) (t : Str) (h : b.Join [table, .expr cond] = .ok b1)
    (htb : JoinTable table tb) (hc : runAll SelCall.apply calls b1 = .ok b2)
    (ht : b2.write.string = .ok t) :
    ∃ x y pre post, tb.write.string = .ok x ∧ cond.write.string = .ok y ∧
      t = pre ++ (s%" INNER JOIN " ++ x ++ s%" ON " ++ y) ++ post := by
  obtain ⟨j, h1, -, rfl⟩ := (C52_join _ _ _).1 h
  cases h1 with
  | two h2 h3 =>
    rename_i type tb' cond'
    have e1 : tb' = tb := by
      unfold JoinTable at htb h2
      split at htb <;> first | exact htb.elim | (rw [htb]; exact h2)
    have e2 : type = s%"INNER JOIN" ∧ cond' = cond := by
      unfold JoinCond at h3
      split at h3
      · next hh => cases hh; exact h3
      · next hh => cases hh; exact h3
      · next hh => cases hh
      · exact h3.elim
    obtain ⟨x, pre, post, ⟨u, v, h4, h5, rfl⟩, rfl⟩ := joined_text rfl hc ht
    rw [e1] at h4
    rw [e2.2] at h5
    exact ⟨u, v, pre, post, h4, h5, by simp [e2.1]⟩

/-- C52. `Join(table, cond, type)` followed by any calls: the text joins the given table with the
given type, whatever the condition says. -/
theorem C52_type (b b1 b2 : SelectStmt) (table cond : Any) (type : Str) (tb : Table)
    (calls : List SelCall) (t : Str) (h : b.Join [table, cond, .joinType type] = .ok b1)
    (htb : JoinTable table tb) (hc : runAll SelCall.apply calls b1 = .ok b2)
    (ht : b2.write.string = .ok t) :
    ∃ type' e x y pre post, JoinCond cond type' e ∧ tb.write.string = .ok x ∧
      e.write.string = .ok y ∧
      t = pre ++ (s%" " ++ type ++ s%" " ++ x ++ s%" ON " ++ y) ++ post := by
  obtain ⟨j, h1, -, rfl⟩ := (C52_join _ _ _).1 h
  cases h1 with
  | three h2 h3 =>
    rename_i type' tb' cond'
    have e1 : tb' = tb := by
      unfold JoinTable at htb h2
      split at htb <;> first | exact htb.elim | (rw [htb]; exact h2)
    obtain ⟨x, pre, post, ⟨u, v, h4, h5, rfl⟩, rfl⟩ := joined_text rfl hc ht
    rw [e1] at h4
    exact ⟨type', cond', u, v, pre, post, h3, h4, h5, by simp⟩

/-- C52. `Join(table, text)` with a well-formed join text that names no type other than INNER,
followed by any calls: the text joins the given table, not the one named by the text, with INNER
JOIN on the comparisons of the text. -/
theorem C52_string_partial {head : List Str} {named : Str}
    (hh : JoinHead head s%"INNER JOIN" named) {a₁ a₂ : Str} (h1 : isName a₁) (h2 : isName a₂)
    {ls : List JoinLink} (hls : ∀ l ∈ ls, l.good) {text : Str}
    (hs : Spelled (head ++ [a₁, s%"=", a₂] ++ ls.flatMap JoinLink.lexemes) text)
    (b b1 b2 : SelectStmt) (table : Any) (tb : Table) (calls : List SelCall) (t : Str)
    (h : b.Join [table, .val (.str text)] = .ok b1) (htb : JoinTable table tb)
    (hc : runAll SelCall.apply calls b1 = .ok b2) (ht : b2.write.string = .ok t) :
    ∃ e x y pre post, onTree e
        = some (leftTree (.atom (a₁, a₂)) (ls.map fun l => (l.conn, (l.left, l.right)))) ∧
      tb.write.string = .ok x ∧ e.write.string = .ok y ∧
      t = pre ++ (s%" INNER JOIN " ++ x ++ s%" ON " ++ y) ++ post := by
  obtain ⟨j0, p1, p2, -, p4⟩ := C41_well_formed hh h1 h2 hls hs
  obtain ⟨j, h1, -, rfl⟩ := (C52_join _ _ _).1 h
  cases h1 with
  | two h2 h3 =>
    rename_i type tb' cond'
    have e1 : tb' = tb := by
      unfold JoinTable at htb h2
      split at htb <;> first | exact htb.elim | (rw [htb]; exact h2)
    obtain ⟨table', e2⟩ := h3
    rw [p1] at e2
    cases e2
    obtain ⟨x, pre, post, ⟨u, v, h4, h5, rfl⟩, rfl⟩ := joined_text rfl hc ht
    rw [e1] at h4
    have e3 : type = s%"INNER JOIN" := p2
    exact ⟨_, u, v, pre, post, p4, h4, h5, by simp [e3]⟩

/-! ### Every text -/

private theorem onTree_ready : ∀ (e : Expr) (t : Cond (Str × Str)), onTree e = some t →
    (∀ p ∈ t.atoms, p.1 ≠ [] ∧ p.2 ≠ []) → e.isEmpty = .ok false := by
  intro e
  have step : ∀ (l r : Expr) (op : Str), op ≠ [] → l.isEmpty = .ok false → r.isEmpty = .ok false →
      (Expr.infx l (.logical op) r).isEmpty = .ok false := by
    intro l r op ho hl hr
    have h1 : l.isNil = false := by cases l <;> first | rfl | (rw [Expr.isEmpty] at hl; cases hl)
    have h2 : r.isNil = false := by cases r <;> first | rfl | (rw [Expr.isEmpty] at hr; cases hr)
    rw [Expr.isEmpty, hl, hr, h1, h2]
    cases op with
    | nil => exact absurd rfl ho
    | cons _ _ => rfl
  induction e using onTree.induct with
  | case1 l r h =>
    intro t ht hp
    rw [onTree, if_pos h] at ht
    cases ht
    obtain ⟨h1, h2⟩ := hp (l.name, r.name) (by simp [Cond.atoms])
    rw [Expr.isEmpty]
    simp [Column.isEmpty, h1, h2]
  | case2 l r h =>
    intro t ht
    rw [onTree, if_neg h] at ht
    cases ht
  | case3 l r x y hy hx ih1 ih2 =>
    intro t ht hp
    simp only [onTree, hx, hy, if_true] at ht
    cases ht
    exact step _ _ _ (by decide)
      (ih1 x hx fun p hm => hp p (List.mem_append_left _ hm))
      (ih2 y hy fun p hm => hp p (List.mem_append_right _ hm))
  | case4 l r x y hy hx hne ih1 ih2 =>
    intro t ht hp
    simp only [onTree, hx, hy, if_true, if_neg hne] at ht
    cases ht
    exact step _ _ _ (by decide)
      (ih1 x hx fun p hm => hp p (List.mem_append_left _ hm))
      (ih2 y hy fun p hm => hp p (List.mem_append_right _ hm))
  | case5 l op r x y hx hy h1 h2 ih1 ih2 =>
    intro t ht
    simp only [onTree, hx, hy, if_neg h1, if_neg h2] at ht
    cases ht
  | case6 l op r h ih1 ih2 =>
    intro t ht
    rw [onTree] at ht
    split at ht
    · next x y hx hy => exact absurd hy (h x y hx)
    · cases ht
  | case7 e h1 h2 =>
    intro t ht
    rw [onTree] at ht
    · cases ht
    · exact h1
    · exact h2

private theorem leftTree_atoms (l : List (Conn × (Str × Str))) : ∀ acc : Cond (Str × Str),
    (∀ p ∈ acc.atoms, p.1 ≠ [] ∧ p.2 ≠ []) → (∀ x ∈ l, x.2.1 ≠ [] ∧ x.2.2 ≠ []) →
    ∀ p ∈ (leftTree acc l).atoms, p.1 ≠ [] ∧ p.2 ≠ [] := by
  induction l with
  | nil => intro acc h _; exact h
  | cons x l ih =>
    obtain ⟨c, a⟩ := x
    intro acc h hl
    refine ih _ ?_ fun y hy => hl y (List.mem_cons_of_mem _ hy)
    intro p hp
    have hp' : p ∈ acc.atoms ∨ p = a := by cases c <;> simpa [Cond.join, Cond.atoms] using hp
    rcases hp' with hp' | rfl
    · exact h p hp'
    · exact hl (c, p) List.mem_cons_self

private theorem condOfItems_atoms (items : List JoinItem) : ∀ acc : Option (Cond (Str × Str)),
    (∀ t, acc = some t → ∀ p ∈ t.atoms, p.1 ≠ [] ∧ p.2 ≠ []) → (∀ i ∈ items, i.good) →
    ∀ t, condOfItems items acc = some t → ∀ p ∈ t.atoms, p.1 ≠ [] ∧ p.2 ≠ [] := by
  induction items with
  | nil => intro acc h _ t ht; exact h t ht
  | cons i items ih =>
    intro acc h hi
    have hi' : ∀ i ∈ items, i.good := fun j hj => hi j (List.mem_cons_of_mem _ hj)
    cases i with
    | cond a b ls =>
      obtain ⟨ha, hb, hl⟩ := hi _ List.mem_cons_self
      refine ih _ ?_ hi'
      intro t ht
      cases ht
      refine leftTree_atoms _ _ ?_ ?_
      · intro p hp
        cases List.mem_singleton.1 hp
        exact ⟨ha.1.1, hb.1.1⟩
      · intro x hx
        obtain ⟨l, hm, rfl⟩ := List.mem_map.1 hx
        exact ⟨(hl l hm).2.1.1.1, (hl l hm).2.2.1.1⟩
    | _ => exact ih _ h hi'

private theorem typeOfItems_ne (items : List JoinItem) : ∀ type : Str, type ≠ [] →
    (∀ i ∈ items, i.good) → typeOfItems items type ≠ [] := by
  induction items with
  | nil => intro type h _; exact h
  | cons i items ih =>
    intro type h hi
    have hi' : ∀ i ∈ items, i.good := fun j hj => hi j (List.mem_cons_of_mem _ hj)
    cases i with
    | kind k j ty =>
      refine ih _ ?_ hi'
      obtain ⟨⟨-, rfl⟩ | ⟨-, rfl⟩ | ⟨-, rfl⟩, -⟩ := hi _ List.mem_cons_self <;> decide
    | _ => exact ih _ h hi'

/-- What the text asks for as a condition of a join. -/
private theorem cond_of_text {text : Str} {items : List JoinItem} {rest : List Str} {v : JoinVerdict}
    (hs : Spelled (items.flatMap JoinItem.lexemes ++ rest) (text.takeWhile (· ≠ '\x00')))
    (hi : ∀ i ∈ items, i.good) (hr : JoinRest (endsInCond false items) rest v) (type : Str)
    (e : Expr) (h : JoinCond (.val (.str text)) type e) :
    v = .accepted ∧ type = typeOfItems items s%"INNER JOIN" ∧ onTree e = condOfItems items none ∧
      (condOfItems items none = none → e = .nil) := by
  obtain ⟨table, h⟩ := h
  have ho := C44_exact text items rest v hs hi hr
  cases v with
  | accepted =>
    obtain ⟨j, h1, h2, -, h4, h5⟩ := ho
    rw [h] at h1
    cases h1
    exact ⟨rfl, h2, h4, h5⟩
  | refused =>
    rw [show parseJoin text = .ok none from ho] at h
    cases h
  | crash =>
    rw [show parseJoin text = .error .index from ho] at h
    cases h

/-- C52, exactly, for a condition given as any text: which calls `Join(table, text)` and
`Join(table, text, type)` are accepted. The text must be accepted by the parser of join strings and
contain a condition; a table in the text is neither needed nor used. (`C44_every_text`: any text is
such a sequence of items.) -/
theorem C52_text_accepted (text : Str) (items : List JoinItem) (rest : List Str) (v : JoinVerdict)
    (hs : Spelled (items.flatMap JoinItem.lexemes ++ rest) (text.takeWhile (· ≠ '\x00')))
    (hi : ∀ i ∈ items, i.good) (hr : JoinRest (endsInCond false items) rest v)
    (b : SelectStmt) (table : Any) (tb : Table) (htb : JoinTable table tb) :
    ((∃ b1, b.Join [table, .val (.str text)] = .ok b1) ↔
      v = .accepted ∧ tb.name ≠ [] ∧ condOfItems items none ≠ none) ∧
    ∀ type, (∃ b1, b.Join [table, .val (.str text), .joinType type] = .ok b1) ↔
      v = .accepted ∧ tb.name ≠ [] ∧ type ≠ [] ∧ condOfItems items none ≠ none := by
  have uniq : ∀ {tb'}, JoinTable table tb' → tb' = tb := by
    intro tb' h2
    unfold JoinTable at htb h2
    split at htb <;> first | exact htb.elim | (rw [htb]; exact h2)
  have some_of : ∀ {e : Expr}, e.isEmpty = .ok false → ¬ e = .nil := by
    rintro e h rfl
    rw [Expr.isEmpty] at h
    cases h
  have found : v = .accepted → condOfItems items none ≠ none →
      ∃ e, JoinCond (.val (.str text)) (typeOfItems items s%"INNER JOIN") e ∧
        e.isEmpty = .ok false := by
    rintro rfl hc
    obtain ⟨j, h1, h2, -, h4, -⟩ := C44_exact text items rest _ hs hi hr
    obtain ⟨ty, t, e⟩ := j
    have h2' : ty = typeOfItems items s%"INNER JOIN" := h2
    subst h2'
    refine ⟨e, ⟨t, h1⟩, ?_⟩
    cases hk : condOfItems items none with
    | none => exact absurd hk hc
    | some k =>
      exact onTree_ready e k (h4.trans hk) (condOfItems_atoms items none (by simp) hi k hk)
  refine ⟨⟨?_, ?_⟩, fun type => ⟨?_, ?_⟩⟩
  · rintro ⟨b1, h⟩
    obtain ⟨j, h1, ⟨c1, c2, c3⟩, -⟩ := (C52_join _ _ _).1 h
    cases h1 with
    | two h2 h3 =>
      obtain ⟨rfl, -, -, k4⟩ := cond_of_text hs hi hr _ _ h3
      exact ⟨rfl, uniq h2 ▸ c2, fun hn => some_of c3 (k4 hn)⟩
  · rintro ⟨h1, h2, h3⟩
    obtain ⟨e, h4, h5⟩ := found h1 h3
    exact ⟨_, (C52_join _ _ _).2 ⟨_, .two htb h4,
      ⟨typeOfItems_ne items _ (by decide) hi, h2, h5⟩, rfl⟩⟩
  · rintro ⟨b1, h⟩
    obtain ⟨j, h1, ⟨c1, c2, c3⟩, -⟩ := (C52_join _ _ _).1 h
    cases h1 with
    | three h2 h3 =>
      obtain ⟨rfl, -, -, k4⟩ := cond_of_text hs hi hr _ _ h3
      exact ⟨rfl, uniq h2 ▸ c2, c1, fun hn => some_of c3 (k4 hn)⟩
  · rintro ⟨h1, h2, h3, h6⟩
    obtain ⟨e, h4, h5⟩ := found h1 h6
    exact ⟨_, (C52_join _ _ _).2 ⟨_, .three htb h4, ⟨h3, h2, h5⟩, rfl⟩⟩

/-- C52, exactly, for a condition given as any text: the rendered join has the given table, the type
named last in the text (INNER JOIN if it names none) and the condition given last in the text. -/
theorem C52_text_exact (text : Str) (items : List JoinItem) (rest : List Str) (v : JoinVerdict)
    (hs : Spelled (items.flatMap JoinItem.lexemes ++ rest) (text.takeWhile (· ≠ '\x00')))
    (hi : ∀ i ∈ items, i.good) (hr : JoinRest (endsInCond false items) rest v)
    (b b1 b2 : SelectStmt) (table : Any) (tb : Table) (calls : List SelCall) (t : Str)
    (h : b.Join [table, .val (.str text)] = .ok b1) (htb : JoinTable table tb)
    (hc : runAll SelCall.apply calls b1 = .ok b2) (ht : b2.write.string = .ok t) :
    ∃ e x y pre post, onTree e = condOfItems items none ∧ tb.write.string = .ok x ∧
      e.write.string = .ok y ∧
      t = pre ++ (s%" " ++ typeOfItems items s%"INNER JOIN" ++ s%" " ++ x ++ s%" ON " ++ y) ++ post := by
  obtain ⟨j, h1, -, rfl⟩ := (C52_join _ _ _).1 h
  cases h1 with
  | two h2 h3 =>
    rename_i type tb' cond'
    have e1 : tb' = tb := by
      unfold JoinTable at htb h2
      split at htb <;> first | exact htb.elim | (rw [htb]; exact h2)
    obtain ⟨-, rfl, k3, -⟩ := cond_of_text hs hi hr _ _ h3
    obtain ⟨x, pre, post, ⟨u, w, h4, h5, rfl⟩, rfl⟩ := joined_text rfl hc ht
    rw [e1] at h4
    exact ⟨cond', u, w, pre, post, k3, h4, h5, by simp⟩

end

/-! ## Concrete cases and failures -/

section
attribute [local instance] Runtime.sample

/-- The hypotheses of C49 and C52 are met by a query with three joins, two orderings and two common
table expressions. -/
example : (do
    let b ← select [.val (.str s%"a")]
    let b ← b.With [⟨s%"x", .select Sample.groups⟩]
    let b ← b.OrderBy [⟨s%"a", s%"ASC"⟩]
    let b ← b.From [.val (.str s%"t")]
    let b ← b.Join [.val (.str s%"u"), .expr (.onClause { name := s%"t.id" } { name := s%"u.id" })]
    let b ← b.Join [.val (.str s%"LEFT JOIN v ON t.id = v.id")]
    let b ← b.Join [.table { name := s%"w" }, .val (.str s%"LEFT JOIN v ON t.id = w.id"),
      .joinType s%"RIGHT JOIN"]
    let b ← b.OrderBy [⟨s%"b", s%"DESC"⟩]
    let b ← b.With [⟨s%"y", .select Sample.groups⟩]
    b.write.string) = .ok (
      s%"WITH x AS (SELECT \"id\" FROM \"groups\" WHERE (\"active\" = true)), " ++
      s%"y AS (SELECT \"id\" FROM \"groups\" WHERE (\"active\" = true)) " ++
      s%"SELECT \"a\" FROM \"t\" INNER JOIN \"u\" ON \"t\".\"id\" = \"u\".\"id\" " ++
      s%"LEFT JOIN \"v\" ON \"t\".\"id\" = \"v\".\"id\" " ++
      s%"RIGHT JOIN \"w\" ON \"t\".\"id\" = \"w\".\"id\" ORDER BY a ASC, b DESC") := by
  decide +kernel

/-- C52 fails for a condition given as a text: `Join("t", "LEFT JOIN x ON a = b")` is a LEFT
JOIN. -/
theorem C52_false : ¬ ∀ (b b1 : SelectStmt) (table cond : Any) (tb : Table) (t : Str),
    b.Join [table, cond] = .ok b1 → JoinTable table tb → b1.write.string = .ok t →
    ∃ x pre post, tb.write.string = .ok x ∧ t = pre ++ (s%" INNER JOIN " ++ x) ++ post := by
  intro h
  obtain ⟨x, pre, post, h1, h2⟩ := h
    { SelectStmt.zero with exprs := [.column { name := s%"c" }] }
    { SelectStmt.zero with
      exprs := [.column { name := s%"c" }]
      joins := [⟨s%"LEFT JOIN", { name := s%"t" }, .onClause { name := s%"a" } { name := s%"b" }⟩] }
    (.val (.str s%"t"))
    (.val (.str s%"LEFT JOIN x ON a = b")) { name := s%"t" }
    s%"SELECT \"c\" LEFT JOIN \"t\" ON \"a\" = \"b\"" (by rfl) rfl (by rfl)
  have : s%" INNER JOIN " <:+: s%"SELECT \"c\" LEFT JOIN \"t\" ON \"a\" = \"b\"" :=
    ⟨pre, x ++ post, by rw [h2]; simp⟩
  revert this
  decide

/-- The hypotheses of `C52_text_exact` are met by the text of `C52_false`: its items ask for a LEFT
JOIN, and nothing is left. -/
example : ∃ items : List JoinItem,
    Spelled (items.flatMap JoinItem.lexemes ++ [])
      (s%"LEFT JOIN x ON a = b".takeWhile (· ≠ '\x00')) ∧
    (∀ i ∈ items, i.good) ∧ JoinRest (endsInCond false items) [] .accepted ∧
    typeOfItems items s%"INNER JOIN" = s%"LEFT JOIN" ∧
    condOfItems items none = some (.atom (s%"a", s%"b")) := by
  refine ⟨[.kind s%"LEFT" s%"JOIN" s%"LEFT JOIN", .table s%"x" s%"ON", .cond s%"a" s%"b" []],
    ?_, ?_, .done _, rfl, rfl⟩
  · have w : ∀ {x : Str}, isWord x → isLexeme x := .inl
    refine .more [] s%"LEFT" _ s%" JOIN x ON a = b" (by decide)
      (w ⟨by decide, by decide⟩) ?_ (by rintro - c h; cases h; rfl)
    refine .more s%" " s%"JOIN" _ s%" x ON a = b" (by decide)
      (w ⟨by decide, by decide⟩) ?_ (by rintro - c h; cases h; rfl)
    refine .more s%" " s%"x" _ s%" ON a = b" (by decide)
      (w ⟨by decide, by decide⟩) ?_ (by rintro - c h; cases h; rfl)
    refine .more s%" " s%"ON" _ s%" a = b" (by decide)
      (w ⟨by decide, by decide⟩) ?_ (by rintro - c h; cases h; rfl)
    refine .more s%" " s%"a" _ s%" = b" (by decide)
      (w ⟨by decide, by decide⟩) ?_ (by rintro - c h; cases h; rfl)
    refine .more s%" " s%"=" _ s%" b" (by decide)
      (.inr ⟨_, ⟨by decide, by decide, by decide⟩, rfl⟩) ?_
      (fun h => absurd (h.2 '=' (by simp)) (by decide))
    exact .more s%" " s%"b" [] [] (by decide) (w ⟨by decide, by decide⟩) (.done [] (by simp)) (by simp)
  · have hn : ∀ x ∈ [s%"x", s%"a", s%"b"], isName x := by
      intro x hx
      simp only [List.mem_cons, List.not_mem_nil, or_false] at hx
      rcases hx with rfl | rfl | rfl <;> exact ⟨⟨by decide, by decide⟩, by decide⟩
    intro i hi
    simp only [List.mem_cons, List.not_mem_nil, or_false] at hi
    rcases hi with rfl | rfl | rfl
    · exact ⟨.inr (.inl ⟨by show spells _ _; decide, rfl⟩), by show spells _ _; decide⟩
    · exact ⟨hn _ (by simp), by show spells _ _; decide⟩
    · exact ⟨hn _ (by simp), hn _ (by simp), by simp⟩

/-- An ordering without expression leaves a separator behind. -/
example : (do
    let b ← select [.val (.str s%"a")]
    let b ← b.OrderBy [⟨s%"a", s%"ASC"⟩, ⟨[], s%"ASC"⟩]
    b.write.string) = .ok s%"SELECT \"a\" ORDER BY a ASC, " := by rfl

end

end Verif.Props
