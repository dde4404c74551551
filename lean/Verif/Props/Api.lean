import Verif.Model.Api
import Verif.Props.Accumulate
import Verif.Props.Calls

/-!
# C56–C60: the functions of `loukoum.go` that make keys, aggregates, common table expressions and
builders
-/

set_option linter.unusedSectionVars false

namespace Verif.Props
open Spec

section
variable [GoRuntime]

private theorem each_map {α β γ : Type} {R : α → β → Prop} {f : γ → α} {g : γ → β} :
    ∀ {l : List γ} {m : List β}, Each R (l.map f) m → (∀ c ∈ l, ∀ b, R (f c) b → b = g c) →
      m = l.map g
  | [], _, h, _ => by cases h; rfl
  | c :: l, _, h, hg => by
    cases h with
    | cons h1 h2 =>
      rw [List.map_cons, hg c (by simp) _ h1, each_map h2 fun c hc => hg c (by simp [hc])]

/-! ## C56: keys of ORDER BY -/

/-- A key of ORDER BY as users write it. -/
inductive OrderKey where
  /-- `Order(column)` -/
  | default (column : Str)
  /-- `Order(column, direction, ...)` -/
  | directed (column direction : Str) (more : List Str)
  /-- `Column(name).As(alias).Asc()`, the alias may be empty -/
  | asc (name alias : Str)
  /-- `Column(name).As(alias).Desc()` -/
  | desc (name alias : Str)

/-- The calls. -/
def OrderKey.make : OrderKey → Order
  | .default c => newOrder c []
  | .directed c d more => newOrder c (d :: more)
  | .asc n a => ((Api.Column n).as a).asc
  | .desc n a => ((Api.Column n).as a).desc

/-- What is ordered by: a column, by its alias if it has one. -/
def OrderKey.subject : OrderKey → Str
  | .default c => c
  | .directed c _ _ => c
  | .asc n [] => n
  | .asc _ a => a
  | .desc n [] => n
  | .desc _ a => a

/-- The direction: ascending if nothing is said. -/
def OrderKey.direction : OrderKey → Str
  | .default _ => s%"ASC"
  | .directed _ d _ => d
  | .asc _ _ => s%"ASC"
  | .desc _ _ => s%"DESC"

/-- C56. Take any calls on a SELECT builder among which the calls of `OrderBy` were given these
keys, none of them empty. Then the text has ORDER BY followed by the keys in order, each with its
subject (the alias of a column, if it has one) and its direction. -/
theorem C56_orderBy (columns : List Any) (b0 b : SelectStmt) (calls : List SelCall) (t : Str)
    (keys : List OrderKey) (h0 : select columns = .ok b0)
    (hc : runAll SelCall.apply calls b0 = .ok b) (ht : b.write.string = .ok t)
    (hk : orderCalls calls = keys.map OrderKey.make) (hs : ∀ k ∈ keys, k.subject ≠ []) :
    ∃ before limit offset, t = oneSpace (before ++
      [when (!keys.isEmpty)
          (s%"ORDER BY " ++ commaText (keys.map fun k => k.subject ++ s%" " ++ k.direction)),
        limit, offset, when (!b.sfx.isEmpty) b.sfx]) ++ commentText b.comment := by
  obtain ⟨js, joins, orders, withs, -, -, h3, -, select, tables, whr, groupBy, having, limit, offset,
    h⟩ := C49_text columns b0 b calls t h0 hc ht
  have he : orders = keys.map fun k => k.subject ++ s%" " ++ k.direction := by
    rw [hk] at h3
    refine each_map h3 fun k hk x hx => ?_
    have hne := hs k hk
    have e1 : k.make.expression = k.subject := by
      cases k with
      | asc n a => cases a <;> rfl
      | desc n a => cases a <;> rfl
      | _ => rfl
    have e2 : k.make.type = k.direction := by
      cases k with
      | _ => rfl
    rw [hx.1 (by rw [e1]; exact hne), e1, e2]
  rw [he, hk] at h
  have hemp : (keys.map OrderKey.make).isEmpty = keys.isEmpty := by cases keys <;> rfl
  rw [hemp] at h
  rw [h]
  refine ⟨[when (!b.pfx.isEmpty) b.pfx,
          when (!(withCalls calls).isEmpty) (s%"WITH " ++ commaText withs),
          some (s%"SELECT " ++ select), tables] ++ joins.map some ++ [whr, groupBy, having],
    limit, offset, congrArg (oneSpace · ++ commentText b.comment) ?_⟩
  rw [List.append_assoc _ [whr, groupBy, having]]
  rfl

/-! ## C57: aggregates -/

/-- A call on an aggregate: `As(alias)`, or `Distinct(flag)`, which only COUNT has. -/
inductive AggCall where
  | as (alias : Str)
  | distinct (flag : Bool)

/-- Making the call. -/
def AggCall.apply (s : SelExpr) : AggCall → SelExpr
  | .as a => aggAs s a
  | .distinct f => countDistinct s f

/-- The alias given last, none at first. -/
def lastAlias : List AggCall → Str
  | [] => []
  | .as a :: l => if l.any (fun | .as _ => true | _ => false) then lastAlias l else a
  | _ :: l => lastAlias l

/-- The flag given last, false at first. -/
def lastFlag : List AggCall → Bool
  | [] => false
  | .distinct f :: l => if l.any (fun | .distinct _ => true | _ => false) then lastFlag l else f
  | _ :: l => lastFlag l

/-- ` AS alias`, nothing without alias. -/
def aliasText (a : Str) : Str := if a = [] then [] else s%" AS " ++ a

private theorem foldl_count (v : Str) (calls : List AggCall) (d : Bool) (a : Str) :
    calls.foldl AggCall.apply (.count v d a) = .count v
      (if calls.any (fun | .distinct _ => true | _ => false) then lastFlag calls else d)
      (if calls.any (fun | .as _ => true | _ => false) then lastAlias calls else a) := by
  induction calls generalizing d a with
  | nil => rfl
  | cons c l ih =>
    cases c with
    | as x =>
      rw [List.foldl_cons, AggCall.apply, aggAs, ih]
      simp only [List.any_cons, lastAlias, lastFlag, Bool.false_or, Bool.true_or, if_true]
    | distinct x =>
      rw [List.foldl_cons, AggCall.apply, countDistinct, ih]
      simp only [List.any_cons, lastAlias, lastFlag, Bool.false_or, Bool.true_or, if_true]

private theorem lastAlias_none {calls : List AggCall}
    (h : calls.any (fun | .as _ => true | _ => false) = false) : lastAlias calls = [] := by
  induction calls with
  | nil => rfl
  | cons c l ih =>
    cases c with
    | as x => simp at h
    | distinct x => exact ih (by simpa using h)

private theorem lastFlag_none {calls : List AggCall}
    (h : calls.any (fun | .distinct _ => true | _ => false) = false) : lastFlag calls = false := by
  induction calls with
  | nil => rfl
  | cons c l ih =>
    cases c with
    | as x => exact ih (by simpa using h)
    | distinct x => simp at h

private theorem count_calls (v : Str) (calls : List AggCall) :
    calls.foldl AggCall.apply (Api.Count v) = .count v (lastFlag calls) (lastAlias calls) := by
  rw [Api.Count, foldl_count]
  congr 1
  · split
    · rfl
    · next h => rw [lastFlag_none (by simpa using h)]
  · split
    · rfl
    · next h => rw [lastAlias_none (by simpa using h)]

private theorem foldl_other (v : Str) (calls : List AggCall) (mk : Str → Str → SelExpr)
    (hmk : ∀ a x, aggAs (mk v a) x = mk v x) (hd : ∀ a f, countDistinct (mk v a) f = mk v a) (a : Str) :
    calls.foldl AggCall.apply (mk v a) = mk v
      (if calls.any (fun | .as _ => true | _ => false) then lastAlias calls else a) := by
  induction calls generalizing a with
  | nil => rfl
  | cons c l ih =>
    cases c with
    | as x =>
      rw [List.foldl_cons, AggCall.apply, hmk, ih]
      simp only [List.any_cons, lastAlias, Bool.true_or, if_true]
    | distinct x =>
      rw [List.foldl_cons, AggCall.apply, hd, ih]
      simp only [List.any_cons, lastAlias, Bool.false_or]

private theorem other_calls (v : Str) (calls : List AggCall) (mk : Str → Str → SelExpr)
    (hmk : ∀ a x, aggAs (mk v a) x = mk v x) (hd : ∀ a f, countDistinct (mk v a) f = mk v a) :
    calls.foldl AggCall.apply (mk v []) = mk v (lastAlias calls) := by
  rw [foldl_other v calls mk hmk hd]
  congr 1
  split
  · rfl
  · next h => rw [lastAlias_none (by simpa using h)]

private theorem alias_text (a x : Str) :
    (x ++ if a.isEmpty then [] else s%" AS " ++ a) = x ++ aliasText a := by
  cases a <;> rfl

/-- C57. `Count(v)` with any calls of `Distinct` and `As` is written `COUNT(v)`, with `DISTINCT`
before the argument exactly if the last call of `Distinct` was given true, and with the alias given
last. -/
theorem C57_count (v : Str) (calls : List AggCall) :
    (calls.foldl AggCall.apply (Api.Count v)).write.string = .ok
      (s%"COUNT(" ++ (if lastFlag calls then s%"DISTINCT " else []) ++ v ++ s%")"
        ++ aliasText (lastAlias calls)) := by
  rw [count_calls]
  generalize lastFlag calls = f
  generalize lastAlias calls = a
  cases f <;> cases a <;>
    simp [SelExpr.write, writeAggAlias, W.string, W.seq, W.text, W.skip, aliasText, Token.Count,
      Token.Distinct, Token.As, rawContext]

/-- C57. `Max(v)`, `Min(v)` and `Sum(v)` with any calls of `As` are written with the alias given
last. -/
theorem C57_others (v : Str) (calls : List AggCall) :
    (calls.foldl AggCall.apply (Api.Max v)).write.string
      = .ok (s%"MAX(" ++ v ++ s%")" ++ aliasText (lastAlias calls)) ∧
    (calls.foldl AggCall.apply (Api.Min v)).write.string
      = .ok (s%"MIN(" ++ v ++ s%")" ++ aliasText (lastAlias calls)) ∧
    (calls.foldl AggCall.apply (Api.Sum v)).write.string
      = .ok (s%"SUM(" ++ v ++ s%")" ++ aliasText (lastAlias calls)) := by
  rw [Api.Max, Api.Min, Api.Sum, other_calls v calls .max (fun _ _ => rfl) (fun _ _ => rfl),
    other_calls v calls .min (fun _ _ => rfl) (fun _ _ => rfl),
    other_calls v calls .sum (fun _ _ => rfl) (fun _ _ => rfl)]
  generalize lastAlias calls = a
  cases a <;>
    simp [SelExpr.write, writeAggAlias, W.string, W.seq, W.text, W.skip, aliasText, Token.Max,
      Token.Min, Token.Sum, Token.As, rawContext]

/-! ## C58: common table expressions -/

private theorem with_args (l : List WithQuery) (m : List (Str × SelectStmt))
    (h : l.map (Except.ok (ε := Panic)) = m.map (fun c => Api.With c.1 (.selectB c.2))) :
    l = m.map fun c => ⟨c.1, .select c.2⟩ := by
  induction m generalizing l with
  | nil => simpa using h
  | cons c m ih =>
    cases l with
    | nil => simp at h
    | cons w l =>
      simp only [List.map_cons, List.cons.injEq] at h ⊢
      exact ⟨Except.ok.inj (h.1.trans rfl), ih l h.2⟩

private theorem with_texts (l : List (Str × SelectStmt)) (m : List Str)
    (hn : ∀ c ∈ l, c.1 ≠ [] ∧ c.2.exprs ≠ [])
    (h : Each WithText (l.map fun c => ⟨c.1, .select c.2⟩) m) :
    ∃ queries, l.map (fun c => c.2.write.string) = queries.map .ok ∧
      m = (l.zip queries).map fun p => p.1.1 ++ s%" AS (" ++ p.2 ++ s%")" := by
  induction l generalizing m with
  | nil => cases h; exact ⟨[], rfl, rfl⟩
  | cons c l ih =>
    cases h with
    | cons h1 h2 =>
      obtain ⟨qs, e1, rfl⟩ := ih _ (fun c hc => hn c (by simp [hc])) h2
      have hb : blank (.select c.2) = false := by
        have := (hn c (by simp)).2
        obtain ⟨n, c2⟩ := c
        cases c2
        simpa [blank] using this
      obtain ⟨q, e2, rfl⟩ := h1.1 (hn c (by simp)).1 hb
      rw [show (Expr.select c.2).write = c.2.write from by rw [Expr.write]] at e2
      exact ⟨q :: qs, by rw [List.map_cons, List.map_cons, e1, e2], by simp⟩

/-- C58. Take any calls on a SELECT builder among which the calls of `With` were given
`With(name, query)` for these names and (non-empty) builders. Then the text begins, after the prefix,
with WITH followed by `name AS (query)` for each of them in order: every name as it was given, and
every query as it is written on its own. -/
theorem C58_with (columns : List Any) (b0 b : SelectStmt) (calls : List SelCall) (t : Str)
    (ctes : List (Str × SelectStmt)) (h0 : select columns = .ok b0)
    (hc : runAll SelCall.apply calls b0 = .ok b) (ht : b.write.string = .ok t)
    (hw : (withCalls calls).map Except.ok = ctes.map fun c => Api.With c.1 (.selectB c.2))
    (hn : ∀ c ∈ ctes, c.1 ≠ [] ∧ c.2.exprs ≠ []) :
    ∃ queries rest, ctes.map (fun c => c.2.write.string) = queries.map .ok ∧
      t = oneSpace ([when (!b.pfx.isEmpty) b.pfx,
        when (!ctes.isEmpty) (s%"WITH " ++ commaText
          ((ctes.zip queries).map fun p => p.1.1 ++ s%" AS (" ++ p.2 ++ s%")"))] ++ rest)
        ++ commentText b.comment := by
  obtain ⟨js, joins, orders, withs, -, -, -, h4, select, tables, whr, groupBy, having, limit, offset,
    h⟩ := C49_text columns b0 b calls t h0 hc ht
  have hq := with_args _ _ hw
  rw [hq] at h4
  obtain ⟨queries, e1, rfl⟩ := with_texts ctes withs hn h4
  have hemp : (withCalls calls).isEmpty = ctes.isEmpty := by rw [hq]; cases ctes <;> rfl
  rw [hemp] at h
  refine ⟨queries, [some (s%"SELECT " ++ select), tables] ++ joins.map some ++ [whr, groupBy, having,
      when (!(orderCalls calls).isEmpty) (s%"ORDER BY " ++ commaText orders),
      limit, offset, when (!b.sfx.isEmpty) b.sfx], e1, ?_⟩
  rw [h]
  simp only [List.append_assoc, List.cons_append, List.nil_append]

/-- C58. The same for UPDATE, the other builder with a method `With`: the text begins with WITH
followed by `name AS (query)` for each of them in order, then the word UPDATE. -/
theorem C58_update (table : Any) (b0 b : UpdateStmt) (calls : List UpdCall) (t : Str)
    (ctes : List (Str × SelectStmt)) (h0 : update table = .ok b0)
    (hc : runAll UpdCall.apply calls b0 = .ok b) (ht : (Stmt.update b).write.string = .ok t)
    (hw : (updWithCalls calls).map Except.ok = ctes.map fun c => Api.With c.1 (.selectB c.2))
    (hn : ∀ c ∈ ctes, c.1 ≠ [] ∧ c.2.exprs ≠ []) :
    ∃ queries rest, ctes.map (fun c => c.2.write.string) = queries.map .ok ∧
      t = oneSpace (when (!ctes.isEmpty) (s%"WITH " ++ commaText
          ((ctes.zip queries).map fun p => p.1.1 ++ s%" AS (" ++ p.2 ++ s%")")) ::
        some s%"UPDATE" :: rest) ++ commentText b.comment := by
  obtain ⟨withs, rest, h4, h⟩ := C49_update_text table b0 b calls t h0 hc ht
  have hq := with_args _ _ hw
  rw [hq] at h4
  obtain ⟨queries, e1, rfl⟩ := with_texts ctes withs hn h4
  have hemp : (updWithCalls calls).isEmpty = ctes.isEmpty := by rw [hq]; cases ctes <;> rfl
  rw [hemp] at h
  exact ⟨queries, rest, e1, h⟩

/-! ## C59: the table of INSERT, UPDATE and DELETE ... USING -/

/-- A table given to `Insert` or `Update`: a name, or a table; `Insert` also takes an INTO clause. -/
inductive TableArg : Bool → Any → Table → Prop where
  | name (b : Bool) (n : Str) : TableArg b (.val (.str n)) { name := n }
  | table (b : Bool) (t : Table) : TableArg b (.table t) t
  | into (t : Table) : TableArg true (.into t) t

private theorem checked_iff (t t' : Table) (m : String) :
    (if t.isEmpty then Go.panic m else .ok t) = (.ok t' : Go Table) ↔ t' = t ∧ t'.name ≠ [] := by
  cases h : t.isEmpty with
  | true =>
    have : t.name = [] := by simpa [Table.isEmpty] using h
    simp only [if_pos, Go.panic, reduceCtorEq, false_iff]
    rintro ⟨rfl, h'⟩
    exact h' this
  | false =>
    have : t.name ≠ [] := by simpa [Table.isEmpty] using h
    simp only [Bool.false_eq_true, if_false, Except.ok.injEq]
    exact ⟨fun e => ⟨e.symm, e ▸ this⟩, fun e => e.1.symm⟩

private theorem toInto_iff (a : Any) (t : Table) :
    toInto a = .ok t ↔ TableArg true a t ∧ t.name ≠ [] := by
  have hno : ∀ a, (∀ s, a ≠ .val (.str s)) → (∀ s, a ≠ .into s) → (∀ s, a ≠ .table s) →
      ¬ TableArg true a t := by
    rintro a h1 h2 h3 (_ | _ | _)
    · exact h1 _ rfl
    · exact h3 _ rfl
    · exact h2 _ rfl
  have hyes : ∀ a t', TableArg true a t' → (TableArg true a t ↔ t = t') := by
    rintro a t' h
    constructor
    · intro h'; cases h <;> cases h' <;> rfl
    · rintro rfl; exact h
  cases a with
  | val v =>
    cases v with
    | str s =>
      rw [hyes _ _ (.name true s)]
      exact checked_iff _ _ _
    | _ => simp [toInto, Go.panic, hno]
  | into t' =>
    rw [hyes _ _ (.into t')]
    exact checked_iff _ _ _
  | table t' =>
    rw [hyes _ _ (.table true t')]
    exact checked_iff _ _ _
  | _ => simp [toInto, Go.panic, hno]

private theorem toTable_iff (a : Any) (t : Table) :
    toTable a = .ok t ↔ TableArg false a t ∧ t.name ≠ [] := by
  have hno : ∀ a, (∀ s, a ≠ .val (.str s)) → (∀ s, a ≠ .table s) → ¬ TableArg false a t := by
    rintro a h1 h3 (_ | _ | _)
    · exact h1 _ rfl
    · exact h3 _ rfl
  have hyes : ∀ a t', TableArg false a t' → (TableArg false a t ↔ t = t') := by
    rintro a t' h
    constructor
    · intro h'; cases h <;> cases h' <;> rfl
    · rintro rfl; exact h
  cases a with
  | val v =>
    cases v with
    | str s =>
      rw [hyes _ _ (.name false s)]
      exact checked_iff _ _ _
    | _ => simp [toTable, Go.panic, hno]
  | table t' =>
    rw [hyes _ _ (.table false t')]
    exact checked_iff _ _ _
  | _ => simp [toTable, Go.panic, hno]

/-- C59. `Insert` accepts exactly a table with a name. -/
theorem C59_insert_accepts (a : Any) :
    (∃ b, insert a = .ok b) ↔ ∃ tb, TableArg true a tb ∧ tb.name ≠ [] := by
  simp only [← toInto_iff]
  unfold insert InsertStmt.Into
  rw [if_neg (by decide)]
  cases toInto a <;> simp

/-- C59. `Update` accepts exactly a table with a name. -/
theorem C59_update_accepts (a : Any) :
    (∃ b, update a = .ok b) ↔ ∃ tb, TableArg false a tb ∧ tb.name ≠ [] := by
  simp only [← toTable_iff]
  unfold update UpdateStmt.new
  cases toTable a <;> simp

/-- C59. `Using` of a DELETE accepts exactly tables with a name, and keeps their number and order
(zero tables are accepted and leave the clause out). -/
theorem C59_using_accepts (b b' : DeleteStmt) (hb : b.usings = []) (args : List Any) :
    b.Using args = .ok b' ↔ ∃ ts, Each (fun a t => TableArg false a t ∧ t.name ≠ []) args ts ∧
      b' = { b with usings := ts } := by
  have : ∀ args ts, toTables args = .ok ts ↔
      Each (fun a t => TableArg false a t ∧ t.name ≠ []) args ts := by
    intro args
    induction args with
    | nil =>
      intro ts
      simp only [toTables, Except.ok.injEq]
      exact ⟨fun h => h ▸ .nil, fun h => by cases h; rfl⟩
    | cons a l ih =>
      intro ts
      rw [toTables]
      constructor
      · intro h
        split at h
        · cases h
        · next t ht =>
          split at h
          · cases h
          · next ts' hts =>
            cases h
            exact .cons ((toTable_iff _ _).1 ht) ((ih _).1 hts)
      · intro h
        cases h with
        | cons h1 h2 => simp only [(toTable_iff _ _).2 h1, (ih _).2 h2]
  unfold DeleteStmt.Using
  rw [if_neg (by simp [hb])]
  constructor
  · intro h
    split at h
    · cases h
    · next ts hts => cases h; exact ⟨ts, (this _ _).1 hts, rfl⟩
  · rintro ⟨ts, h, rfl⟩
    simp only [(this _ _).2 h]

private theorem tableArg_unique {f : Bool} {a : Any} {t t' : Table} (h : TableArg f a t)
    (h' : TableArg f a t') : t = t' := by
  cases h <;> cases h' <;> rfl

private theorem insert_into {a : Any} {b : InsertStmt} {tb : Table} (ha : TableArg true a tb)
    (h : insert a = .ok b) : b.into = tb ∧ tb.name ≠ [] := by
  unfold insert InsertStmt.Into at h
  rw [if_neg (by decide)] at h
  split at h
  · cases h
  · next t ht =>
    cases h
    obtain ⟨h1, h2⟩ := (toInto_iff _ _).1 ht
    have := tableArg_unique h1 ha
    exact ⟨this, this ▸ h2⟩

private theorem ins_into (calls : List InsCall) (b b' : InsertStmt) (hne : b.into.name ≠ [])
    (hc : runAll InsCall.apply calls b = .ok b') : b'.into = b.into := by
  induction calls generalizing b with
  | nil => cases hc; rfl
  | cons c l ih =>
    rw [runAll] at hc
    split at hc
    · cases hc
    · next b1 h1 =>
      have e : b1.into = b.into := by
        cases c with
        | into x =>
          simp only [InsCall.apply, InsertStmt.Into] at h1
          rw [if_pos (by simpa [Table.isEmpty] using hne)] at h1
          cases h1
        | _ => exact C23_insert_frame _ _ _ h1 .into (by simp [InsCall.clauses])
      rw [ih b1 (by rw [e]; exact hne) hc, e]

/-- C59. Whatever calls follow `Insert(table)`: the text is an INSERT INTO this table. -/
theorem C59_insert_text (a : Any) (tb : Table) (ha : TableArg true a tb) (b0 b : InsertStmt)
    (calls : List InsCall) (t : Str) (h0 : insert a = .ok b0)
    (hc : runAll InsCall.apply calls b0 = .ok b) (ht : (Stmt.insert b).write.string = .ok t) :
    ∃ x rest, tb.write.string = .ok x ∧ t = s%"INSERT INTO " ++ x ++ rest := by
  obtain ⟨e, hne⟩ := insert_into ha h0
  have e2 := ins_into calls b0 b (by rw [e]; exact hne) hc
  obtain ⟨into, values, conflict, columns, returning, h1, -, -, -, -, -, rfl⟩ := C25_insert b t ht
  rw [e2, e] at h1
  have hh : ∀ (l : List (Option Str)), ∃ r, oneSpace (some (s%"INSERT INTO " ++ into) :: l)
      = s%"INSERT INTO " ++ into ++ r := by
    intro l
    unfold oneSpace
    rw [show List.filterMap id (some (s%"INSERT INTO " ++ into) :: l)
      = (s%"INSERT INTO " ++ into) :: List.filterMap id l from rfl]
    cases List.filterMap id l with
    | nil => exact ⟨[], by simp [List.intercalate]⟩
    | cons y l' => exact ⟨s%" " ++ List.intercalate s%" " (y :: l'), by simp [List.intercalate]⟩
  obtain ⟨r, hr⟩ := hh _
  exact ⟨into, r ++ _, h1, by rw [hr, List.append_assoc]⟩

private theorem upd_table (calls : List UpdCall) (b b' : UpdateStmt)
    (hc : runAll UpdCall.apply calls b = .ok b') : b'.table = b.table := by
  induction calls generalizing b with
  | nil => cases hc; rfl
  | cons c l ih =>
    rw [runAll] at hc
    split at hc
    · cases hc
    · next b1 h1 =>
      rw [ih b1 hc]
      cases c
      all_goals
        simp only [UpdCall.apply, UpdateStmt.Only, UpdateStmt.Set, UpdateStmt.Using, UpdateStmt.With,
          UpdateStmt.Where, UpdateStmt.And, UpdateStmt.Or, UpdateStmt.From, UpdateStmt.Returning,
          UpdateStmt.Comment] at h1
        repeat' split at h1
        all_goals first | (cases h1; rfl) | cases h1

/-- C59. Whatever calls follow `Update(table)`: the text is an UPDATE of this table. -/
theorem C59_update_text (a : Any) (tb : Table) (ha : TableArg false a tb) (b0 b : UpdateStmt)
    (calls : List UpdCall) (t : Str) (h0 : update a = .ok b0)
    (hc : runAll UpdCall.apply calls b0 = .ok b) (ht : (Stmt.update b).write.string = .ok t) :
    ∃ withs x set rest, tb.write.string = .ok x ∧ b.set.write.string = .ok set ∧
      t = oneSpace ([when (!b.withs.isEmpty) (s%"WITH " ++ withs), some s%"UPDATE",
        when b.only s%"ONLY", some x, some set] ++ rest) ++ commentText b.comment := by
  have e : b0.table = tb := by
    unfold update UpdateStmt.new at h0
    split at h0
    · cases h0
    · next t ht =>
      cases h0
      exact tableArg_unique ((toTable_iff _ _).1 ht).1 ha
  obtain ⟨withs, tables, returning, table, set, whr, -, h1, h2, -, -, -, -, rfl⟩ := C25_update b t ht
  rw [upd_table calls b0 b hc, e] at h1
  exact ⟨commaText withs, table, set, _, h1, h2, rfl⟩

/-! ## C59: the methods of tables -/

/-- A call of one of the methods of a table. -/
inductive TableCall where
  | as (alias : Str)
  | only

/-- Making the call. -/
def TableCall.apply (t : Table) : TableCall → Table
  | .as a => t.as a
  | .only => t.withOnly

/-- The alias that the call gives. -/
def TableCall.alias? : TableCall → Option Str
  | .as a => some a
  | .only => none

/-- Is it the call that asks for ONLY? -/
def TableCall.isOnly : TableCall → Bool
  | .only => true
  | .as _ => false

/-- C59. `Table(name)` with any calls of `As` and `Only` in any order is written as the quoted name,
after ONLY if `Only` was called, and with the alias that was given last. -/
theorem C59_methods (name : Str) (calls : List TableCall) :
    (calls.foldl TableCall.apply (Api.Table name)).write.string = .ok (
      (if calls.any TableCall.isOnly then s%"ONLY " else []) ++ quote name ++
      (match calls.reverse.findSome? TableCall.alias? with
        | none | some [] => []
        | some a => s%" AS " ++ quote a)) := by
  have key : ∀ (calls : List TableCall) (t : Table), calls.foldl TableCall.apply t =
      { name := t.name, alias := (calls.reverse.findSome? TableCall.alias?).getD t.alias,
        only := t.only || calls.any TableCall.isOnly } := by
    intro calls
    induction calls with
    | nil => intro t; obtain ⟨⟩ := t; simp
    | cons c l ih =>
      intro t
      rw [List.foldl_cons, ih, List.reverse_cons, List.findSome?_append, List.any_cons]
      cases c with
      | as a =>
        simp only [TableCall.apply, Table.as, TableCall.isOnly, Bool.false_or]
        cases l.reverse.findSome? TableCall.alias? <;> rfl
      | only =>
        simp only [TableCall.apply, Table.withOnly, TableCall.isOnly, Bool.true_or, Bool.or_true]
        cases l.reverse.findSome? TableCall.alias? <;> rfl
  rw [key]
  refine (string_denotes (denotes_table _) _).2 ⟨rfl, ?_⟩
  simp only [tableL, Api.Table, Bool.false_or]
  cases calls.any TableCall.isOnly <;>
  · rcases calls.reverse.findSome? TableCall.alias? with _ | _ | ⟨c, a⟩ <;>
      simp [aliased, rawText, Piece.rawText]

/-! ## C16 for the condition of HAVING -/

/-- `Having.And` and `Having.Or` -/
def havingStep (w : Expr) : CondCall → Expr → Go Expr
  | .or, e => havingOr w e
  | _, e => havingAnd w e

/-- C16. `Having(c0)` followed by any calls of `And` and `Or` on the clause: each call joins all that
came before with its own condition, in parentheses. (Unlike for WHERE, sub-selects get no
parentheses of their own.) -/
theorem C16_having (c0 : Expr) (t0 : Str) (h0 : blank c0 = false) (ht0 : c0.write.string = .ok t0)
    (calls : List (CondCall × Expr × Str))
    (hc : ∀ x ∈ calls, blank x.2.1 = false ∧ x.2.1.write.string = .ok x.2.2) :
    ∃ w, runCalls havingStep c0 (calls.map fun x => (x.1, x.2.1)) = .ok w ∧
      w.write.string = .ok (foldText t0 (calls.map fun x => (x.1, x.2.2))) := by
  induction calls generalizing c0 t0 with
  | nil => exact ⟨c0, rfl, ht0⟩
  | cons x calls ih =>
    obtain ⟨h1, h2⟩ := hc x List.mem_cons_self
    have hu := isUnset_of ((expr_string _ _).1 ht0).1
    rw [h0] at hu
    have hs : havingStep c0 x.1 x.2.1 = .ok (.infx c0 (.logical x.1.word) x.2.1) := by
      cases x.1 <;> simp only [havingStep, havingAnd, havingOr, hu] <;> rfl
    obtain ⟨w, hw, ht⟩ := ih (.infx c0 (.logical x.1.word) x.2.1)
      (s%"(" ++ t0 ++ s%" " ++ x.1.word ++ s%" " ++ x.2.2 ++ s%")")
      (by cases x.1 <;> simp [blank, h0, opBlank, CondCall.word, h1])
      ((infx_string _ _ _ _).2 ⟨h0, by cases x.1 <;> rfl, h1, t0, x.2.2, ht0, h2,
        by simp [comparisonText, paren, opL]⟩)
      (fun y hy => hc y (List.mem_cons_of_mem _ hy))
    exact ⟨w, by rw [List.map_cons, runCalls, hs]; exact hw, ht⟩

/-- C16. `And` and `Or` on a HAVING without condition panic. -/
theorem C16_having_first (c : CondCall) (e : Expr) :
    ∃ m, havingStep .nil c e = .error (.msg m) := by
  cases c <;> exact ⟨_, rfl⟩

/-! ## C41: joins given with a constructor -/

/-- C41. `NewInnerJoin`, `NewLeftJoin` and `NewRightJoin` are written as INNER JOIN, LEFT JOIN and
RIGHT JOIN with their table and their condition. -/
theorem C41_constructors (tb : Table) (cond : Expr) (x y : Str) (hx : tb.write.string = .ok x)
    (hy : cond.write.string = .ok y) :
    (newInnerJoin tb cond).write.string = .ok (s%"INNER JOIN " ++ x ++ s%" ON " ++ y) ∧
    (newLeftJoin tb cond).write.string = .ok (s%"LEFT JOIN " ++ x ++ s%" ON " ++ y) ∧
    (newRightJoin tb cond).write.string = .ok (s%"RIGHT JOIN " ++ x ++ s%" ON " ++ y) := by
  have key : ∀ k : Str, (newJoin k tb cond).write.string =
      .ok (k ++ s%" " ++ x ++ s%" ON " ++ y) := by
    intro k
    obtain ⟨-, ex⟩ := (string_denotes (denotes_table tb) x).1 hx
    obtain ⟨hok, ey⟩ := (expr_string cond y).1 hy
    refine (string_denotes (denotes_join _) _).2 ⟨hok, ?_⟩
    refine (rawText_append_ok (rawText_sql_ok (rawText_sql_ok ex)) (rawText_sql_ok ey)).trans ?_
    simp
  exact ⟨key _, key _, key _⟩

/-! ## C60: telling the kind of a builder -/

/-- C60 fails for every builder: `IsSelectBuilder` is documented to return true if the builder is a
SELECT builder, but it only recognises pointers, and all the functions and methods of the library
return builders that are not pointers. -/
theorem C60_false (s : Stmt) : isSelectBuilder (typeOf s) = false ∧
    isInsertBuilder (typeOf s) = false ∧ isUpdateBuilder (typeOf s) = false ∧
    isDeleteBuilder (typeOf s) = false := by
  cases s <;> exact ⟨rfl, rfl, rfl, rfl⟩

/-- C60, exactly: each function returns true for the pointers to builders of its kind, and for
nothing else. -/
theorem C60_exact (s : Stmt) (b : BuilderType) (hb : b = typeOf s ∨ b = pointerTo s) :
    (isSelectBuilder b = true ↔ b ≠ typeOf s ∧ ∃ x, s = .select x) ∧
    (isInsertBuilder b = true ↔ b ≠ typeOf s ∧ ∃ x, s = .insert x) ∧
    (isUpdateBuilder b = true ↔ b ≠ typeOf s ∧ ∃ x, s = .update x) ∧
    (isDeleteBuilder b = true ↔ b ≠ typeOf s ∧ ∃ x, s = .delete x) := by
  rcases hb with rfl | rfl <;> cases s <;>
    simp [isSelectBuilder, isInsertBuilder, isUpdateBuilder, isDeleteBuilder, typeOf, pointerTo]

/-- C60. A builder of one kind is never taken for one of another kind, and a pointer to a builder is
recognised as what it is.

Missing for C60: a builder that is not a pointer (`C60_false`). -/
theorem C60_partial (b : BuilderType) :
    (isSelectBuilder b = true → b = .select ∨ b = .selectPtr) ∧
    (isInsertBuilder b = true → b = .insert ∨ b = .insertPtr) ∧
    (isUpdateBuilder b = true → b = .update ∨ b = .updatePtr) ∧
    (isDeleteBuilder b = true → b = .delete ∨ b = .deletePtr) ∧
    isSelectBuilder .selectPtr = true ∧ isInsertBuilder .insertPtr = true ∧
    isUpdateBuilder .updatePtr = true ∧ isDeleteBuilder .deletePtr = true := by
  cases b <;> decide

end

/-! ## The hypotheses can be met -/

section
attribute [local instance] Runtime.sample

/-- C56, C57 and C58 on one query. -/
example : (do
    let w ← Api.With s%"active" (.selectB Sample.groups)
    let b ← select [.val (.str s%"id"),
      .selExpr ([AggCall.distinct true, .as s%"n"].foldl AggCall.apply (Api.Count s%"name"))]
    let b ← runAll SelCall.apply
      [.from [.table (Api.Table s%"users")],
       .orderBy ([OrderKey.default s%"id", .directed s%"a" s%"DESC" [s%"ASC"]].map OrderKey.make),
       .with [w],
       .orderBy ([OrderKey.desc s%"name" s%"n", .asc s%"b" s%""].map OrderKey.make)] b
    b.write.string) = .ok (
      s%"WITH active AS (SELECT \"id\" FROM \"groups\" WHERE (\"active\" = true)) " ++
      s%"SELECT \"id\", COUNT(DISTINCT name) AS n FROM \"users\" " ++
      s%"ORDER BY id ASC, a DESC, n DESC, b ASC") := by
  decide +kernel

/-- C58 for UPDATE, with two calls of `With` around another call. -/
example : (do
    let w ← Api.With s%"active" (.selectB Sample.groups)
    let v ← Api.With s%"g" (.selectB Sample.groups)
    let b ← update (.table (Api.Table s%"users"))
    let b ← runAll UpdCall.apply
      [.with [w], .set [.pair (.val (.str s%"a")) (.val (.bool true))], .with [v]] b
    (Stmt.update b).write.string) = .ok (
      s%"WITH active AS (SELECT \"id\" FROM \"groups\" WHERE (\"active\" = true)), " ++
      s%"g AS (SELECT \"id\" FROM \"groups\" WHERE (\"active\" = true)) " ++
      s%"UPDATE \"users\" SET \"a\" = true") := by
  decide +kernel

/-- C59: names, tables and INTO clauses are accepted; empty names are refused at once. -/
example : (∃ b, insert (.into (Api.Table s%"t")) = .ok b) ∧ (∃ b, update (.table (Api.Table s%"t")) = .ok b) ∧
    (¬ ∃ b, insert (.val (.str [])) = .ok b) ∧ ¬ ∃ b, update (.table (Api.Table [])) = .ok b := by
  refine ⟨⟨_, rfl⟩, ⟨_, rfl⟩, ?_, ?_⟩ <;> rintro ⟨b, h⟩ <;> cases h

end

section
attribute [local instance] Runtime.sample

example : ((Api.Table s%"a.b").as s%"x").withOnly.write.string =
    .ok s%"ONLY \"a\".\"b\" AS \"x\"" := by rfl
example : ((Api.Table s%"t").withOnly.as s%"x").write.string = .ok s%"ONLY \"t\" AS \"x\"" := by rfl

example : (newLeftJoin ((Api.Table s%"t").as s%"x")
    (.infx (.ident (.str s%"x.a")) (.comparison s%"=") (.ident (.str s%"b")))).write.string
    = .ok s%"LEFT JOIN \"t\" AS \"x\" ON (\"x\".\"a\" = \"b\")" := by rfl

example : ((havingAnd (.infx (.ident (.str s%"a")) (.comparison s%">") (.value (.bool true)))
      (.infx (.ident (.str s%"b")) (.comparison s%"=") (.ident (.str s%"c")))).bind fun w =>
      (havingOr w (.raw s%"d")).bind fun w => w.write.string)
    = .ok s%"(((\"a\" > true) AND (\"b\" = \"c\")) OR d)" := by rfl

end

end Verif.Props
