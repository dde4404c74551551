import Verif.Lemmas.Determined
import Verif.Props.Portable
import Verif.Props.ForkInsert

/-!
# C73 and C47: the statements for which the version of Go, or an earlier rendering, makes a difference
-/

namespace Verif.Props
open Spec

/-- Whether rendering a statement panics never depends on the version of Go. -/
theorem C73_panics (r r' : GoRuntime) (s : Stmt) :
    (∃ q, (@Stmt.write r s).query = .ok q) ↔ ∃ q, (@Stmt.write r' s).query = .ok q := by
  have key : ∀ r r' : GoRuntime, (∃ q, (@Stmt.write r s).query = .ok q) →
      ∃ q, (@Stmt.write r' s).query = .ok q := by
    rintro r r' ⟨q, hq⟩
    have h := (@query_ok r s q hq).1
    rw [portable_ok r r'] at h
    exact ⟨_, @query_eq r' s h⟩
  exact ⟨key r r', key r' r⟩

/-- The order of columns decides: all versions of Go that call the same characters printable
render a statement to the same query exactly if the aliases of the columns to which it assigns by
name do not contradict the names. -/
theorem C73_aliases (r : GoRuntime) (s : Stmt) (hk : Kept s) (q : Str × List Val)
    (hq : (@Stmt.write r s).query = .ok q) :
    (∀ r' : GoRuntime, r'.isPrint = r.isPrint → (@Stmt.write r' s).query = .ok q) ↔
      Agree (assignedColumns s) := by
  constructor
  · intro h
    refine Classical.byContradiction fun hn => ?_
    obtain ⟨p, hs, hm, hc⟩ := assigned_clause hn
    rw [hc] at hn
    refine hn (agree_of_texts r hs hm (hk p hs hm).1 (kept_nonblank hk hs hm hn)
      (@query_ok r s q hq).1 ?_)
    have h1 := (@query_ok (Runtime.lazy r) s q (h (Runtime.lazy r) rfl)).2
    have h2 := (@query_ok (Runtime.reversing r) s q (h (Runtime.reversing r) rfl)).2
    rw [h1] at h2
    exact congrArg Prod.fst h2
  · intro ha r' hr
    exact ((C73_partial r r' s ha fun n _ c _ => by rw [hr]).1 q).1 hq

/-- C73, exactly: the statements that all versions of Go render to the same query are those whose
aliases do not contradict names, and whose names are ASCII. -/
theorem C73_characterised (r : GoRuntime) (s : Stmt) (hk : Kept s) (q : Str × List Val)
    (hq : (@Stmt.write r s).query = .ok q) :
    (∀ r' : GoRuntime, (@Stmt.write r' s).query = .ok q) ↔
      Agree (assignedColumns s) ∧ ∀ n ∈ namesOf (@layout r s), Ascii n := by
  constructor
  · intro h
    have ha := (C73_aliases r s hk q hq).1 fun r' _ => h r'
    refine ⟨ha, fun n hn c hc => ?_⟩
    refine Classical.byContradiction fun h1 => ?_
    have := (C73_exact r
      { r with
        isPrint := fun d => if d.toNat < 128 then r.isPrint d else !r.isPrint d
        isPrint_ascii := fun d hd => by simp only [hd, if_true]; exact r.isPrint_ascii d hd }
      s ha q hq).1 (h _) n hn c hc
    simp only [if_neg h1] at this
    cases hp : r.isPrint c <;> rw [hp] at this <;> cases this
  · exact fun ⟨ha, hn⟩ r' => (C73_ascii r r' s ha hn q).1 hq

/-- The condition on columns is met by every UPDATE that is built with calls. -/
theorem C73_update (table : Any) (b0 : UpdateStmt) (h0 : update table = .ok b0)
    (calls : List UpdCall) (u : UpdateStmt) (h : runAll UpdCall.apply calls b0 = .ok u)
    (r : GoRuntime) (q : Str × List Val) (hq : (@Stmt.write r (.update u)).query = .ok q) :
    (∀ r' : GoRuntime, (@Stmt.write r' (.update u)).query = .ok q) ↔
      Agree (assignedColumns (.update u)) ∧ ∀ n ∈ namesOf (@layout r (.update u)), Ascii n :=
  C73_characterised r _ (kept_built h0 h) q hq

/-- A SELECT or a DELETE is rendered by all versions to the same query exactly if its names are
ASCII. -/
theorem C73_no_set (r : GoRuntime) (s : Stmt) (hs : setClause s = none) (q : Str × List Val)
    (hq : (@Stmt.write r s).query = .ok q) :
    (∀ r' : GoRuntime, (@Stmt.write r' s).query = .ok q) ↔
      ∀ n ∈ namesOf (@layout r s), Ascii n := by
  have hc : assignedColumns s = [] := by
    cases s with
    | select s => rfl
    | delete s => rfl
    | update u => cases hs
    | insert i =>
      cases ha : i.action <;> simp only [setClause, assignedColumns, ha, reduceCtorEq] at hs ⊢
  rw [C73_characterised r s (fun p hp => by rw [hs] at hp; cases hp) q hq, hc]
  exact ⟨fun h => h.2, fun h => ⟨fun _ hc => absurd hc List.not_mem_nil, h⟩⟩

/-- Building an INSERT with `Set`, exactly: all versions of Go build the same statement exactly if
the aliases do not contradict the names. -/
theorem C73_insert_exact (r : GoRuntime) (args : List Any) (b b' : InsertStmt)
    (h : @InsertStmt.Set r b args = .ok b') :
    (∀ r' : GoRuntime, @InsertStmt.Set r' b args = .ok b') ↔
      Agree (InsCall.set args).setColumns := by
  constructor
  · intro hall
    refine Classical.byContradiction fun hn => ?_
    have key : ∀ r' : GoRuntime, ∃ p, toSet args = .ok p ∧
        b'.columns = r'.sortSlice columnLess p.columns := by
      intro r'
      have hb := hall r'
      unfold InsertStmt.Set at hb
      split at hb
      · cases hb
      · split at hb
        · cases hb
        · cases hb
        · split at hb
          · cases hb
          · next p hp =>
            refine ⟨p, hp, ?_⟩
            have hm : p.mode = .associative := by
              obtain ⟨g, _, rfl⟩ := (mergeSet_pairs_iff (p := { PairContainer.new with
                mode := .associative }) rfl).1 hp
              exact assignAll_mode_associative (.inl rfl)
            split at hb
            · cases hb
            · next cs es hv =>
              split at hb
              · cases hb
              · cases hb
                unfold PairContainer.values at hv
                rw [if_neg (by simp [hm])] at hv
                cases hl : lookupAll p.map (r'.sortSlice columnLess p.columns) with
                | error e => rw [hl] at hv; cases hv
                | ok l =>
                  rw [hl] at hv
                  cases hv
                  exact lookupAll_columns hl
    obtain ⟨p, hp, h1⟩ := key (Runtime.lazy r)
    obtain ⟨p', hp', h2⟩ := key (Runtime.reversing r)
    rw [hp] at hp'
    cases hp'
    simp only [InsCall.setColumns, hp] at hn
    rw [lazy_columns r hn] at h1
    rw [reversing_columns r hn, h1] at h2
    have hk : KeysOk p := by
      have hm : p.mode = .associative := by
        obtain ⟨g, _, rfl⟩ := (mergeSet_pairs_iff (p := { PairContainer.new with
          mode := .associative }) rfl).1 hp
        exact assignAll_mode_associative (.inl rfl)
      exact kept_merge (p := { PairContainer.new with mode := .associative })
        (fun _ => keysOk_new) hp (by rw [hm]; simp)
    refine hn fun c hc d hd hlt => ?_
    exact absurd hlt ((nodup_reverse hk.1 (congrArg List.head? h2) c hc d hd) ▸ @str_lt_irrefl r _)
  · intro ha r'
    have := portable_call r r' (c := .set args) ha b
    simp only [InsCall.apply] at this
    rw [← this]
    exact h

/-! ## Rendering again -/

/-- C47, UPDATE, exactly: rendering a builder leaves what it renders to the same with every version
of Go exactly if the aliases do not contradict the names. -/
theorem C47_update_exact (h : UpdHeap) (b : UpdRef) (hv : b.set.columns.Valid h.columns)
    (hk : Kept (.update (b.stmt h))) (r : GoRuntime) (q : Str × List Val)
    (hq : (@Stmt.write r (.update (b.stmt h))).query = .ok q) :
    (∀ r' : GoRuntime, r'.isPrint = r.isPrint →
      @SameRenderings r' (.update (b.stmt (@UpdRef.rendered r' h b true))) (.update (b.stmt h))) ↔
    Agree (assignedColumns (.update (b.stmt h))) := by
  constructor
  · intro hall
    refine Classical.byContradiction fun hn => ?_
    obtain ⟨p, hs, hm, hc⟩ := assigned_clause hn
    rw [hc] at hn
    have hb := kept_nonblank hk hs hm hn
    cases hs
    have hset : (b.stmt (@UpdRef.rendered (Runtime.reversing r) h b true)) =
        { b.stmt h with
          set := { (b.stmt h).set with columns := (b.stmt h).set.columns.reverse } } := by
      unfold UpdRef.rendered
      rw [if_pos (by
        rw [setIsEmpty_eq]
        simp only [Bool.true_and, Bool.and_eq_true, Bool.not_eq_true', beq_iff_eq]
        exact ⟨hb, hm⟩)]
      have h1 : (@Store.sortInPlace (Runtime.reversing r) h.columns b.set.columns).read
          b.set.columns = (h.columns.read b.set.columns).reverse :=
        (@Store.read_sortInPlace (Runtime.reversing r) _ _ hv).1.trans (reversing_columns r hn)
      simp only [UpdRef.stmt, PairRef.value, h1, UpdHeap.mapOf]
    have h3 := (hall (Runtime.reversing r) rfl).2.2
    rw [hset] at h3
    refine hn (agree_of_again r rfl hm (hk _ rfl hm).1 hb (@query_ok r _ q hq).1 ?_ h3)
    simp only [layout, updateL]
    rw [reversed_set r hm hn]
  · intro ha r' _
    by_cases hm : b.set.mode = .associative
    · have ha' : Agree (h.columns.read b.set.columns) := by
        rw [assignedColumns, if_pos (show (b.stmt h).set.mode = .associative from hm)] at ha
        exact ha
      exact @C47_update_repeat r' h b hv ha' [true]
    · unfold UpdRef.rendered
      rw [if_neg (by simp [hm])]
      exact ⟨rfl, rfl, rfl⟩

/-- C47, INSERT, exactly: the same for the columns of DO UPDATE. -/
theorem C47_insert_exact (h : InsHeap) (b : InsRef) (hv : b.set.Valid h.sets)
    (hk : Kept (.insert (b.stmt h))) (r : GoRuntime) (q : Str × List Val)
    (hq : (@Stmt.write r (.insert (b.stmt h))).query = .ok q) :
    (∀ r' : GoRuntime, r'.isPrint = r.isPrint →
      @SameRenderings r' (.insert (b.stmt (@InsRef.rendered r' h b true))) (.insert (b.stmt h))) ↔
    Agree (assignedColumns (.insert (b.stmt h))) := by
  cases hact : b.base.action with
  | nil =>
    have e : (b.stmt h).action = .nil := by simp only [InsRef.stmt, InsHeap.action, hact]
    simp only [InsRef.rendered, hact, assignedColumns, e]
    exact iff_of_true (fun _ _ => ⟨rfl, rfl, rfl⟩) fun _ hc => absurd hc List.not_mem_nil
  | nothing =>
    have e : (b.stmt h).action = .nothing := by simp only [InsRef.stmt, InsHeap.action, hact]
    simp only [InsRef.rendered, hact, assignedColumns, e]
    exact iff_of_true (fun _ _ => ⟨rfl, rfl, rfl⟩) fun _ hc => absurd hc List.not_mem_nil
  | update p =>
    have hs : setClause (.insert (b.stmt h)) = some { p with columns := h.sets.read b.set } := by
      simp only [setClause, InsRef.stmt, InsHeap.action, hact]
    have hcols : assignedColumns (.insert (b.stmt h)) =
        if p.mode = .associative then h.sets.read b.set else [] := by
      simp only [assignedColumns, InsRef.stmt, InsHeap.action, hact]
    rw [hcols]
    by_cases hm : p.mode = .associative
    · rw [if_pos hm]
      constructor
      · intro hall
        refine Classical.byContradiction fun hn => ?_
        have hb := kept_nonblank hk hs hm hn
        have hset : b.stmt (@InsRef.rendered (Runtime.reversing r) h b true) =
            { b.stmt h with action := .update { p with columns := (h.sets.read b.set).reverse } } := by
          have h1 : (@Store.sortInPlace (Runtime.reversing r) h.sets b.set).read b.set =
              (h.sets.read b.set).reverse :=
            (@Store.read_sortInPlace (Runtime.reversing r) _ _ hv).1.trans (reversing_columns r hn)
          unfold InsRef.rendered
          simp only [hact]
          rw [if_pos (by
            rw [setIsEmpty_eq]
            simp only [Bool.true_and, Bool.and_eq_true, Bool.not_eq_true', beq_iff_eq]
            exact ⟨hb, hm⟩)]
          simp only [InsRef.stmt, InsHeap.action, hact, h1]
        have h3 := (hall (Runtime.reversing r) rfl).2.2
        rw [hset] at h3
        refine hn (agree_of_again r hs hm (hk _ hs hm).1 hb (@query_ok r _ q hq).1 ?_ h3)
        have e : (b.stmt h).action = .update { p with columns := h.sets.read b.set } := by
          simp only [InsRef.stmt, InsHeap.action, hact]
        have h4 := reversed_set r (p := { p with columns := h.sets.read b.set }) hm hn
        simp only [layout, insertL, conflictL, actionL, e, h4]
        rfl
      · intro ha r' _
        have ho : InsOrder (b.stmt (@InsRef.rendered r' h b true)) (b.stmt h) := by
          unfold InsRef.rendered
          simp only [hact]
          split
          · refine ⟨by simp only [InsRef.stmt], ?_⟩
            simp only [InsRef.stmt, InsHeap.action, hact, ActionOrder]
            refine ⟨rfl, ?_, fun hm' => absurd hm hm'⟩
            show ((@Store.sortInPlace r' h.sets b.set).read b.set).Perm _
            rw [(@Store.read_sortInPlace r' _ _ hv).1]
            exact r'.sortSlice_perm _ _
          · refine ⟨rfl, ?_⟩
            simp only [InsRef.stmt, InsHeap.action, hact, ActionOrder]
            exact SetOrder.refl _
        refine @Spec.InsOrder.renderings r' _ _ ho ?_
        simp only [InsRef.stmt, InsHeap.action, hact, actionColumns]
        exact ha
    · rw [if_neg hm]
      refine iff_of_true (fun r' _ => ?_) fun _ hc => absurd hc List.not_mem_nil
      unfold InsRef.rendered
      simp only [hact]
      rw [if_neg (by simp [hm])]
      exact ⟨rfl, rfl, rfl⟩

/-! ## The hypotheses can be met -/

/-- `Update("t").Set(Pair(Column("b").As("x"), 1), Pair(Column("a").As(alias), 2))` -/
private def two (alias : Str) : List UpdCall :=
  [.set [Api.Pair (.selExpr (.column ((Api.Column s%"b").as s%"x"))) (.val (.int .int64 1)),
    Api.Pair (.selExpr (.column ((Api.Column s%"a").as alias))) (.val (.int .int64 2))]]

/-- Aliases in the order of the names, and ASCII: one query for all versions. -/
example : ∃ b0 u q, update (.val (.str s%"t")) = .ok b0 ∧
    runAll UpdCall.apply (two s%"w") b0 = .ok u ∧
    (@Stmt.write Runtime.sample (.update u)).query = .ok q ∧
    Agree (assignedColumns (.update u)) ∧
    (∀ n ∈ namesOf (@layout Runtime.sample (.update u)), Ascii n) ∧
    q.1 = s%"UPDATE \"t\" SET \"a\" AS \"w\" = $1, \"b\" AS \"x\" = $2" := by
  refine ⟨_, _, _, rfl, rfl, rfl, ?_, ?_, ?_⟩ <;> decide +kernel

/-- Aliases in the opposite order: it depends on the version. -/
example : ∃ b0 u q, update (.val (.str s%"t")) = .ok b0 ∧
    runAll UpdCall.apply (two s%"y") b0 = .ok u ∧
    (@Stmt.write Runtime.sample (.update u)).query = .ok q ∧
    ¬ Agree (assignedColumns (.update u)) := by
  refine ⟨_, _, _, rfl, rfl, rfl, ?_⟩
  decide +kernel

/-- `Insert("t").Set(Pair(Column("b").As("x"), 1), Pair(Column("a").As("y"), 2))` is accepted. -/
example : ∃ b b', insert (.val (.str s%"t")) = .ok b ∧
    @InsertStmt.Set Runtime.sample b
      [Api.Pair (.selExpr (.column ((Api.Column s%"b").as s%"x"))) (.val (.int .int64 1)),
       Api.Pair (.selExpr (.column ((Api.Column s%"a").as s%"y"))) (.val (.int .int64 2))] = .ok b' :=
  ⟨_, _, rfl, rfl⟩

/-- Columns `b AS x` and `a AS alias` in memory, with their expressions. -/
private def columnsOf (alias : Str) : List Column :=
  [(Api.Column s%"b").as s%"x", (Api.Column s%"a").as alias]

private def pairsOf (alias : Str) : PairContainer :=
  { mode := .associative, map := (columnsOf alias).map fun c => (c, .value (.int .int 1)),
    columns := [], expressions := [] }

/-- An UPDATE in memory. -/
private def updHeap (alias : Str) : UpdHeap × UpdRef :=
  (⟨[], [⟨columnsOf alias, 2⟩], [], [(pairsOf alias).map]⟩,
   ⟨UpdateStmt.init { name := s%"t" }, .nil, ⟨.associative, 0, ⟨some 0, 2⟩, .nil⟩⟩)

example (alias : Str) : (updHeap alias).2.set.columns.Valid (updHeap alias).1.columns ∧
    Kept (.update ((updHeap alias).2.stmt (updHeap alias).1)) := by
  refine ⟨.inr ⟨0, _, rfl, rfl, Nat.le.refl, Nat.le.refl⟩, ?_⟩
  intro p hp _
  cases hp
  refine ⟨?_, ?_⟩
  · show (columnsOf alias).Nodup
    simp [columnsOf, Api.Column, Column.as]
  · intro c hc
    exact ⟨.value (.int .int 1), List.mem_map_of_mem hc⟩

example : (∃ q, (@Stmt.write Runtime.sample
      (.update ((updHeap s%"y").2.stmt (updHeap s%"y").1))).query = .ok q) ∧
    ¬ Agree (assignedColumns (.update ((updHeap s%"y").2.stmt (updHeap s%"y").1))) ∧
    Agree (assignedColumns (.update ((updHeap s%"w").2.stmt (updHeap s%"w").1))) :=
  ⟨⟨_, rfl⟩, by decide +kernel, by decide +kernel⟩

/-- An INSERT with DO UPDATE in memory. -/
private def insHeap (alias : Str) : InsHeap × InsRef :=
  (⟨[], [⟨columnsOf alias, 2⟩]⟩,
   ⟨{ InsertStmt.zero with
      into := { name := s%"t" }
      action := .update (pairsOf alias) }, .nil, ⟨some 0, 2⟩⟩)

example (alias : Str) : (insHeap alias).2.set.Valid (insHeap alias).1.sets ∧
    Kept (.insert ((insHeap alias).2.stmt (insHeap alias).1)) := by
  refine ⟨.inr ⟨0, _, rfl, rfl, Nat.le.refl, Nat.le.refl⟩, ?_⟩
  intro p hp _
  cases hp
  refine ⟨?_, ?_⟩
  · show (columnsOf alias).Nodup
    simp [columnsOf, Api.Column, Column.as]
  · intro c hc
    exact ⟨.value (.int .int 1), List.mem_map_of_mem hc⟩

example : (∃ q, (@Stmt.write Runtime.sample
      (.insert ((insHeap s%"y").2.stmt (insHeap s%"y").1))).query = .ok q) ∧
    ¬ Agree (assignedColumns (.insert ((insHeap s%"y").2.stmt (insHeap s%"y").1))) ∧
    Agree (assignedColumns (.insert ((insHeap s%"w").2.stmt (insHeap s%"w").1))) :=
  ⟨⟨_, rfl⟩, by decide +kernel, by decide +kernel⟩

end Verif.Props
