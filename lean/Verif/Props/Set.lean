import Verif.Lemmas.Pairs
import Verif.Props.Calls
import Verif.Props.Clauses

/-!
# C31 to C34: assignments
-/

set_option linter.unusedSectionVars false

namespace Verif.Props
open Spec

section
variable [GoRuntime]

private theorem update_text {b : UpdateStmt} {t : Str} (h : (Stmt.update b).write.string = .ok t) :
    ∃ set pre post, b.set.write.string = .ok set ∧ t = pre ++ (s%" " ++ set) ++ post := by
  obtain ⟨w, f, r, tb, set, wh, -, -, hs, -, -, -, -, rfl⟩ := C25_update b t h
  obtain ⟨pre, post, hp⟩ := oneSpace_split (a := s%"UPDATE") (x := set)
    (l := [when (!b.withs.isEmpty) (s%"WITH " ++ commaText w), some s%"UPDATE", when b.only s%"ONLY",
      some tb])
    (r := [when (!b.tables.isEmpty) (s%"FROM " ++ commaText f),
         when (!blank b.whr) (s%"WHERE " ++ wh),
         when (!b.returning.isEmpty) (s%"RETURNING " ++ commaText r)]) (by simp)
  refine ⟨set, pre, post ++ commentText b.comment, hs, ?_⟩
  simp only [List.cons_append, List.nil_append] at hp ⊢
  rw [hp]
  simp

private theorem set_nonempty {p : PairContainer} {t : Str} (h : p.write.string = .ok t) :
    p.isEmpty = false := by
  cases he : p.isEmpty with
  | false => rfl
  | true =>
    have := ((string_denotes (denotes_set p) t).1 h).1
    rw [setIsEmpty_eq] at he
    simp [okSet, he] at this

/-- The assignments of an UPDATE, with the order in which they are written. -/
private theorem update_assigns {table : Any} {b0 b : UpdateStmt} {calls : List UpdCall}
    {g : List (Column × Expr)} {t : Str} (h0 : update table = .ok b0)
    (hc : runAll UpdCall.apply calls b0 = .ok b) (hg : GivenBy calls g)
    (ht : (Stmt.update b).write.string = .ok t) :
    ∃ as xs pre post, Assigns as g ∧ Each PairText as xs ∧
      t = pre ++ (s%" SET " ++ assignText xs) ++ post ∧
      as.map (·.1) = GoRuntime.sortSlice columnLess (assignAll PairContainer.new g).columns := by
  have hs := runAll_given hg (by rw [update_set h0]; simp [PairContainer.new]) hc
  rw [update_set h0] at hs
  obtain ⟨set, pre, post, h1, rfl⟩ := update_text ht
  have hm : (assignAll PairContainer.new g).mode = .associative := by
    refine assignAll_mode_associative (.inr ?_)
    intro h2
    subst h2
    have := set_nonempty h1
    rw [hs] at this
    cases this
  have hk : KeysOk (assignAll PairContainer.new g) := keysOk_all keysOk_new g
  obtain ⟨as, h2, h3, h4⟩ := values_ok hm hk
  rw [hs] at h1
  obtain ⟨xs, h5, rfl⟩ := set_text hm h2 h1
  refine ⟨as, xs, pre, post, ⟨?_, ?_⟩, h5, by simp, h3⟩
  · rw [h3]
    exact (GoRuntime.sortSlice_perm columnLess _).nodup_iff.2 hk.1
  · intro c e
    rw [h4, lookup_all]
    simp [PairContainer.new, mapLookup]

/-! ## C31 -/

/-- C31. After any calls on an UPDATE whose `Set` calls give the assignments `g`, the SET clause
assigns every column of `g` once, the expression given last for it, and no other column. -/
theorem C31_update (table : Any) (b0 b : UpdateStmt) (calls : List UpdCall)
    (g : List (Column × Expr)) (t : Str) (h0 : update table = .ok b0)
    (hc : runAll UpdCall.apply calls b0 = .ok b) (hg : GivenBy calls g)
    (ht : (Stmt.update b).write.string = .ok t) :
    ∃ as xs pre post, Assigns as g ∧ Each PairText as xs ∧
      t = pre ++ (s%" SET " ++ assignText xs) ++ post := by
  obtain ⟨as, xs, pre, post, h1, h2, h3, _⟩ := update_assigns h0 hc hg ht
  exact ⟨as, xs, pre, post, h1, h2, h3⟩

/-- C31. A further `Set` with pairs or maps is accepted. -/
theorem C31_accepted (table : Any) (b0 b : UpdateStmt) (calls : List UpdCall)
    (g g' : List (Column × Expr)) (args : List Any) (h0 : update table = .ok b0)
    (hc : runAll UpdCall.apply calls b0 = .ok b) (hg : GivenBy calls g) (ha : GivenArgs args g')
    (hne : args ≠ []) : ∃ b', b.Set args = .ok b' := by
  have hm : b.set.mode ≠ .array := by
    rw [runAll_given hg (by rw [update_set h0]; simp [PairContainer.new]) hc, update_set h0]
    exact assignAll_mode (by simp [PairContainer.new])
  unfold UpdateStmt.Set
  rw [if_neg (by simpa using hne), mergeSet_given ha hm]
  exact ⟨_, rfl⟩

/-- C31 for the SET clause of ON CONFLICT DO UPDATE. -/
theorem C31_doUpdate (args : List Any) (set : PairContainer)
    (h : doUpdate args = .ok (.conflictUpdate set)) (t : Str) (ht : set.write.string = .ok t) :
    ∃ g as xs, GivenArgs args g ∧ Assigns as g ∧ Each PairText as xs ∧
      t = s%"SET " ++ assignText xs := by
  unfold doUpdate at h
  split at h
  · cases h
  · next s hs =>
    cases h
    obtain ⟨g, hg, rfl⟩ := (mergeSet_pairs_iff rfl).1 hs
    have hm := assignAll_mode_associative (p := { PairContainer.new with mode := .associative })
      (g := g) (.inl rfl)
    obtain ⟨as, h1, h2⟩ := assignAll_new ⟨rfl, rfl, rfl⟩ hm
    obtain ⟨xs, h3, rfl⟩ := set_text hm h1 ht
    exact ⟨g, as, xs, hg, h2, h3, rfl⟩

/-! ## C32 -/

/-- The assignments of an UPDATE are sorted by column name. -/
theorem C32_sorted (table : Any) (b0 b : UpdateStmt) (calls : List UpdCall)
    (g : List (Column × Expr)) (t : Str) (h0 : update table = .ok b0)
    (hc : runAll UpdCall.apply calls b0 = .ok b) (hg : GivenBy calls g)
    (hn : ∀ ce ∈ g, ce.1.alias = []) (ht : (Stmt.update b).write.string = .ok t) :
    ∃ as xs pre post, Assigns as g ∧ as.Pairwise (fun x y => x.1.name < y.1.name) ∧
      Each PairText as xs ∧ t = pre ++ (s%" SET " ++ assignText xs) ++ post := by
  obtain ⟨as, xs, pre, post, h1, h2, h3, h4⟩ := update_assigns h0 hc hg ht
  refine ⟨as, xs, pre, post, h1, ?_, h2, h3⟩
  have := sort_columns (l := (assignAll PairContainer.new g).columns)
    (keysOk_all keysOk_new g).1 (by
      intro c hc
      rcases assignAll_columns _ _ _ hc with h | h
      · cases h
      · obtain ⟨ce, h5, rfl⟩ := List.mem_map.1 h
        exact hn ce h5)
  rw [← h4, List.pairwise_map] at this
  exact this

private theorem same_step {b1 b2 b1' : UpdateStmt} {x y : UpdCall} (hxy : SameCall x y)
    (hd : ∀ args, x = .set args → ∀ a ∈ args, DistinctKeys a ∧ NoAlias a)
    (hb : { b1 with set := b2.set } = b2) (hs : SetSame b1.set b2.set) (h : x.apply b1 = .ok b1') :
    ∃ b2', y.apply b2 = .ok b2' ∧ { b1' with set := b2'.set } = b2' ∧ SetSame b1'.set b2'.set := by
  have hset : ∀ args args', Each SameArg args args' → (∀ a ∈ args, DistinctKeys a ∧ NoAlias a) →
      UpdateStmt.Set b1 args = .ok b1' →
      ∃ b2', UpdateStmt.Set b2 args' = .ok b2' ∧ { b1' with set := b2'.set } = b2' ∧
        SetSame b1'.set b2'.set := by
    intro args args' he hd h
    obtain ⟨hne, s, hm, rfl⟩ := updateSet_inv h
    obtain ⟨q, h1, h2⟩ := SetSame.merge he hs hd hm
    refine ⟨{ b2 with set := q }, ?_, ?_, h2⟩
    · unfold UpdateStmt.Set
      rw [if_neg, h1]
      cases he with
      | nil => exact absurd rfl hne
      | cons _ _ => simp
    · rw [← hb]
  have same : ∀ args : List Any, Each SameArg args args := by
    intro args
    induction args with
    | nil => exact .nil
    | cons a l ih => exact .cons (.refl a) ih
  cases hxy with
  | set he => exact hset _ _ he (hd _ rfl) h
  | refl =>
    by_cases hc : x.clause = .set
    · cases x with
      | set args => exact hset _ _ (same args) (hd _ rfl) h
      | «using» args =>
        obtain ⟨hm, hne, s, hu, rfl⟩ := updateUsing_inv h
        have he := hs.equal (by rw [hm]; simp)
        have hbb : b1 = b2 := by rw [← hb, ← he]
        subst hbb
        refine ⟨_, h, rfl, ?_⟩
        have hma : s.mode = .array := by
          have key : ∀ (l : List Any) {p q : PairContainer}, p.mode = .array →
              UpdateStmt.useAll p l = .ok q → q.mode = .array := by
            intro l
            induction l with
            | nil => intro p q hp h; cases h; exact hp
            | cons a l ih =>
              intro p q hp h
              rw [UpdateStmt.useAll] at h
              split at h
              · cases h
              · split at h
                · cases h
                · next h1 =>
                  refine ih ?_ h
                  rw [(use_ok h1).2]
                  exact hp
          exact key _ hm hu
        exact ⟨rfl, rfl, fun _ => rfl, fun h => absurd hma h, fun h => absurd hma h,
          fun h => absurd hma h, fun h => absurd hma h⟩
      | _ => cases hc
    · obtain ⟨h1, h2⟩ := updApply_frame hc h b2.set
      refine ⟨{ b1' with set := b2.set }, by rw [← hb]; exact h2, rfl, ?_⟩
      rw [h1]
      exact hs

private theorem same_run {calls calls' : List UpdCall} (he : Each SameCall calls calls') :
    ∀ {b1 b2 b1' : UpdateStmt},
      (∀ args, .set args ∈ calls → ∀ a ∈ args, DistinctKeys a ∧ NoAlias a) →
      { b1 with set := b2.set } = b2 → SetSame b1.set b2.set →
      runAll UpdCall.apply calls b1 = .ok b1' →
      ∃ b2', runAll UpdCall.apply calls' b2 = .ok b2' ∧ { b1' with set := b2'.set } = b2' ∧
        SetSame b1'.set b2'.set := by
  induction he with
  | nil => intro b1 b2 b1' _ hb hs h; cases h; exact ⟨b2, rfl, hb, hs⟩
  | @cons x y l m hxy _ ih =>
    intro b1 b2 b1' hd hb hs h
    rw [runAll] at h
    split at h
    · cases h
    · next b h1 =>
      obtain ⟨b2', h2, h3, h4⟩ := same_step hxy
        (fun args e => hd args (by rw [← e]; exact List.mem_cons_self)) hb hs h1
      obtain ⟨b3, h5, h6⟩ := ih (fun args hm => hd args (List.mem_cons_of_mem _ hm)) h3 h4 h
      exact ⟨b3, by rw [runAll, h2]; exact h5, h6⟩

private theorem sameCalls_symm {calls calls' : List UpdCall} (h : Each SameCall calls calls') :
    Each SameCall calls' calls := by
  induction h with
  | nil => exact .nil
  | cons h1 _ ih =>
    refine .cons ?_ ih
    cases h1 with
    | refl => exact .refl _
    | set h => exact .set (sameArgs_symm h)

private theorem sameCalls_distinct {calls calls' : List UpdCall} (h : Each SameCall calls calls')
    (hd : ∀ args, .set args ∈ calls → ∀ a ∈ args, DistinctKeys a ∧ NoAlias a) :
    ∀ args, .set args ∈ calls' → ∀ a ∈ args, DistinctKeys a ∧ NoAlias a := by
  induction h with
  | nil => intro args ha; cases ha
  | @cons x y l m h1 _ ih =>
    intro args ha
    rcases List.mem_cons.1 ha with rfl | ha
    · cases h1 with
      | refl => exact hd args List.mem_cons_self
      | set h => exact sameArgs_distinct h (hd _ List.mem_cons_self)
    · exact ih (fun z hz => hd z (List.mem_cons_of_mem _ hz)) args ha

/-- C32 for UPDATE. Whatever the iteration order of the maps given to `Set`, both sequences of
calls panic or both statements are written in the same way (text, placeholders and arguments, in
all three renderings).

Missing for C32: maps with two keys that name the same column after trimming (`C32_false`). -/
theorem C32_update_partial (table : Any) (b0 : UpdateStmt) (h0 : update table = .ok b0)
    (calls calls' : List UpdCall) (he : Each SameCall calls calls')
    (hd : ∀ args, .set args ∈ calls → ∀ a ∈ args, DistinctKeys a ∧ NoAlias a) :
    ((∃ p, runAll UpdCall.apply calls b0 = .error p) ∧
      ∃ p, runAll UpdCall.apply calls' b0 = .error p) ∨
    ∃ b b', runAll UpdCall.apply calls b0 = .ok b ∧ runAll UpdCall.apply calls' b0 = .ok b' ∧
      (Stmt.update b).write = (Stmt.update b').write := by
  have hs : SetSame b0.set b0.set := by
    rw [update_set h0]
    exact SetSame.refl_new .unknown
  cases h : runAll UpdCall.apply calls b0 with
  | ok b =>
    obtain ⟨b', h1, h2, h3⟩ := same_run he hd rfl hs h
    refine .inr ⟨b, b', rfl, h1, ?_⟩
    show b.write = b'.write
    rw [← h2]
    unfold UpdateStmt.write
    simp only [h3.empty, h3.write]
  | error p =>
    refine .inl ⟨⟨p, rfl⟩, ?_⟩
    cases h' : runAll UpdCall.apply calls' b0 with
    | error q => exact ⟨q, rfl⟩
    | ok b' =>
      obtain ⟨b, h1, -⟩ := same_run (sameCalls_symm he) (sameCalls_distinct he hd) rfl hs h'
      rw [h] at h1
      cases h1

private theorem toSet_same {args args' : List Any} (he : Each SameArg args args')
    (hd : ∀ a ∈ args, DistinctKeys a ∧ NoAlias a) :
    ((∃ p, toSet args = .error p) ∧ ∃ p, toSet args' = .error p) ∨
    ∃ s s', toSet args = .ok s ∧ toSet args' = .ok s' ∧ SetSame s s' := by
  cases h : toSet args with
  | ok s =>
    obtain ⟨s', h1, h2⟩ := SetSame.merge he (SetSame.refl_new .associative) hd h
    exact .inr ⟨s, s', rfl, h1, h2⟩
  | error p =>
    refine .inl ⟨⟨p, rfl⟩, ?_⟩
    cases h' : toSet args' with
    | error q => exact ⟨q, rfl⟩
    | ok s' =>
      obtain ⟨s, h1, -⟩ := SetSame.merge (sameArgs_symm he) (SetSame.refl_new .associative)
        (sameArgs_distinct he hd) h'
      have h2 : toSet args = .ok s := h1
      rw [h] at h2
      cases h2

/-- C32 for INSERT: whatever the iteration order of the maps, `Set` gives the same statement, or
panics.

Missing for C32: maps with two keys that name the same column after trimming (`C32_false`). -/
theorem C32_insert_partial (b : InsertStmt) (args args' : List Any) (he : Each SameArg args args')
    (hd : ∀ a ∈ args, DistinctKeys a ∧ NoAlias a) : SameOutcome (b.Set args) (b.Set args') := by
  have err : ∀ (args : List Any) (p : Panic), toSet args = .error p →
      ∃ q, b.Set args = .error q := by
    intro args p h
    unfold InsertStmt.Set
    rw [h]
    split
    · exact ⟨_, rfl⟩
    · split <;> exact ⟨_, rfl⟩
  rcases toSet_same he hd with ⟨⟨p, hp⟩, ⟨q, hq⟩⟩ | ⟨s, s', h1, h2, h3⟩
  · exact .inr ⟨err _ _ hp, err _ _ hq⟩
  · have : b.Set args = b.Set args' := by
      unfold InsertStmt.Set
      rw [h1, h2]
      simp only [h3.values]
    rw [this]
    exact same_refl _

/-- C32 for ON CONFLICT DO UPDATE: whatever the iteration order of the maps given to `DoUpdate`,
INSERT is written in the same way.

Missing for C32: maps with two keys that name the same column after trimming (`C32_false`). -/
theorem C32_doUpdate_partial (args args' : List Any) (he : Each SameArg args args')
    (hd : ∀ a ∈ args, DistinctKeys a ∧ NoAlias a) :
    ((∃ p, doUpdate args = .error p) ∧ ∃ p, doUpdate args' = .error p) ∨
    ∃ s s', doUpdate args = .ok (.conflictUpdate s) ∧ doUpdate args' = .ok (.conflictUpdate s') ∧
      ∀ b : InsertStmt, (Stmt.insert { b with action := .update s }).write =
        (Stmt.insert { b with action := .update s' }).write := by
  unfold doUpdate
  rcases toSet_same he hd with ⟨⟨p, hp⟩, ⟨q, hq⟩⟩ | ⟨s, s', h1, h2, h3⟩
  · rw [hp, hq]
    exact .inl ⟨⟨p, rfl⟩, ⟨q, rfl⟩⟩
  · rw [h1, h2]
    refine .inr ⟨s, s', rfl, rfl, fun b => ?_⟩
    show InsertStmt.write _ = InsertStmt.write _
    have ha : (ConflictAction.update s).isEmpty = (ConflictAction.update s').isEmpty := h3.empty
    unfold InsertStmt.write writeOnConflict
    simp only [ha, ConflictAction.write, h3.write]

/-! ## C33 -/

/-- C33. Calls on an UPDATE that are all accepted use one of the two syntaxes throughout: every
`Set` gives pairs (and `Using` is not called), or every `Set` gives columns. -/
theorem C33_either (table : Any) (b0 b : UpdateStmt) (calls : List UpdCall)
    (h0 : update table = .ok b0) (hc : runAll UpdCall.apply calls b0 = .ok b) :
    (∃ g, GivenBy calls g) ∨ ∃ cs es, ListedBy calls cs es :=
  run_fresh (by rw [update_set h0]; rfl) hc

private theorem given_no_columns {calls : List UpdCall} {g : List (Column × Expr)}
    (h : GivenBy calls g) : ¬ UsesColumns calls := by
  rintro ⟨args, hm, a, ha, cs, hcs⟩
  induction h with
  | nil => cases hm
  | @set args' l g h0 hga _ ih =>
    rcases List.mem_cons.1 hm with e | hm
    · cases e
      obtain ⟨gs, he, rfl⟩ := hga
      clear ih hm
      induction he with
      | nil => cases ha
      | cons h1 _ ih2 =>
        rcases List.mem_cons.1 ha with rfl | ha
        · exact columns_not_given hcs h1
        · exact ih2 ha
    · exact ih hm
  | @other call l h0 hc _ ih =>
    rcases List.mem_cons.1 hm with rfl | hm
    · exact hc rfl
    · exact ih hm

private theorem listed_no_pairs {calls : List UpdCall} {cs : List Column} {es : List Expr}
    (h : ListedBy calls cs es) : ¬ UsesPairs calls := by
  rintro ⟨args, hm, a, ha, g, hg, hne⟩
  induction h with
  | nil => cases hm
  | @set args' css l cs es he _ ih =>
    rcases List.mem_cons.1 hm with e | hm
    · cases e
      clear ih hm
      induction he with
      | nil => cases ha
      | cons h1 _ ih2 =>
        rcases List.mem_cons.1 ha with rfl | ha
        · rcases h1 with h1 | ⟨h1, _⟩
          · exact columns_not_given h1 hg
          · exact hne (List.length_eq_zero_iff.1 (given_length h1 hg).symm)
        · exact ih2 ha
    · exact ih hm
  | use _ _ ih =>
    rcases List.mem_cons.1 hm with e | hm
    · cases e
    · exact ih hm
  | other hc _ ih =>
    rcases List.mem_cons.1 hm with rfl | hm
    · exact hc rfl
    · exact ih hm

/-- C33. Calls that are all accepted never give both a pair and a column list. -/
theorem C33_exclusive (table : Any) (b0 b : UpdateStmt) (calls : List UpdCall)
    (h0 : update table = .ok b0) (hc : runAll UpdCall.apply calls b0 = .ok b) :
    ¬ (UsesPairs calls ∧ UsesColumns calls) := by
  rintro ⟨h1, h2⟩
  rcases C33_either table b0 b calls h0 hc with ⟨g, hg⟩ | ⟨cs, es, hl⟩
  · exact given_no_columns hg h2
  · exact listed_no_pairs hl h1

private theorem call_panics {b0 b : UpdateStmt} {calls : List UpdCall} {call : UpdCall}
    (hc : runAll UpdCall.apply calls b0 = .ok b)
    (h : ∀ b', runAll UpdCall.apply (calls ++ [call]) b0 ≠ .ok b') : ∃ p, call.apply b = .error p := by
  cases hr : call.apply b with
  | error p => exact ⟨p, rfl⟩
  | ok b' =>
    refine absurd ?_ (h b')
    rw [runAll_append, hc]
    simp [runAll, hr]

/-- C33. After a pair was given, `Set` with a column list panics. -/
theorem C33_pairs_then_columns (table : Any) (b0 b : UpdateStmt) (calls : List UpdCall)
    (h0 : update table = .ok b0) (hc : runAll UpdCall.apply calls b0 = .ok b)
    (hu : UsesPairs calls) (args : List Any) (a : Any) (ha : a ∈ args) (cs : List Column)
    (hcs : ColumnsArg a cs) : ∃ p, b.Set args = .error p := by
  refine call_panics (call := .set args) hc fun b' hb => ?_
  refine C33_exclusive table b0 b' _ h0 hb ⟨?_, args, by simp, a, ha, cs, hcs⟩
  obtain ⟨args', hm, h⟩ := hu
  exact ⟨args', List.mem_append_left _ hm, h⟩

/-- C33. After a column list was given, `Set` with a pair or a non-empty map panics. -/
theorem C33_columns_then_pairs (table : Any) (b0 b : UpdateStmt) (calls : List UpdCall)
    (h0 : update table = .ok b0) (hc : runAll UpdCall.apply calls b0 = .ok b)
    (hu : UsesColumns calls) (args : List Any) (a : Any) (ha : a ∈ args)
    (g : List (Column × Expr)) (hg : GivenArg a g) (hne : g ≠ []) : ∃ p, b.Set args = .error p := by
  refine call_panics (call := .set args) hc fun b' hb => ?_
  refine C33_exclusive table b0 b' _ h0 hb ⟨⟨args, by simp, a, ha, g, hg, hne⟩, ?_⟩
  obtain ⟨args', hm, h⟩ := hu
  exact ⟨args', List.mem_append_left _ hm, h⟩

private theorem listed_array {calls : List UpdCall} : ∀ {b b' : UpdateStmt},
    runAll UpdCall.apply calls b = .ok b' → b'.set.mode = .array →
      b.set.mode = .array ∨ UsesColumns calls := by
  induction calls with
  | nil => intro b b' h hm; cases h; exact .inl hm
  | cons call l ih =>
    intro b b' h hm
    rw [runAll] at h
    split at h
    · cases h
    · next b1 h1 =>
      rcases ih h hm with h2 | ⟨args, h2, h3⟩
      · by_cases hc : call.clause = .set
        · cases call with
          | set args =>
            obtain ⟨_, s, hs, rfl⟩ := updateSet_inv h1
            have key : ∀ {args : List Any} {p q : PairContainer}, mergeSet p args = .ok q →
                q.mode = .array → p.mode = .array ∨ ∃ a ∈ args, ∃ cs, ColumnsArg a cs := by
              intro args
              induction args with
              | nil => intro p q h hm; cases h; exact .inl hm
              | cons a l ih =>
                intro p q h hm
                rw [mergeSet] at h
                split at h
                · cases h
                · next p' hp =>
                  rcases ih h hm with h4 | ⟨a', h5, h6⟩
                  · rcases mergeSetArg_inv hp with ⟨cs, hcs, _, rfl⟩ | ⟨g, hg, hga, rfl⟩
                    · exact .inr ⟨a, List.mem_cons_self, cs, hcs⟩
                    · by_cases h0 : g = []
                      · subst h0; exact .inl h4
                      · rw [assignAll_mode_associative (.inr h0)] at h4
                        cases h4
                  · exact .inr ⟨a', List.mem_cons_of_mem _ h5, h6⟩
            rcases key hs h2 with h4 | h4
            · exact .inl h4
            · exact .inr ⟨args, List.mem_cons_self, h4⟩
          | «using» args => exact .inl (updateUsing_inv h1).1
          | _ => cases hc
        · rw [(updApply_frame hc h1 b.set).1] at h2
          exact .inl h2
      · exact .inr ⟨args, List.mem_cons_of_mem _ h2, h3⟩

/-- C33. `Using` panics unless an earlier `Set` gave a column list. -/
theorem C33_using (table : Any) (b0 b : UpdateStmt) (calls : List UpdCall)
    (h0 : update table = .ok b0) (hc : runAll UpdCall.apply calls b0 = .ok b)
    (hu : ¬ UsesColumns calls) (args : List Any) : ∃ p, b.Using args = .error p := by
  cases h : b.Using args with
  | error p => exact ⟨p, rfl⟩
  | ok b' =>
    have hm := (updateUsing_inv h).1
    rcases listed_array hc hm with h1 | h1
    · rw [update_set h0] at h1
      cases h1
    · exact absurd h1 hu

/-- C33. The text of an UPDATE whose `Set` calls give columns: all the columns, then all the
expressions given to `Using`, in order. (With C31 and `C33_either`: the SET clause has one of the
two forms.) -/
theorem C33_columns_text (table : Any) (b0 b : UpdateStmt) (calls : List UpdCall)
    (cs : List Column) (es : List Expr) (t : Str) (h0 : update table = .ok b0)
    (hc : runAll UpdCall.apply calls b0 = .ok b) (hl : ListedBy calls cs es)
    (ht : (Stmt.update b).write.string = .ok t) :
    ∃ xs ys pre post, Texts (fun c : Column => c.write.string) cs xs ∧
      Texts (fun e : Expr => e.write.string) es ys ∧
      t = pre ++ (s%" SET (" ++ commaText xs ++ s%") = (" ++ commaText ys ++ s%")") ++ post := by
  obtain ⟨h1, h2, h3, h4⟩ := run_listed hl (by rw [update_set h0]; simp [PairContainer.new]) hc
  rw [update_set h0] at h2 h3 h4
  simp only [PairContainer.new, List.nil_append] at h2 h3 h4
  obtain ⟨set, pre, post, h5, rfl⟩ := update_text ht
  have h6 := set_nonempty h5
  have hm : b.set.mode = .array := by
    cases hm : b.set.mode with
    | unknown => simp [PairContainer.isEmpty, hm] at h6
    | associative => exact absurd hm h1
    | array => rfl
  obtain ⟨hok, h7⟩ := (string_denotes (denotes_set b.set) set).1 h5
  unfold okSet at hok
  unfold setL at h7
  obtain ⟨u, hu, rfl⟩ := rawText_sql_inv h7
  simp only [hm, h2, h3, Bool.and_eq_true] at hu hok
  obtain ⟨t1, t2, e1, e2, rfl⟩ := rawText_append_inv hu
  obtain ⟨t3, e3, rfl⟩ := rawText_sql_inv e1
  obtain ⟨t4, e4, rfl⟩ := rawText_sql_inv e2
  cases e4
  obtain ⟨t5, t6, e5, e6, rfl⟩ := rawText_append_inv e3
  obtain ⟨t7, e7, rfl⟩ := rawText_sql_inv e6
  rw [exprsL_map] at e7
  obtain ⟨xs, f1, rfl⟩ := commaSep_texts denotes_column (fun _ _ => rfl) e5
  obtain ⟨ys, f2, rfl⟩ := commaSep_texts denotes_expr ((okEs_all _).1 hok.2) e7
  exact ⟨xs, ys, pre, post, f1, f2, by simp⟩

/-- C33. `Insert.Set` accepts pairs and maps only. -/
theorem C33_insert (b b' : InsertStmt) (args : List Any) (h : b.Set args = .ok b') :
    ∃ g, GivenArgs args g := by
  unfold InsertStmt.Set at h
  split at h
  · cases h
  · split at h
    · cases h
    · cases h
    · split at h
      · cases h
      · next s hs =>
        obtain ⟨g, hg, _⟩ := (mergeSet_pairs_iff rfl).1 hs
        exact ⟨g, hg⟩

/-- C33. `DoUpdate` accepts pairs and maps only. -/
theorem C33_doUpdate (args : List Any) (a : Any) (h : doUpdate args = .ok a) :
    ∃ g, GivenArgs args g := by
  unfold doUpdate at h
  split at h
  · cases h
  · next s hs =>
    obtain ⟨g, hg, _⟩ := (mergeSet_pairs_iff rfl).1 hs
    exact ⟨g, hg⟩

end

/-! ## Concrete cases and failures -/

section
attribute [local instance] Runtime.sample

/-- Calls that meet the hypotheses of C31 and C32: pairs and a map, one column given three times. -/
private def assignments : List UpdCall :=
  [.set [.pair (.val (.str s%"b")) (.val (.int .int 1)),
      .pair (.selExpr (.column { name := s%"c" })) (.val .nil)],
    .where (.infx (.ident (.str s%"id")) (.comparison s%"=") (.value (.int .int64 7))),
    .set [.strMap 0 [(s%" b ", .val (.int .int 2)), (s%"a", .val (.str s%"x"))],
      .pair (.val (.str s%"b")) (.val (.int .int 3))]]

example : GivenBy assignments
    [({ name := s%"b" }, .value (.int .int 1)), ({ name := s%"c" }, .value .nil),
      ({ name := s%"b" }, .value (.int .int 2)), ({ name := s%"a" }, .value (.str s%"x")),
      ({ name := s%"b" }, .value (.int .int 3))] := by
  have key : ∀ (x y : Str), Trimmed x y → y ≠ [] → KeyArg (.val (.str x)) { name := y } :=
    fun x y h1 h2 => ⟨h1, h2, rfl⟩
  have hb : KeyArg (.val (.str s%"b")) { name := s%"b" } := (toColumn_iff _ _).1 rfl
  have hb' : KeyArg (.val (.str s%" b ")) { name := s%"b" } := (toColumn_iff _ _).1 rfl
  have ha : KeyArg (.val (.str s%"a")) { name := s%"a" } := (toColumn_iff _ _).1 rfl
  refine GivenBy.set (g := [_, _]) ⟨[[_], [_]], .cons ⟨_, ⟨hb, rfl⟩, rfl⟩
    (.cons ⟨_, ⟨⟨rfl, by simp⟩, rfl⟩, rfl⟩ .nil), rfl⟩ ?_
  refine GivenBy.other (by simp [UpdCall.clause]) ?_
  refine GivenBy.set (g := [_, _, _]) ⟨[[_, _], [_]], .cons ?_
    (.cons ⟨_, ⟨hb, rfl⟩, rfl⟩ .nil), rfl⟩ .nil
  exact .cons ⟨hb', rfl⟩ (.cons ⟨ha, rfl⟩ .nil)

set_option maxRecDepth 2000 in
example : (do
    let b ← update (.val (.str s%"t"))
    let b ← b.Set [.pair (.val (.str s%"b")) (.val (.int .int 1)),
      .pair (.selExpr (.column { name := s%"c" })) (.val .nil)]
    let b ← b.Where (.infx (.ident (.str s%"id")) (.comparison s%"=") (.value (.int .int64 7)))
    let b ← b.Set [.strMap 0 [(s%" b ", .val (.int .int 2)), (s%"a", .val (.str s%"x"))],
      .pair (.val (.str s%"b")) (.val (.int .int 3))]
    (Stmt.update b).write.string) =
    .ok s%"UPDATE \"t\" SET \"a\" = 'x', \"b\" = 3, \"c\" = NULL WHERE (\"id\" = 7)" := by
  decide +kernel

/-- The map of these calls has different columns. -/
example : ∀ a ∈ [Any.strMap 0 [(s%" b ", .val (.int .int 2)), (s%"a", .val (.str s%"x"))]],
    DistinctKeys a ∧ NoAlias a := by
  intro a ha
  rw [List.mem_singleton] at ha
  subst ha
  have key : ∀ g, GivenArg (.strMap 0 [(s%" b ", .val (.int .int 2)), (s%"a", .val (.str s%"x"))]) g →
      g.map (·.1) = [{ name := s%"b" }, { name := s%"a" }] := by
    intro g hg
    have hg' : Each GivenPair [(.val (.str s%" b "), .val (.int .int 2)),
      (.val (.str s%"a"), .val (.str s%"x"))] g := hg
    cases hg' with
    | cons h1 h2 =>
      cases h2 with
      | cons h3 h4 =>
        cases h4
        have e1 : Except.ok _ = Except.ok (ε := Panic) _ := (toColumn_iff _ _).2 h1.1
        have e2 : Except.ok _ = Except.ok (ε := Panic) _ := (toColumn_iff _ _).2 h3.1
        rw [List.map_cons, List.map_cons, List.map_nil, ← Except.ok.inj e1, ← Except.ok.inj e2]
        rfl
  refine ⟨fun g hg => ?_, fun g hg ce hce => ?_⟩
  · rw [key g hg]; decide
  · have : ce.1 ∈ g.map (·.1) := List.mem_map.2 ⟨ce, hce, rfl⟩
    rw [key g hg] at this
    simp only [List.mem_cons, List.not_mem_nil, or_false] at this
    rcases this with h | h <;> rw [h]

/-- C32 fails for maps with keys that name the same column after trimming: the text of
`Set(Map{"a": 1, " a": 2})` depends on the order in which Go iterates the map. -/
theorem C32_false : ¬ ∀ (table : Any) (b0 : UpdateStmt), update table = .ok b0 →
    ∀ (args args' : List Any), Each SameArg args args' → (∀ a ∈ args, NoAlias a) →
    ∀ b b' t t', b0.Set args = .ok b → b0.Set args' = .ok b' →
      (Stmt.update b).write.string = .ok t → (Stmt.update b').write.string = .ok t' → t = t' := by
  intro h
  have := h (.val (.str s%"t")) _ rfl
    [.strMap 0 [(s%"a", .val (.int .int 1)), (s%" a", .val (.int .int 2))]]
    [.strMap 0 [(s%" a", .val (.int .int 2)), (s%"a", .val (.int .int 1))]]
    (.cons (.strMap 0 (.swap ..)) .nil) (by
      intro a ha g hg ce hce
      rw [List.mem_singleton] at ha
      subst ha
      obtain ⟨kv, hkv, h1⟩ := each_source hg hce
      simp only [List.map_cons, List.map_nil, List.mem_cons, List.not_mem_nil, or_false] at hkv
      rcases hkv with rfl | rfl <;> exact h1.1.2.2) _ _
    s%"UPDATE \"t\" SET \"a\" = 2" s%"UPDATE \"t\" SET \"a\" = 1" rfl rfl (by rfl) (by rfl)
  revert this
  decide

/-- Without the restriction to columns without alias C32 fails even for maps with different columns:
the comparator given to `sort.Slice` says that `a AS z` is before `b AS y` and also after it. -/
theorem C32_alias_false : ¬ ∀ (table : Any) (b0 : UpdateStmt), update table = .ok b0 →
    ∀ (args args' : List Any), Each SameArg args args' → (∀ a ∈ args, DistinctKeys a) →
    ∀ b b' t t', b0.Set args = .ok b → b0.Set args' = .ok b' →
      (Stmt.update b).write.string = .ok t → (Stmt.update b').write.string = .ok t' → t = t' := by
  intro h
  have := h (.val (.str s%"t")) _ rfl
    [.anyMap [(.selExpr (.column { name := s%"a", alias := s%"z" }), .val (.int .int 1)),
      (.selExpr (.column { name := s%"b", alias := s%"y" }), .val (.int .int 2))]]
    [.anyMap [(.selExpr (.column { name := s%"b", alias := s%"y" }), .val (.int .int 2)),
      (.selExpr (.column { name := s%"a", alias := s%"z" }), .val (.int .int 1))]]
    (.cons (.anyMap (.swap ..)) .nil) (by
      intro a ha g hg
      rw [List.mem_singleton] at ha
      subst ha
      have hg' : Each GivenPair _ g := hg
      cases hg' with
      | cons h1 h2 =>
        cases h2 with
        | cons h3 h4 =>
          cases h4
          have e1 := h1.1.1
          have e2 := h3.1.1
          simp [e1, e2]) _ _
    s%"UPDATE \"t\" SET \"b\" AS \"y\" = 2, \"a\" AS \"z\" = 1"
    s%"UPDATE \"t\" SET \"a\" AS \"z\" = 1, \"b\" AS \"y\" = 2" rfl rfl (by rfl) (by rfl)
  revert this
  decide

/-- Calls that meet the hypotheses of C33 in the column-list syntax. -/
example : (do
    let b ← update (.val (.str s%"t"))
    let b ← b.Set [.val (.str s%"a, b")]
    let b ← b.Using [.selectB Sample.groups]
    (Stmt.update b).write.string) =
    .ok s%"UPDATE \"t\" SET (\"a\", \"b\") = (SELECT \"id\" FROM \"groups\" WHERE (\"active\" = true))" := by rfl

/-- `Set(Pair("a", 1)).Set("b")` is refused. -/
example : (do
    let b ← update (.val (.str s%"t"))
    let b ← b.Set [.pair (.val (.str s%"a")) (.val (.int .int 1))]
    b.Set [.val (.str s%"b")]) =
    Go.panic "loukoum: you can only use pairs in key-value or column-list syntax" := by rfl

end

end Verif.Props
