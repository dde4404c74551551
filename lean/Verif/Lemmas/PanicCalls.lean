import Verif.Lemmas.Panic
import Verif.Model.Api
import Verif.Props.JoinText

/-!
# Constructors and builder methods only panic on purpose
-/

set_option linter.unusedSectionVars false

namespace Verif
open Spec

/-- Any panic of `x` is on purpose; the result may be anything. -/
abbrev Own {α : Type} (x : Go α) : Prop := Deliberate (fun _ => True) x

theorem deliberate_mono {α : Type} {P Q : α → Prop} {x : Go α} (h : Deliberate P x)
    (hpq : ∀ a, P a → Q a) : Deliberate Q x := by
  cases x with
  | ok a => exact hpq a h
  | error p => exact h

/-- Going on after a call. -/
theorem deliberate_cases {α β : Type} {P : α → Prop} {Q : β → Prop} {x : Go α} {f : Go α → Go β}
    (hx : Deliberate P x) (herr : ∀ m, f (.error (.msg m)) = .error (.msg m))
    (hf : ∀ a, P a → Deliberate Q (f (.ok a))) : Deliberate Q (f x) := by
  cases x with
  | error p => obtain ⟨m, rfl⟩ := hx; rw [herr m]; exact ⟨m, rfl⟩
  | ok a => exact hf a hx

/-! ## Expressions -/

theorem wrapper_noHole {e : Expr} (h : noHole e = true) : noHole (newWrapper e) = true := by
  cases e <;> exact h

theorem wrapper_opt {e : Expr} (h : (absent e || noHole e) = true) :
    (absent (newWrapper e) || noHole (newWrapper e)) = true := by
  cases e <;> exact h

theorem newExpression_deliberate {a : Any} (h : Sound a) :
    Deliberate (fun e => noHole e = true) (newExpression a) := by
  cases h with
  | val v =>
    unfold newExpression
    split
    · rfl
    · simp only [Any.asExpr]
      split
      · rfl
      · exact ⟨_, rfl⟩
  | timePtr t => rfl
  | expr e h => cases e <;> first | rfl | exact h
  | selNil => rfl
  | selExpr s h => cases s <;> first | rfl | exact h | exact ⟨_, rfl⟩
  | selectB s h => exact h
  | joinType s => rfl
  | strMap => rfl
  | obj o h1 h2 =>
    unfold newExpression
    rw [if_neg (show ¬ (Any.obj o).isNil = true from nofun)]
    simp only [Any.asExpr]
    · cases he : o.expression with
      | some e =>
        have hn := h1 e he
        cases e <;> first | cases hn; done | exact hn
      | none =>
        simp only [embedded]
        cases o.valuer with
        | some v => rfl
        | none =>
          simp only
          cases hs : o.statement with
          | some st =>
            cases st with
            | none => exact ⟨_, rfl⟩
            | some e => have hn := h2 e hs; cases e <;> first | exact ⟨_, rfl⟩ | exact hn
          | none =>
            simp only
            cases o.int64 with
            | some _ => rfl
            | none =>
              cases o.bool with
              | some _ => rfl
              | none =>
                cases o.time with
                | some _ => rfl
                | none =>
                  cases o.string with
                  | some _ => rfl
                  | none => exact ⟨_, rfl⟩
  | _ => exact ⟨_, rfl⟩

theorem newWrapped_deliberate {a : Any} (h : Sound a) :
    Deliberate (fun e => noHole e = true) (newWrapped a) := by
  have := newExpression_deliberate h
  unfold newWrapped
  cases hx : newExpression a with
  | error p => rw [hx] at this; exact this
  | ok e => rw [hx] at this; exact wrapper_noHole this

theorem appendAll_deliberate : ∀ {l : List Any}, (∀ a ∈ l, Sound a) →
    Deliberate (fun es => noHoles es = true) (appendAll l)
  | [], _ => rfl
  | a :: l, h => by
    have h1 := newExpression_deliberate (h a (by simp))
    have h2 := appendAll_deliberate fun x hx => h x (List.mem_cons_of_mem _ hx)
    unfold appendAll
    cases hx : newExpression a with
    | error p => rw [hx] at h1; exact h1
    | ok e =>
      rw [hx] at h1
      cases hy : appendAll l with
      | error p => rw [hy] at h2; exact h2
      | ok es =>
        rw [hy] at h2
        show noHoles (e :: es) = true
        rw [noHoles, show noHole e = true from h1, show noHoles es = true from h2]; rfl

theorem array_deliberate {l : List Any} (h : ∀ a ∈ l, Sound a) :
    Deliberate (fun e => noHole e = true)
      (match appendAll l with | .error p => .error p | .ok es => .ok (.array es)) := by
  have := appendAll_deliberate h
  cases hx : appendAll l with
  | error p => rw [hx] at this; exact this
  | ok e => rw [hx] at this; exact this

theorem toArray_deliberate {a : Any} (h : Sound a) :
    Deliberate (fun e => noHole e = true) (toArray a) := by
  unfold toArray
  split
  · rfl
  · refine array_deliberate ?_
    split
    · intro x hx
      obtain ⟨v, _, rfl⟩ := List.mem_map.1 hx
      exact .val v
    · rename_i l _
      intro x hx
      obtain ⟨e, he, rfl⟩ := List.mem_map.1 hx
      cases h with
      | exprs _ h => exact .expr e (h e he)
    · cases h with
      | anys _ h => exact h
    · intro x hx
      rw [List.mem_singleton.1 hx]; exact h

theorem newArray_deliberate {l : List Any} (h : ∀ a ∈ l, Sound a) :
    Deliberate (fun e => noHole e = true) (newArrayExpression l) := by
  unfold newArrayExpression
  split
  · exact toArray_deliberate (h _ (by simp))
  · exact array_deliberate h

theorem arrayRows_deliberate : ∀ {l : List (List Any)}, (∀ r ∈ l, ∀ a ∈ r, Sound a) →
    Deliberate (fun es => noHoles es = true) (arrayRows l)
  | [], _ => rfl
  | r :: l, h => by
    have h1 := newArray_deliberate (h r (by simp))
    have h2 := arrayRows_deliberate fun x hx => h x (List.mem_cons_of_mem _ hx)
    unfold arrayRows
    cases hx : newArrayExpression r with
    | error p => rw [hx] at h1; exact h1
    | ok e =>
      rw [hx] at h1
      cases hy : arrayRows l with
      | error p => rw [hy] at h2; exact h2
      | ok es =>
        rw [hy] at h2
        show noHoles (e :: es) = true
        rw [noHoles, show noHole e = true from h1, show noHoles es = true from h2]; rfl

theorem rows_val {l : List (List Val)} :
    Deliberate (fun es => noHoles es = true) (arrayRows (l.map (·.map .val))) := by
  refine arrayRows_deliberate fun r hr a ha => ?_
  obtain ⟨vs, _, rfl⟩ := List.mem_map.1 hr
  obtain ⟨v, _, rfl⟩ := List.mem_map.1 ha
  exact .val v

theorem toArrayList_deliberate {a : Any} (h : Sound a) :
    Deliberate (fun es => noHoles es = true) (toArrayList a) := by
  unfold toArrayList
  split
  · cases h with
    | anyss _ h => exact arrayRows_deliberate h
  · exact rows_val
  · exact rows_val
  · exact rows_val
  · exact rows_val
  · rename_i l
    cases h with
    | exprss _ h =>
      refine arrayRows_deliberate fun r hr a ha => ?_
      obtain ⟨es, hes, rfl⟩ := List.mem_map.1 hr
      obtain ⟨e, he, rfl⟩ := List.mem_map.1 ha
      exact .expr e (h es hes e he)
  · rfl

theorem newArrayList_deliberate {l : List Any} (hl : l ≠ []) (h : ∀ a ∈ l, Sound a) :
    Deliberate (fun e => noHole e = true) (newArrayListExpression l) := by
  unfold newArrayListExpression
  split
  · exact absurd rfl hl
  · rename_i v rest
    have h1 := toArrayList_deliberate (h v (by simp))
    have h2 := newArray_deliberate h
    cases hx : toArrayList v with
    | error p => rw [hx] at h1; exact h1
    | ok es =>
      rw [hx] at h1
      cases es with
      | nil =>
        cases hy : newArrayExpression (v :: rest) with
        | error p => rw [hy] at h2; exact h2
        | ok e =>
          rw [hy] at h2
          show noHole (.arrayList [e]) = true
          rw [noHole, noHoles, show noHole e = true from h2]; rfl
      | cons e es => exact h1

theorem compareWrapped_deliberate {l : Expr} {op : Str} {a : Any} (hl : noHole l = true)
    (h : Sound a) : Deliberate (fun e => noHole e = true) (compareWrapped l op a) := by
  have := newWrapped_deliberate h
  unfold compareWrapped
  cases hx : newWrapped a with
  | error p => rw [hx] at this; exact this
  | ok e =>
    rw [hx] at this
    show noHole (.infx l _ e) = true
    rw [noHole, hl, show noHole e = true from this]; simp

theorem comparePlain_deliberate {l : Expr} {op : Str} {a : Any} (hl : noHole l = true)
    (h : Sound a) : Deliberate (fun e => noHole e = true) (comparePlain l op a) := by
  have := newExpression_deliberate h
  unfold comparePlain
  cases hx : newExpression a with
  | error p => rw [hx] at this; exact this
  | ok e =>
    rw [hx] at this
    show noHole (.infx l _ e) = true
    rw [noHole, hl, show noHole e = true from this]; simp

/-! ## Conversions -/

theorem toColumn_own (a : Any) : Own (toColumn a) := by
  unfold toColumn
  split <;> first
    | exact ⟨_, rfl⟩
    | (show Own (if _ then _ else _)
       split
       · exact ⟨_, rfl⟩
       · trivial)

theorem columnsOfString_own (s : Str) : Own (columnsOfString s) := by
  unfold columnsOfString
  simp only
  split
  · exact ⟨_, rfl⟩
  · trivial

theorem columnsOfArg_own (a : Any) : Own (columnsOfArg a) := by
  unfold columnsOfArg
  split
  · exact columnsOfString_own _
  · split
    · exact ⟨_, rfl⟩
    · trivial
  · exact ⟨_, rfl⟩

theorem toColumnsLoop_own : ∀ l : List Any, Own (toColumnsLoop l)
  | [] => trivial
  | a :: l => by
    have h1 := columnsOfArg_own a
    have h2 := toColumnsLoop_own l
    unfold toColumnsLoop
    cases hx : columnsOfArg a with
    | error p => rw [hx] at h1; exact h1
    | ok cs =>
      cases hy : toColumnsLoop l with
      | error p => rw [hy] at h2; exact h2
      | ok es => trivial

theorem toColumns_own (l : List Any) : Own (toColumns l) := by
  unfold toColumns
  split
  · split
    · exact ⟨_, rfl⟩
    · trivial
  · exact toColumnsLoop_own _
  · exact toColumnsLoop_own _

theorem noHoleSels_append {l m : List SelExpr} (hl : noHoleSels l = true) (hm : noHoleSels m = true) :
    noHoleSels (l ++ m) = true := by
  induction l with
  | nil => exact hm
  | cons e l ih =>
    rw [noHoleSels, Bool.and_eq_true] at hl
    rw [List.cons_append, noHoleSels, hl.1, ih hl.2]; rfl

theorem noHoleSels_columns {α : Type} (f : α → Column) (l : List α) :
    noHoleSels (l.map fun x => .column (f x)) = true := by
  induction l with
  | nil => rfl
  | cons a l ih => rw [List.map_cons, noHoleSels, ih]; rfl

theorem asSel_noHole {a : Any} {s : SelExpr} (h : Sound a) (hs : a.asSelExpr = some s) :
    noHoleSel s = true := by
  cases h with
  | expr e h => cases e <;> simp only [Any.asSelExpr, Option.some.injEq, reduceCtorEq] at hs <;> subst hs <;> exact h
  | selNil => cases hs
  | selExpr t h =>
    cases t <;> simp only [Any.asSelExpr, Option.some.injEq, reduceCtorEq] at hs <;> subst hs <;> exact h
  | _ => cases hs

theorem selsOf_deliberate {s : SelExpr} (h : noHoleSel s = true) :
    Deliberate (fun l => noHoleSels l = true) (selectsOfSelExpr s) := by
  have hk : noHoleSels [s] = true := by rw [noHoleSels, h]; rfl
  unfold selectsOfSelExpr
  cases s with
  | nil => cases h
  | exist _ | notExist _ => exact hk
  | _ => simp only [SelExpr.isEmpty]; split <;> first | exact hk | exact ⟨_, rfl⟩ | cases ‹_ = _›

theorem selectsOfArg_deliberate {a : Any} (h : Sound a) :
    Deliberate (fun l => noHoleSels l = true) (selectsOfArg a) := by
  unfold selectsOfArg
  split
  · exact selsOf_deliberate (asSel_noHole h ‹_›)
  · split
    · rename_i s _
      have := columnsOfString_own s
      unfold selectsOfString
      cases hx : columnsOfString s with
      | error p => rw [hx] at this; exact this
      | ok cs => exact noHoleSels_columns id cs
    · exact ⟨_, rfl⟩

theorem selectsLoop_deliberate : ∀ {l : List Any}, (∀ a ∈ l, Sound a) →
    Deliberate (fun l => noHoleSels l = true) (toSelectExpressionsLoop l)
  | [], _ => rfl
  | a :: l, h => by
    have h1 := selectsOfArg_deliberate (h a (by simp))
    have h2 := selectsLoop_deliberate fun x hx => h x (List.mem_cons_of_mem _ hx)
    unfold toSelectExpressionsLoop
    cases hx : selectsOfArg a with
    | error p => rw [hx] at h1; exact h1
    | ok cs =>
      rw [hx] at h1
      cases hy : toSelectExpressionsLoop l with
      | error p => rw [hy] at h2; exact h2
      | ok es => rw [hy] at h2; exact noHoleSels_append h1 h2

theorem toSelects_deliberate {l : List Any} (h : ∀ a ∈ l, Sound a) :
    Deliberate (fun l => noHoleSels l = true) (toSelectExpressions l) := by
  unfold toSelectExpressions
  split
  · have := h _ List.mem_cons_self
    cases this with
    | selExprs _ h => exact h
  · split
    · exact ⟨_, rfl⟩
    · exact noHoleSels_columns id _
  · exact noHoleSels_columns (fun v : Val => { name := v.asStr }) _
  · exact selectsLoop_deliberate h

theorem toTable_own (a : Any) : Own (toTable a) := by
  unfold toTable
  split <;> first
    | exact ⟨_, rfl⟩
    | (show Own (if _ then _ else _)
       split
       · exact ⟨_, rfl⟩
       · trivial)

theorem toTables_own : ∀ l : List Any, Own (toTables l)
  | [] => trivial
  | a :: l => by
    have h1 := toTable_own a
    have h2 := toTables_own l
    unfold toTables
    cases hx : toTable a with
    | error p => rw [hx] at h1; exact h1
    | ok cs =>
      cases hy : toTables l with
      | error p => rw [hy] at h2; exact h2
      | ok es => trivial

theorem toInto_own (a : Any) : Own (toInto a) := by
  unfold toInto
  split <;> first
    | exact ⟨_, rfl⟩
    | (show Own (if _ then _ else _)
       split
       · exact ⟨_, rfl⟩
       · trivial)

theorem fromItem_deliberate {a : Any} (h : Sound a) :
    Deliberate (fun i => i ≠ .nil) (fromItemOf a) := by
  unfold fromItemOf
  split
  · exact nofun
  · cases h
  · exact nofun
  · exact nofun
  · exact nofun
  · exact ⟨_, rfl⟩

theorem fromItems_deliberate : ∀ {l : List Any}, (∀ a ∈ l, Sound a) →
    Deliberate (fun is => is.all (· ≠ .nil) = true) (toFromItems l)
  | [], _ => rfl
  | a :: l, h => by
    have h1 := fromItem_deliberate (h a (by simp))
    have h2 := fromItems_deliberate fun x hx => h x (List.mem_cons_of_mem _ hx)
    unfold toFromItems
    cases hx : fromItemOf a with
    | error p => rw [hx] at h1; exact h1
    | ok i =>
      rw [hx] at h1
      cases hy : toFromItems l with
      | error p => rw [hy] at h2; exact h2
      | ok is =>
        rw [hy] at h2
        show List.all (i :: is) _ = true
        rw [List.all_cons, show is.all _ = true from h2]
        simpa using show i ≠ .nil from h1

theorem toFrom_deliberate {l : List Any} (h : ∀ a ∈ l, Sound a) :
    Deliberate (fun is => is.all (· ≠ .nil) = true) (toFrom l) := by
  have := fromItems_deliberate h
  unfold toFrom
  cases hx : toFromItems l with
  | error p => rw [hx] at this; exact this
  | ok is =>
    rw [hx] at this
    simp only
    split
    · exact ⟨_, rfl⟩
    · exact this

theorem toSuffix_own (a : Any) : Own (toSuffix a) := by
  unfold toSuffix
  split <;> first | exact ⟨_, rfl⟩ | (split <;> first | exact ⟨_, rfl⟩ | trivial)

theorem toPrefix_own (a : Any) : Own (toPrefix a) := by
  unfold toPrefix
  split <;> first | exact ⟨_, rfl⟩ | (split <;> first | exact ⟨_, rfl⟩ | trivial)

theorem toLimit_own (a : Any) : Own (toLimit a) := by
  unfold toLimit
  split
  · trivial
  · split
    · exact ⟨_, rfl⟩
    · split
      · exact ⟨_, rfl⟩
      · trivial

theorem toOffset_own (a : Any) : Own (toOffset a) := by
  unfold toOffset
  split
  · trivial
  · split
    · exact ⟨_, rfl⟩
    · split
      · exact ⟨_, rfl⟩
      · trivial

/-! ## SET -/

theorem mapAssign_mem {c : Column} {e : Expr} : ∀ {m : List (Column × Expr)} {x : Column × Expr},
    x ∈ mapAssign c e m → x.2 = e ∨ x ∈ m
  | [], x, h => by rw [mapAssign, List.mem_singleton] at h; exact .inl (by rw [h])
  | (k, v) :: m, x, h => by
    rw [mapAssign] at h
    split at h
    · rcases List.mem_cons.1 h with rfl | h
      · exact .inl rfl
      · exact .inr (List.mem_cons_of_mem _ h)
    · rcases List.mem_cons.1 h with rfl | h
      · exact .inr List.mem_cons_self
      · exact (mapAssign_mem h).imp id (List.mem_cons_of_mem _)

theorem add_deliberate {p : PairContainer} {c : Column} {e : Expr} (hp : noHoleSet p = true)
    (he : noHole e = true) : Deliberate (fun q => noHoleSet q = true) (p.add c e) := by
  unfold PairContainer.add
  simp only
  generalize (if p.mode = .unknown then PairMode.associative else p.mode) = mode
  split
  · exact ⟨_, rfl⟩
  · refine noHoleSet_iff.2 ⟨fun x hx => ?_, (noHoleSet_iff.1 hp).2⟩
    rcases mapAssign_mem hx with h | h
    · rw [h]; exact he
    · exact (noHoleSet_iff.1 hp).1 x h

theorem addPair_deliberate {p : PairContainer} {k v : Any} (hp : noHoleSet p = true) (hv : Sound v) :
    Deliberate (fun q => noHoleSet q = true) (addPair p k v) := by
  have h1 := toColumn_own k
  have h2 := newWrapped_deliberate hv
  unfold addPair
  cases hx : toColumn k with
  | error p => rw [hx] at h1; exact h1
  | ok c =>
    cases hy : newWrapped v with
    | error p => rw [hy] at h2; exact h2
    | ok e => rw [hy] at h2; exact add_deliberate hp h2

theorem addPairs_deliberate : ∀ {l : List (Any × Any)} {p : PairContainer}, noHoleSet p = true →
    (∀ kv ∈ l, Sound kv.2) → Deliberate (fun q => noHoleSet q = true) (addPairs p l)
  | [], p, hp, _ => hp
  | (k, v) :: l, p, hp, h => by
    have h1 := addPair_deliberate (k := k) hp (h (k, v) (by simp))
    unfold addPairs
    cases hx : addPair p k v with
    | error p => rw [hx] at h1; exact h1
    | ok q =>
      rw [hx] at h1
      exact addPairs_deliberate h1 fun kv hkv => h kv (List.mem_cons_of_mem _ hkv)

theorem setColumns_deliberate : ∀ {l : List Column} {p : PairContainer}, noHoleSet p = true →
    Deliberate (fun q => noHoleSet q = true) (setColumns p l)
  | [], p, hp => hp
  | c :: l, p, hp => by
    have h1 : Deliberate (fun q => noHoleSet q = true) (p.set c) := by
      unfold PairContainer.set
      simp only
      generalize (if p.mode = .unknown then PairMode.array else p.mode) = mode
      split
      · exact ⟨_, rfl⟩
      · exact hp
    unfold setColumns
    cases hx : p.set c with
    | error p => rw [hx] at h1; exact h1
    | ok q => rw [hx] at h1; exact setColumns_deliberate h1

theorem mergeSetArg_deliberate {p : PairContainer} {a : Any} (hp : noHoleSet p = true) (h : Sound a) :
    Deliberate (fun q => noHoleSet q = true) (mergeSetArg p a) := by
  unfold mergeSetArg
  split
  · rename_i s
    have h1 := toColumns_own [.val (.str s)]
    split
    · rename_i hx; rw [hx] at h1; exact h1
    · exact setColumns_deliberate hp
  · rename_i c
    have h1 := toColumns_own [.selExpr (.column c)]
    split
    · rename_i hx; rw [hx] at h1; exact h1
    · exact setColumns_deliberate hp
  · cases h with
    | strMap _ _ h =>
      refine addPairs_deliberate hp fun kv hkv => ?_
      obtain ⟨x, hx, rfl⟩ := List.mem_map.1 hkv
      exact h x hx
  · cases h with
    | anyMap _ _ h => exact addPairs_deliberate hp h
  · cases h with
    | pair _ _ _ h => exact addPair_deliberate hp h
  · exact ⟨_, rfl⟩

theorem mergeSet_deliberate : ∀ {l : List Any} {p : PairContainer}, noHoleSet p = true →
    (∀ a ∈ l, Sound a) → Deliberate (fun q => noHoleSet q = true) (mergeSet p l)
  | [], p, hp, _ => hp
  | a :: l, p, hp, h => by
    have h1 := mergeSetArg_deliberate hp (h a (by simp))
    unfold mergeSet
    cases hx : mergeSetArg p a with
    | error p => rw [hx] at h1; exact h1
    | ok q =>
      rw [hx] at h1
      exact mergeSet_deliberate h1 fun x hx => h x (List.mem_cons_of_mem _ hx)

theorem toSet_deliberate {l : List Any} (h : ∀ a ∈ l, Sound a) :
    Deliberate (fun q => noHoleSet q = true) (toSet l) :=
  mergeSet_deliberate rfl h

theorem useAll_deliberate : ∀ {l : List Any} {p : PairContainer}, noHoleSet p = true →
    (∀ a ∈ l, Sound a) → Deliberate (fun q => noHoleSet q = true) (UpdateStmt.useAll p l)
  | [], p, hp, _ => hp
  | a :: l, p, hp, h => by
    have h1 := newExpression_deliberate (h a (by simp))
    unfold UpdateStmt.useAll
    cases hx : newExpression a with
    | error p => rw [hx] at h1; exact h1
    | ok e =>
      rw [hx] at h1
      have h2 : Deliberate (fun q => noHoleSet q = true) (p.use e) := by
        unfold PairContainer.use
        split
        · exact ⟨_, rfl⟩
        · obtain ⟨h3, h4⟩ := noHoleSet_iff.1 hp
          refine noHoleSet_iff.2 ⟨h3, noHoles_all.2 fun x hx => ?_⟩
          rcases List.mem_append.1 hx with hx | hx
          · exact noHoles_all.1 h4 x hx
          · rw [List.mem_singleton.1 hx]; exact h1
      simp only
      cases hy : p.use e with
      | error p => rw [hy] at h2; exact h2
      | ok q =>
        rw [hy] at h2
        exact useAll_deliberate h2 fun x hx => h x (List.mem_cons_of_mem _ hx)

/-! ## Conditions -/

theorem whereAnd_deliberate {w c : Expr} (hw : (absent w || noHole w) = true)
    (hc : (absent c || noHole c) = true) :
    Deliberate (fun e => noHole e = true) (whereAnd w c) := by
  unfold whereAnd
  split
  · exact absurd ‹_› (isUnset_total hw _)
  · exact ⟨_, rfl⟩
  · show noHole (.infx _ _ _) = true
    rw [noHole, hw, wrapper_opt hc]; rfl

theorem whereOr_deliberate {w c : Expr} (hw : (absent w || noHole w) = true)
    (hc : (absent c || noHole c) = true) :
    Deliberate (fun e => noHole e = true) (whereOr w c) := by
  unfold whereOr
  split
  · exact absurd ‹_› (isUnset_total hw _)
  · exact ⟨_, rfl⟩
  · show noHole (.infx _ _ _) = true
    rw [noHole, hw, wrapper_opt hc]; rfl

theorem opt_of_noHole {e : Expr} (h : noHole e = true) : (absent e || noHole e) = true := by
  rw [h]; exact Bool.or_true _

/-! ## Joins -/

theorem noHole_onTree (e : Expr) (h : onTree e ≠ none) : noHole e = true := by
  match e with
  | .onClause _ _ => rfl
  | .infx l (.logical op) r =>
    rw [onTree] at h
    cases hl : onTree l with
    | none => rw [hl] at h; exact absurd rfl h
    | some x =>
      cases hr : onTree r with
      | none => rw [hl, hr] at h; exact absurd rfl h
      | some y =>
        rw [noHole, noHole_onTree l (by rw [hl]; nofun), noHole_onTree r (by rw [hr]; nofun)]
        simp

theorem parse_deliberate {text : Str} (h : JoinSafe text) :
    Deliberate (fun j => noHole j.cond = true) (mustParseJoin text) := by
  obtain ⟨items, rest, v, hs, hi, hr, hv⟩ := h
  have ho := Props.C44_exact text items rest v hs hi hr
  unfold mustParseJoin
  rcases hv with rfl | ⟨rfl, hc⟩
  · rw [show parseJoin text = .ok none from ho]; exact ⟨_, rfl⟩
  · obtain ⟨j, hj, _, _, ht, _⟩ := ho
    rw [hj]
    exact noHole_onTree j.cond (by rw [ht]; exact hc)

theorem addJoin_deliberate {b : SelectStmt} {j : Join} (hb : noHoleSelect b = true)
    (hj : noHole j.cond = true) : Deliberate (fun b => noHoleSelect b = true) (b.addJoin j) := by
  unfold SelectStmt.addJoin
  split
  · refine absurd ‹_› ?_
    exact Go.or_total ok_total (fun _ => Go.or_total ok_total fun _ => isEmpty_total _ hj) _
  · exact ⟨_, rfl⟩
  · cases b
    simp only [noHoleSelect, Bool.and_eq_true] at hb
    obtain ⟨⟨⟨⟨⟨h1, h2⟩, h3⟩, h4⟩, h5⟩, h6⟩ := hb
    show noHoleSelect _ = true
    simp only [noHoleSelect, Bool.and_eq_true]
    refine ⟨⟨⟨⟨⟨h1, h2⟩, h3⟩, ?_⟩, h5⟩, h6⟩
    rename_i joins _ _ _ _ _ _ _ _
    clear h1 h2 h3 h5 h6
    induction joins with
    | nil => cases j; simp only [List.nil_append, noHoleJoins]; rw [hj]; rfl
    | cons k l ih =>
      cases k
      simp only [List.cons_append, noHoleJoins, Bool.and_eq_true] at h4 ⊢
      exact ⟨h4.1, ih h4.2⟩

theorem handleJoin_deliberate {a0 a1 : Any} (h1 : Sound a1)
    (ht : ∀ text, a1 = .val (.str text) → JoinSafe text) :
    Deliberate (fun j => noHole j.cond = true) (SelectStmt.handleSelectJoin a0 a1) := by
  have hj : ∀ t : Table, Deliberate (fun j => noHole j.cond = true)
      (match a1 with
      | .val (.str s) => mustParseJoin s
      | .expr (.onClause l r) => .ok { type := Types.InnerJoin, table := t, cond := .onClause l r }
      | .expr (.infixOn l op r) =>
        .ok { type := Types.InnerJoin, table := t, cond := .infixOn l op r }
      | _ => Go.panic "loukoum: cannot use value as condition for join clause") := by
    intro t
    split
    · exact parse_deliberate (ht _ rfl)
    · rfl
    · cases h1 with
      | expr _ h => exact h
    · exact ⟨_, rfl⟩
  unfold SelectStmt.handleSelectJoin
  have key : ∀ t : Table, Deliberate (fun j => noHole j.cond = true)
      (match (match a1 with
      | .val (.str s) => mustParseJoin s
      | .expr (.onClause l r) => .ok { type := Types.InnerJoin, table := t, cond := .onClause l r }
      | .expr (.infixOn l op r) =>
        .ok { type := Types.InnerJoin, table := t, cond := .infixOn l op r }
      | _ => Go.panic "loukoum: cannot use value as condition for join clause" : Go Verif.Join) with
      | .error p => .error p
      | .ok j => .ok { j with table := t }) := by
    intro t
    have := hj t
    split
    · rename_i hx; rw [hx] at this; exact this
    · rename_i hx; rw [hx] at this; exact this
  split
  · exact key _
  · exact key _
  · exact ⟨_, rfl⟩

theorem join_deliberate {b : SelectStmt} {args : List Any} (hb : noHoleSelect b = true)
    (ha : ∀ a ∈ args, Sound a) (ht : ∀ text ∈ joinTexts args, JoinSafe text) :
    Deliberate (fun b => noHoleSelect b = true) (b.Join args) := by
  unfold SelectStmt.Join
  split
  · rename_i a
    have h1 : Deliberate (fun j => noHole j.cond = true) (SelectStmt.joinOfArg a) := by
      unfold SelectStmt.joinOfArg
      split
      · exact parse_deliberate (ht _ (by simp [joinTexts]))
      · have := ha _ List.mem_cons_self
        cases this with
        | join _ h => exact h
      · exact ⟨_, rfl⟩
    split
    · rename_i hx; rw [hx] at h1; exact h1
    · rename_i hx; rw [hx] at h1; exact addJoin_deliberate hb h1
  · rename_i a0 a1
    have h1 := handleJoin_deliberate (a0 := a0) (ha a1 (by simp)) fun text he =>
      ht text (by subst he; simp [joinTexts])
    split
    · rename_i hx; rw [hx] at h1; exact h1
    · rename_i hx; rw [hx] at h1; exact addJoin_deliberate hb h1
  · rename_i a0 a1 a2
    have h1 := handleJoin_deliberate (a0 := a0) (ha a1 (by simp)) fun text he =>
      ht text (by subst he; simp [joinTexts])
    split
    · rename_i hx; rw [hx] at h1; exact h1
    · rename_i hx
      rw [hx] at h1
      split
      · exact addJoin_deliberate hb h1
      · exact ⟨_, rfl⟩
  · exact ⟨_, rfl⟩

/-! ## SELECT -/

theorem noHoleWiths_append {l m : List WithQuery} (hl : noHoleWiths l = true)
    (hm : noHoleWiths m = true) : noHoleWiths (l ++ m) = true := by
  induction l with
  | nil => exact hm
  | cons w l ih =>
    cases w
    simp only [List.cons_append, noHoleWiths, Bool.and_eq_true] at hl ⊢
    exact ⟨hl.1, ih hl.2⟩

theorem noHoleSelect_iff {b : SelectStmt} : noHoleSelect b = true ↔
    noHoleWiths b.withs = true ∧ noHoleSels b.exprs = true ∧ b.tables.all (· ≠ .nil) = true ∧
    noHoleJoins b.joins = true ∧ (absent b.whr || noHole b.whr) = true ∧
    (absent b.having || noHole b.having) = true := by
  cases b
  simp only [noHoleSelect, Bool.and_eq_true, and_assoc]

theorem selectAnd_deliberate {b : SelectStmt} {c : Expr} (hb : noHoleSelect b = true)
    (hc : (absent c || noHole c) = true) :
    Deliberate (fun b => noHoleSelect b = true) (b.And c) := by
  obtain ⟨h1, h2, h3, h4, h5, h6⟩ := noHoleSelect_iff.1 hb
  have hw := whereAnd_deliberate h5 hc
  unfold SelectStmt.And
  split
  · exact ⟨_, rfl⟩
  · split
    · rename_i hx; rw [hx] at hw; exact hw
    · rename_i hx; rw [hx] at hw
      exact noHoleSelect_iff.2 ⟨h1, h2, h3, h4, opt_of_noHole hw, h6⟩

theorem selCall_deliberate {c : SelCall} {b : SelectStmt} (hb : noHoleSelect b = true)
    (hc : c.sound) : Deliberate (fun b => noHoleSelect b = true) (c.apply b) := by
  obtain ⟨h1, h2, h3, h4, h5, h6⟩ := noHoleSelect_iff.1 hb
  cases c with
  | distinctOn args =>
    have := toColumns_own args
    simp only [SelCall.apply, SelectStmt.DistinctOn]
    split
    · exact ⟨_, rfl⟩
    · split
      · rename_i hx; rw [hx] at this; exact this
      · split
        · exact ⟨_, rfl⟩
        · exact noHoleSelect_iff.2 ⟨h1, h2, h3, h4, h5, h6⟩
  | distinct => exact noHoleSelect_iff.2 ⟨h1, h2, h3, h4, h5, h6⟩
  | columns args =>
    have := toSelects_deliberate (l := if args.isEmpty then [.val (.str s%"*")] else args) (by
      intro a ha
      split at ha
      · rw [List.mem_singleton.1 ha]; exact .val _
      · exact hc a ha)
    simp only [SelCall.apply, SelectStmt.Columns]
    split
    · rename_i hx; rw [hx] at this; exact this
    · rename_i hx; rw [hx] at this
      exact noHoleSelect_iff.2 ⟨h1, this, h3, h4, h5, h6⟩
  | «from» args =>
    have := toFrom_deliberate hc
    simp only [SelCall.apply, SelectStmt.From]
    split
    · exact ⟨_, rfl⟩
    · split
      · rename_i hx; rw [hx] at this; exact this
      · rename_i hx; rw [hx] at this
        exact noHoleSelect_iff.2 ⟨h1, h2, this, h4, h5, h6⟩
  | join args => exact join_deliberate hb hc.1 hc.2
  | «with» args =>
    simp only [SelCall.apply, SelectStmt.With]
    split
    · exact noHoleSelect_iff.2 ⟨hc, h2, h3, h4, h5, h6⟩
    · exact noHoleSelect_iff.2 ⟨noHoleWiths_append h1 hc, h2, h3, h4, h5, h6⟩
  | «where» e =>
    simp only [SelCall.apply, SelectStmt.Where]
    split
    · exact ⟨_, rfl⟩
    · split
      · exact absurd ‹_› (isUnset_total h5 _)
      · exact noHoleSelect_iff.2 ⟨h1, h2, h3, h4, wrapper_opt hc, h6⟩
      · exact selectAnd_deliberate hb hc
  | and e => exact selectAnd_deliberate hb hc
  | or e =>
    have hw := whereOr_deliberate h5 hc
    simp only [SelCall.apply, SelectStmt.Or]
    split
    · rename_i hx; rw [hx] at hw; exact hw
    · rename_i hx; rw [hx] at hw
      exact noHoleSelect_iff.2 ⟨h1, h2, h3, h4, opt_of_noHole hw, h6⟩
  | groupBy args =>
    have := toColumns_own args
    simp only [SelCall.apply, SelectStmt.GroupBy]
    split
    · exact ⟨_, rfl⟩
    · split
      · rename_i hx; rw [hx] at this; exact this
      · split
        · exact ⟨_, rfl⟩
        · exact noHoleSelect_iff.2 ⟨h1, h2, h3, h4, h5, h6⟩
  | having e =>
    simp only [SelCall.apply, SelectStmt.Having]
    split
    · exact absurd ‹_› (isUnset_total h6 _)
    · exact ⟨_, rfl⟩
    · exact noHoleSelect_iff.2 ⟨h1, h2, h3, h4, h5, hc⟩
  | orderBy os => exact noHoleSelect_iff.2 ⟨h1, h2, h3, h4, h5, h6⟩
  | limit v =>
    have := toLimit_own v
    simp only [SelCall.apply, SelectStmt.Limit]
    split
    · exact ⟨_, rfl⟩
    · split
      · rename_i hx; rw [hx] at this; exact this
      · exact noHoleSelect_iff.2 ⟨h1, h2, h3, h4, h5, h6⟩
  | offset v =>
    have := toOffset_own v
    simp only [SelCall.apply, SelectStmt.Offset]
    split
    · exact ⟨_, rfl⟩
    · split
      · rename_i hx; rw [hx] at this; exact this
      · exact noHoleSelect_iff.2 ⟨h1, h2, h3, h4, h5, h6⟩
  | «suffix» v =>
    have := toSuffix_own v
    simp only [SelCall.apply, SelectStmt.Suffix]
    split
    · exact ⟨_, rfl⟩
    · split
      · rename_i hx; rw [hx] at this; exact this
      · exact noHoleSelect_iff.2 ⟨h1, h2, h3, h4, h5, h6⟩
  | «prefix» v =>
    have := toPrefix_own v
    simp only [SelCall.apply, SelectStmt.Prefix]
    split
    · exact ⟨_, rfl⟩
    · split
      · rename_i hx; rw [hx] at this; exact this
      · exact noHoleSelect_iff.2 ⟨h1, h2, h3, h4, h5, h6⟩
  | comment c => exact noHoleSelect_iff.2 ⟨h1, h2, h3, h4, h5, h6⟩

/-! ## INSERT -/

theorem noHoleInsert_iff {b : InsertStmt} : noHoleInsert b = true ↔
    (absent b.values || noHole b.values) = true ∧ noHoleSels b.returning = true ∧
    ∀ set, b.action = .update set → noHoleSet set = true := by
  simp only [noHoleInsert, Bool.and_eq_true, and_assoc]
  refine and_congr_right fun _ => and_congr_right fun _ => ?_
  cases b.action with
  | nil => simp
  | nothing => simp
  | update set => simp

theorem conflictLoop_deliberate : ∀ {l : List Any} {b : InsertStmt}, noHoleInsert b = true →
    (∀ a ∈ l, Sound a) → Deliberate (fun b => noHoleInsert b = true) (b.onConflictLoop l)
  | [], b, _, _ => ⟨_, rfl⟩
  | a :: l, b, hb, h => by
    obtain ⟨h1, h2, h3⟩ := noHoleInsert_iff.1 hb
    have ih : ∀ c : Column, Deliberate (fun b => noHoleInsert b = true)
        (InsertStmt.onConflictLoop { b with target := b.target ++ [c] } l) := fun c =>
      conflictLoop_deliberate (noHoleInsert_iff.2 ⟨h1, h2, h3⟩)
        fun x hx => h x (List.mem_cons_of_mem _ hx)
    unfold InsertStmt.onConflictLoop
    split
    · exact noHoleInsert_iff.2 ⟨h1, h2, nofun⟩
    · split
      · exact ⟨_, rfl⟩
      · have := h _ List.mem_cons_self
        cases this with
        | conflictUpdate set hs =>
          exact noHoleInsert_iff.2 ⟨h1, h2, fun s e => by cases e; exact hs⟩
    · rename_i s
      have := toColumn_own (.val (.str s))
      split
      · rename_i hx; rw [hx] at this; exact this
      · exact ih _
    · rename_i c
      have := toColumn_own (.selExpr (.column c))
      split
      · rename_i hx; rw [hx] at this; exact this
      · exact ih _
    · exact ⟨_, rfl⟩

theorem insCall_deliberate [GoRuntime] {c : InsCall} {b : InsertStmt} (hb : noHoleInsert b = true)
    (hc : c.sound) : Deliberate (fun b => noHoleInsert b = true) (c.apply b) := by
  obtain ⟨h1, h2, h3⟩ := noHoleInsert_iff.1 hb
  cases c with
  | into a =>
    have := toInto_own a
    simp only [InsCall.apply, InsertStmt.Into]
    split
    · exact ⟨_, rfl⟩
    · split
      · rename_i hx; rw [hx] at this; exact this
      · exact noHoleInsert_iff.2 ⟨h1, h2, h3⟩
  | columns args =>
    have := toColumns_own args
    simp only [InsCall.apply, InsertStmt.Columns]
    split
    · exact hb
    · split
      · exact ⟨_, rfl⟩
      · split
        · rename_i hx; rw [hx] at this; exact this
        · exact noHoleInsert_iff.2 ⟨h1, h2, h3⟩
  | values args =>
    have := newArrayList_deliberate hc.1 hc.2
    simp only [InsCall.apply, InsertStmt.Values]
    split
    · exact absurd ‹_› (isUnset_total h1 _)
    · exact ⟨_, rfl⟩
    · split
      · rename_i hx; rw [hx] at this; exact this
      · rename_i hx; rw [hx] at this
        exact noHoleInsert_iff.2 ⟨opt_of_noHole this, h2, h3⟩
  | set args =>
    have := toSet_deliberate hc
    simp only [InsCall.apply, InsertStmt.Set]
    split
    · exact ⟨_, rfl⟩
    · split
      · exact absurd ‹_› (isUnset_total h1 _)
      · exact ⟨_, rfl⟩
      · split
        · rename_i hx; rw [hx] at this; exact this
        · rename_i set hx
          rw [hx] at this
          have hv := values_deliberate this
          split
          · rename_i hy; rw [hy] at hv; exact hv
          · rename_i es hy
            rw [hy] at hv
            have := newArrayList_deliberate (l := [.exprs es]) nofun fun a ha => by
              rw [List.mem_singleton.1 ha]
              exact .exprs es fun e he => opt_of_noHole (noHoles_all.1 hv e he)
            split
            · rename_i hz; rw [hz] at this; exact this
            · rename_i hz; rw [hz] at this
              exact noHoleInsert_iff.2 ⟨opt_of_noHole this, h2, h3⟩
  | onConflict args =>
    simp only [InsCall.apply, InsertStmt.OnConflict]
    split
    · exact ⟨_, rfl⟩
    · split
      · exact ⟨_, rfl⟩
      · exact conflictLoop_deliberate hb hc
  | returning args =>
    have := toSelects_deliberate hc
    simp only [InsCall.apply, InsertStmt.Returning]
    split
    · exact ⟨_, rfl⟩
    · split
      · rename_i hx; rw [hx] at this; exact this
      · rename_i hx; rw [hx] at this
        exact noHoleInsert_iff.2 ⟨h1, this, h3⟩
  | comment c => exact noHoleInsert_iff.2 ⟨h1, h2, h3⟩

/-! ## UPDATE -/

theorem noHoleUpdate_iff {b : UpdateStmt} : noHoleUpdate b = true ↔
    noHoleWiths b.withs = true ∧ noHoleSet b.set = true ∧ b.tables.all (· ≠ .nil) = true ∧
    (absent b.whr || noHole b.whr) = true ∧ noHoleSels b.returning = true := by
  simp only [noHoleUpdate, Bool.and_eq_true, and_assoc]

theorem updateAnd_deliberate {b : UpdateStmt} {c : Expr} (hb : noHoleUpdate b = true)
    (hc : (absent c || noHole c) = true) :
    Deliberate (fun b => noHoleUpdate b = true) (b.And c) := by
  obtain ⟨h1, h2, h3, h4, h5⟩ := noHoleUpdate_iff.1 hb
  have hw := whereAnd_deliberate h4 hc
  unfold UpdateStmt.And
  split
  · rename_i hx; rw [hx] at hw; exact hw
  · rename_i hx; rw [hx] at hw
    exact noHoleUpdate_iff.2 ⟨h1, h2, h3, opt_of_noHole hw, h5⟩

theorem updCall_deliberate {c : UpdCall} {b : UpdateStmt} (hb : noHoleUpdate b = true)
    (hc : c.sound) : Deliberate (fun b => noHoleUpdate b = true) (c.apply b) := by
  obtain ⟨h1, h2, h3, h4, h5⟩ := noHoleUpdate_iff.1 hb
  cases c with
  | only => exact noHoleUpdate_iff.2 ⟨h1, h2, h3, h4, h5⟩
  | set args =>
    have := mergeSet_deliberate h2 hc
    simp only [UpdCall.apply, UpdateStmt.Set]
    split
    · exact ⟨_, rfl⟩
    · split
      · rename_i hx; rw [hx] at this; exact this
      · rename_i hx; rw [hx] at this
        exact noHoleUpdate_iff.2 ⟨h1, this, h3, h4, h5⟩
  | «using» args =>
    have := useAll_deliberate h2 hc
    simp only [UpdCall.apply, UpdateStmt.Using]
    split
    · exact ⟨_, rfl⟩
    · split
      · exact ⟨_, rfl⟩
      · split
        · rename_i hx; rw [hx] at this; exact this
        · rename_i hx; rw [hx] at this
          exact noHoleUpdate_iff.2 ⟨h1, this, h3, h4, h5⟩
  | «with» args =>
    simp only [UpdCall.apply, UpdateStmt.With]
    split
    · exact noHoleUpdate_iff.2 ⟨hc, h2, h3, h4, h5⟩
    · exact noHoleUpdate_iff.2 ⟨noHoleWiths_append h1 hc, h2, h3, h4, h5⟩
  | «where» e =>
    simp only [UpdCall.apply, UpdateStmt.Where]
    split
    · exact absurd ‹_› (isUnset_total h4 _)
    · exact noHoleUpdate_iff.2 ⟨h1, h2, h3, wrapper_opt hc, h5⟩
    · exact updateAnd_deliberate hb hc
  | and e => exact updateAnd_deliberate hb hc
  | or e =>
    have hw := whereOr_deliberate h4 hc
    simp only [UpdCall.apply, UpdateStmt.Or]
    split
    · rename_i hx; rw [hx] at hw; exact hw
    · rename_i hx; rw [hx] at hw
      exact noHoleUpdate_iff.2 ⟨h1, h2, h3, opt_of_noHole hw, h5⟩
  | «from» a =>
    have := toFrom_deliberate (l := [a]) fun x hx => by rw [List.mem_singleton.1 hx]; exact hc
    simp only [UpdCall.apply, UpdateStmt.From]
    split
    · exact ⟨_, rfl⟩
    · split
      · rename_i hx; rw [hx] at this; exact this
      · rename_i hx; rw [hx] at this
        exact noHoleUpdate_iff.2 ⟨h1, h2, this, h4, h5⟩
  | returning args =>
    have := toSelects_deliberate hc
    simp only [UpdCall.apply, UpdateStmt.Returning]
    split
    · exact ⟨_, rfl⟩
    · split
      · rename_i hx; rw [hx] at this; exact this
      · rename_i hx; rw [hx] at this
        exact noHoleUpdate_iff.2 ⟨h1, h2, h3, h4, this⟩
  | comment c => exact noHoleUpdate_iff.2 ⟨h1, h2, h3, h4, h5⟩

/-! ## DELETE -/

theorem noHoleDelete_iff {b : DeleteStmt} : noHoleDelete b = true ↔
    b.tables.all (· ≠ .nil) = true ∧ (absent b.whr || noHole b.whr) = true ∧
    noHoleSels b.returning = true := by
  simp only [noHoleDelete, Bool.and_eq_true, and_assoc]

theorem deleteAnd_deliberate {b : DeleteStmt} {c : Expr} (hb : noHoleDelete b = true)
    (hc : (absent c || noHole c) = true) :
    Deliberate (fun b => noHoleDelete b = true) (b.And c) := by
  obtain ⟨h1, h2, h3⟩ := noHoleDelete_iff.1 hb
  have hw := whereAnd_deliberate h2 hc
  unfold DeleteStmt.And
  split
  · rename_i hx; rw [hx] at hw; exact hw
  · rename_i hx; rw [hx] at hw
    exact noHoleDelete_iff.2 ⟨h1, opt_of_noHole hw, h3⟩

theorem delCall_deliberate {c : DelCall} {b : DeleteStmt} (hb : noHoleDelete b = true)
    (hc : c.sound) : Deliberate (fun b => noHoleDelete b = true) (c.apply b) := by
  obtain ⟨h1, h2, h3⟩ := noHoleDelete_iff.1 hb
  cases c with
  | «from» args =>
    have := toFrom_deliberate hc
    simp only [DelCall.apply, DeleteStmt.From]
    split
    · exact ⟨_, rfl⟩
    · split
      · rename_i hx; rw [hx] at this; exact this
      · rename_i hx; rw [hx] at this
        exact noHoleDelete_iff.2 ⟨this, h2, h3⟩
  | «using» args =>
    have := toTables_own args
    simp only [DelCall.apply, DeleteStmt.Using]
    split
    · exact ⟨_, rfl⟩
    · split
      · rename_i hx; rw [hx] at this; exact this
      · exact noHoleDelete_iff.2 ⟨h1, h2, h3⟩
  | «where» e =>
    simp only [DelCall.apply, DeleteStmt.Where]
    split
    · exact absurd ‹_› (isUnset_total h2 _)
    · exact noHoleDelete_iff.2 ⟨h1, wrapper_opt hc, h3⟩
    · exact deleteAnd_deliberate hb hc
  | and e => exact deleteAnd_deliberate hb hc
  | or e =>
    have hw := whereOr_deliberate h2 hc
    simp only [DelCall.apply, DeleteStmt.Or]
    split
    · rename_i hx; rw [hx] at hw; exact hw
    · rename_i hx; rw [hx] at hw
      exact noHoleDelete_iff.2 ⟨h1, opt_of_noHole hw, h3⟩
  | returning args =>
    have := toSelects_deliberate hc
    simp only [DelCall.apply, DeleteStmt.Returning]
    split
    · exact ⟨_, rfl⟩
    · split
      · rename_i hx; rw [hx] at this; exact this
      · rename_i hx; rw [hx] at this
        exact noHoleDelete_iff.2 ⟨h1, h2, this⟩
  | comment c => exact noHoleDelete_iff.2 ⟨h1, h2, h3⟩

/-! ## Programs -/

theorem runAll_deliberate {S C : Type} {apply : C → S → Go S} {P : S → Prop} {Q : C → Prop}
    (h : ∀ c s, P s → Q c → Deliberate P (apply c s)) :
    ∀ {l : List C} {s : S}, P s → (∀ c ∈ l, Q c) → Deliberate P (runAll apply l s)
  | [], s, hs, _ => hs
  | c :: l, s, hs, hl => by
    have h1 := h c s hs (hl c (by simp))
    unfold runAll
    cases hx : apply c s with
    | error p => rw [hx] at h1; exact h1
    | ok t =>
      rw [hx] at h1
      exact runAll_deliberate h h1 fun x hx => hl x (List.mem_cons_of_mem _ hx)

end Verif
