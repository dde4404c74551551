import Verif.Spec.Pairs
import Verif.Lemmas.Argument
import Verif.Lemmas.Set
import Verif.Lemmas.Clauses

/-!
# Lemmas about assignments given to `Set`
-/

set_option linter.unusedSectionVars false

namespace Verif
open Spec

/-! ## Association lists -/

theorem mapLookup_assign {κ ν : Type} [DecidableEq κ] (k : κ) (v : ν) (m : List (κ × ν)) (j : κ) :
    mapLookup j (mapAssign k v m) = if k = j then some v else mapLookup j m := by
  induction m with
  | nil => rfl
  | cons kv m ih =>
    obtain ⟨k', v'⟩ := kv
    rw [mapAssign]
    by_cases h : k' = k
    · subst h
      rw [if_pos rfl, mapLookup, mapLookup]
      by_cases hj : k' = j <;> simp [hj]
    · rw [if_neg h, mapLookup, mapLookup, ih]
      by_cases hj : k' = j
      · subst hj
        simp [Ne.symm h]
      · simp [hj]

theorem mapAssign_ne_nil {κ ν : Type} [DecidableEq κ] (k : κ) (v : ν) (m : List (κ × ν)) :
    mapAssign k v m ≠ [] := by
  cases m with
  | nil => simp [mapAssign]
  | cons kv m =>
    rw [mapAssign]
    split <;> simp

/-! ## Last given -/

theorem lastGiven_nil (c : Column) : lastGiven [] c = none := rfl

theorem lastGiven_append (g h : List (Column × Expr)) (c : Column) :
    lastGiven (g ++ h) c = (lastGiven h c).or (lastGiven g c) := by
  unfold lastGiven
  rw [List.filter_append, List.getLast?_append]
  cases (h.filter (·.1 = c)).getLast? <;> simp

theorem lastGiven_single (c d : Column) (e : Expr) :
    lastGiven [(c, e)] d = if c = d then some e else none := by
  unfold lastGiven
  by_cases h : c = d <;> simp [h]

theorem lastGiven_isSome (g : List (Column × Expr)) (c : Column) :
    (lastGiven g c).isSome = true ↔ c ∈ g.map (·.1) := by
  unfold lastGiven
  rw [Option.isSome_map, List.getLast?_isSome]
  constructor
  · intro h
    obtain ⟨x, hx⟩ := List.exists_mem_of_ne_nil _ h
    rw [List.mem_filter] at hx
    exact List.mem_map.2 ⟨x, hx.1, of_decide_eq_true hx.2⟩
  · intro h h0
    obtain ⟨x, hx, rfl⟩ := List.mem_map.1 h
    have : x ∈ g.filter (fun y => decide (y.1 = x.1)) := List.mem_filter.2 ⟨hx, by simp⟩
    rw [h0] at this
    cases this

theorem lastGiven_perm {g h : List (Column × Expr)} (hp : g.Perm h)
    (hn : (g.map (·.1)).Nodup) (c : Column) : lastGiven g c = lastGiven h c := by
  have key : ∀ g : List (Column × Expr), (g.map (·.1)).Nodup → ∀ e, lastGiven g c = some e ↔ (c, e) ∈ g := by
    intro g hn e
    induction g with
    | nil => simp [lastGiven]
    | cons x g ih =>
      obtain ⟨d, f⟩ := x
      rw [List.map_cons, List.nodup_cons] at hn
      have := lastGiven_append [(d, f)] g c
      rw [List.singleton_append] at this
      rw [this, lastGiven_single]
      by_cases hd : d = c
      · subst hd
        have hno : lastGiven g d = none := by
          cases hl : lastGiven g d with
          | none => rfl
          | some e => exact absurd ((lastGiven_isSome g d).1 (by simp [hl])) hn.1
        rw [hno]
        have hg : (d, e) ∉ g := fun hm => hn.1 (List.mem_map.2 ⟨_, hm, rfl⟩)
        simp [hg, eq_comm]
      · rw [if_neg hd, Option.or_none, ih hn.2]
        simp [Ne.symm hd]
  apply Option.ext
  intro e
  rw [key g hn e, key h ((hp.map _).nodup_iff.1 hn) e]
  exact hp.mem_iff

/-! ## Making the assignments -/

/-- The container after one assignment. -/
def assignOne (p : PairContainer) (ce : Column × Expr) : PairContainer :=
  { p with
    mode := .associative
    columns := if (mapLookup ce.1 p.map).isSome then p.columns else p.columns ++ [ce.1]
    map := mapAssign ce.1 ce.2 p.map }

/-- The container after some assignments. -/
def assignAll (p : PairContainer) (g : List (Column × Expr)) : PairContainer := g.foldl assignOne p

theorem assignAll_append (p : PairContainer) (g h : List (Column × Expr)) :
    assignAll p (g ++ h) = assignAll (assignAll p g) h := List.foldl_append

theorem assignAll_mode {p : PairContainer} {g : List (Column × Expr)} (h : p.mode ≠ .array) :
    (assignAll p g).mode ≠ .array := by
  induction g generalizing p with
  | nil => exact h
  | cons ce g ih => exact ih (p := assignOne p ce) (by simp [assignOne])

theorem assignAll_mode_associative {p : PairContainer} {g : List (Column × Expr)}
    (h : p.mode = .associative ∨ g ≠ []) : (assignAll p g).mode = .associative := by
  induction g generalizing p with
  | nil =>
    rcases h with h | h
    · exact h
    · exact absurd rfl h
  | cons ce g ih => exact ih (p := assignOne p ce) (.inl rfl)

theorem add_eq {p : PairContainer} {c : Column} {e : Expr} (h : p.mode ≠ .array) :
    p.add c e = .ok (assignOne p (c, e)) := by
  unfold PairContainer.add
  cases hm : p.mode <;> simp_all [assignOne]

theorem add_array {p : PairContainer} {c : Column} {e : Expr} (h : p.mode = .array) :
    ∃ q, p.add c e = .error q := by
  unfold PairContainer.add
  rw [h]
  exact ⟨_, rfl⟩

theorem toColumn_iff (a : Any) (c : Column) : toColumn a = .ok c ↔ KeyArg a c := by
  have key : ∀ d : Column,
      ((if d.isEmpty then Go.panic "loukoum: given column is undefined" else .ok d : Go Column) = .ok c) ↔
        d = c ∧ d.name ≠ [] := by
    intro d
    have hd : d.isEmpty = true ↔ d.name = [] := by simp [Column.isEmpty]
    by_cases h : d.isEmpty = true
    · rw [if_pos h]
      exact ⟨fun h => (by cases h), fun h2 => absurd (hd.1 h) h2.2⟩
    · rw [if_neg h]
      refine ⟨fun h2 => ?_, fun h2 => by rw [h2.1]⟩
      cases h2
      exact ⟨rfl, fun h3 => h (hd.2 h3)⟩
  by_cases h1 : ∃ s, a = .val (.str s)
  · obtain ⟨s, rfl⟩ := h1
    refine (key { name := trimSpace s }).trans ⟨?_, ?_⟩
    · rintro ⟨rfl, h⟩
      exact ⟨trimmed_trimSpace s, h, rfl⟩
    · rintro ⟨h1, h2, h3⟩
      have := trimmed_unique (trimmed_trimSpace s) h1
      cases c
      simp_all
  · by_cases h2 : ∃ d, a = .selExpr (.column d)
    · obtain ⟨d, rfl⟩ := h2
      exact (key d).trans ⟨fun h => ⟨h.1.symm, h.2⟩, fun h => ⟨h.1.symm, h.2⟩⟩
    · constructor
      · intro h
        unfold toColumn at h
        split at h
        · exact absurd ⟨_, rfl⟩ h1
        · exact absurd ⟨_, rfl⟩ h2
        · cases h
      · intro h
        unfold KeyArg at h
        split at h
        · exact absurd ⟨_, rfl⟩ h1
        · exact absurd ⟨_, rfl⟩ h2
        · exact h.elim

theorem addPair_given {p : PairContainer} {k v : Any} {ce : Column × Expr} (h : GivenPair (k, v) ce)
    (hm : p.mode ≠ .array) : addPair p k v = .ok (assignOne p ce) := by
  unfold addPair
  rw [(toColumn_iff k ce.1).2 h.1, h.2]
  exact add_eq hm

theorem addPair_inv {p q : PairContainer} {k v : Any} (h : addPair p k v = .ok q) :
    p.mode ≠ .array ∧ ∃ ce, GivenPair (k, v) ce ∧ q = assignOne p ce := by
  unfold addPair at h
  split at h
  · cases h
  · next c hc =>
    split at h
    · cases h
    · next e he =>
      by_cases hm : p.mode = .array
      · obtain ⟨r, hr⟩ := add_array (c := c) (e := e) hm
        rw [hr] at h
        cases h
      · rw [add_eq hm] at h
        cases h
        exact ⟨hm, (c, e), ⟨(toColumn_iff k c).1 hc, he⟩, rfl⟩

theorem addPairs_given {l : List (Any × Any)} {g : List (Column × Expr)} (h : Each GivenPair l g)
    {p : PairContainer} (hm : p.mode ≠ .array) : addPairs p l = .ok (assignAll p g) := by
  induction h generalizing p with
  | nil => rfl
  | @cons kv ce l g h1 _ ih =>
    obtain ⟨k, v⟩ := kv
    rw [addPairs, addPair_given h1 hm]
    exact ih (p := assignOne p ce) (by simp [assignOne])

theorem addPairs_inv {l : List (Any × Any)} {p q : PairContainer} (h : addPairs p l = .ok q) :
    (l = [] ∨ p.mode ≠ .array) ∧ ∃ g, Each GivenPair l g ∧ q = assignAll p g := by
  induction l generalizing p with
  | nil => cases h; exact ⟨.inl rfl, [], .nil, rfl⟩
  | cons kv l ih =>
    obtain ⟨k, v⟩ := kv
    rw [addPairs] at h
    split at h
    · cases h
    · next p' hp =>
      obtain ⟨hm, ce, h1, rfl⟩ := addPair_inv hp
      obtain ⟨_, g, hg, rfl⟩ := ih h
      exact ⟨.inr hm, ce :: g, .cons h1 hg, rfl⟩

theorem mergeSetArg_given {a : Any} {g : List (Column × Expr)} (h : GivenArg a g)
    {p : PairContainer} (hm : p.mode ≠ .array) : mergeSetArg p a = .ok (assignAll p g) := by
  unfold GivenArg at h
  split at h
  · obtain ⟨ce, h, rfl⟩ := h
    exact addPair_given h hm
  · exact addPairs_given h hm
  · exact addPairs_given h hm
  · exact h.elim

theorem mergeSet_given {args : List Any} {g : List (Column × Expr)} (h : GivenArgs args g)
    {p : PairContainer} (hm : p.mode ≠ .array) : mergeSet p args = .ok (assignAll p g) := by
  obtain ⟨gs, h, rfl⟩ := h
  induction h generalizing p with
  | nil => rfl
  | @cons a g l gs h1 _ ih =>
    rw [mergeSet, mergeSetArg_given h1 hm, List.flatten_cons, assignAll_append]
    exact ih (assignAll_mode hm)

theorem columnsArg_ne_nil {a : Any} {cs : List Column} (h : ColumnsArg a cs) : cs ≠ [] := by
  unfold ColumnsArg at h
  split at h
  · obtain ⟨names, ⟨parts, hne, _, _, he, _⟩, rfl⟩ := h
    cases he with
    | nil => exact absurd rfl hne
    | cons _ _ => simp
  · rw [h.2]; simp
  · exact h.elim

theorem setColumns_eq {cs : List Column} : ∀ {p : PairContainer}, p.mode ≠ .associative → cs ≠ [] →
    setColumns p cs = .ok { p with mode := .array, columns := p.columns ++ cs } := by
  induction cs with
  | nil => intro p _ h; exact absurd rfl h
  | cons c cs ih =>
    intro p hm _
    have h1 : p.set c = .ok { p with mode := .array, columns := p.columns ++ [c] } := by
      unfold PairContainer.set
      cases h : p.mode <;> simp_all
    rw [setColumns, h1]
    by_cases hcs : cs = []
    · subst hcs; rfl
    · show setColumns _ cs = _
      rw [ih (by simp) hcs]
      simp

theorem setColumns_inv {cs : List Column} {p q : PairContainer} (hne : cs ≠ [])
    (h : setColumns p cs = .ok q) :
    p.mode ≠ .associative ∧ q = { p with mode := .array, columns := p.columns ++ cs } := by
  have hm : p.mode ≠ .associative := by
    cases cs with
    | nil => exact absurd rfl hne
    | cons c cs =>
      rw [setColumns] at h
      split at h
      · cases h
      · next h1 => exact (set_ok h1).1
  rw [setColumns_eq hm hne] at h
  cases h
  exact ⟨hm, rfl⟩

/-- What an argument of `Set` does. -/
theorem mergeSetArg_inv {p q : PairContainer} {a : Any} (h : mergeSetArg p a = .ok q) :
    (∃ cs, ColumnsArg a cs ∧ p.mode ≠ .associative ∧
      q = { p with mode := .array, columns := p.columns ++ cs }) ∨
    ∃ g, GivenArg a g ∧ (g ≠ [] → p.mode ≠ .array) ∧ q = assignAll p g := by
  unfold mergeSetArg at h
  split at h
  · next s =>
    split at h
    · cases h
    · next cs hcs =>
      have h' : columnsOfArg (.val (.str s)) = .ok cs := by
        have h'' : toColumnsLoop [.val (.str s)] = .ok cs := hcs
        obtain ⟨ls, he, rfl⟩ := (toColumnsLoop_iff _ _).1 h''
        cases he with
        | cons h1 h2 => cases h2; simpa using (columnsArg_iff _ _).2 h1
      have hc := (columnsArg_iff _ _).1 h'
      obtain ⟨h1, h2⟩ := setColumns_inv (columnsArg_ne_nil hc) h
      exact .inl ⟨cs, hc, h1, h2⟩
  · next c =>
    split at h
    · cases h
    · next cs hcs =>
      have h' : columnsOfArg (.selExpr (.column c)) = .ok cs := by
        have h'' : toColumnsLoop [.selExpr (.column c)] = .ok cs := hcs
        obtain ⟨ls, he, rfl⟩ := (toColumnsLoop_iff _ _).1 h''
        cases he with
        | cons h1 h2 => cases h2; simpa using (columnsArg_iff _ _).2 h1
      have hc := (columnsArg_iff _ _).1 h'
      obtain ⟨h1, h2⟩ := setColumns_inv (columnsArg_ne_nil hc) h
      exact .inl ⟨cs, hc, h1, h2⟩
  · obtain ⟨h1, g, hg, rfl⟩ := addPairs_inv h
    refine .inr ⟨g, hg, ?_, rfl⟩
    intro hne
    rcases h1 with h1 | h1
    · rw [h1] at hg; cases hg; exact absurd rfl hne
    · exact h1
  · obtain ⟨h1, g, hg, rfl⟩ := addPairs_inv h
    refine .inr ⟨g, hg, ?_, rfl⟩
    intro hne
    rcases h1 with h1 | h1
    · rw [h1] at hg; cases hg; exact absurd rfl hne
    · exact h1
  · obtain ⟨h1, ce, hg, rfl⟩ := addPair_inv h
    exact .inr ⟨[ce], ⟨ce, hg, rfl⟩, fun _ => h1, rfl⟩
  · cases h

theorem mergeSetArg_columns {p : PairContainer} {a : Any} {cs : List Column} (h : ColumnsArg a cs)
    (hm : p.mode ≠ .associative) :
    mergeSetArg p a = .ok { p with mode := .array, columns := p.columns ++ cs } := by
  have h1 := (columnsArg_iff _ _).2 h
  have h2 : toColumnsLoop [a] = .ok cs := by
    rw [toColumnsLoop, h1]; simp [toColumnsLoop]
  have h3 := h
  unfold ColumnsArg at h3
  split at h3
  · next s =>
    unfold mergeSetArg
    simp only
    rw [show toColumns [.val (.str s)] = .ok cs from h2]
    exact setColumns_eq hm (columnsArg_ne_nil h)
  · next c =>
    unfold mergeSetArg
    simp only
    rw [show toColumns [.selExpr (.column c)] = .ok cs from h2]
    exact setColumns_eq hm (columnsArg_ne_nil h)
  · exact h3.elim

/-- With the key-value syntax chosen, arguments are accepted exactly when they give pairs. -/
theorem mergeSet_pairs_iff {args : List Any} {p q : PairContainer} (hm : p.mode = .associative) :
    mergeSet p args = .ok q ↔ ∃ g, GivenArgs args g ∧ q = assignAll p g := by
  constructor
  · intro h
    suffices h : ∃ gs, Each GivenArg args gs ∧ q = assignAll p gs.flatten from
      let ⟨gs, h1, h2⟩ := h
      ⟨gs.flatten, ⟨gs, h1, rfl⟩, h2⟩
    induction args generalizing p with
    | nil => cases h; exact ⟨[], .nil, rfl⟩
    | cons a l ih =>
      rw [mergeSet] at h
      split at h
      · cases h
      · next p' hp =>
        rcases mergeSetArg_inv hp with ⟨cs, _, h1, _⟩ | ⟨g, hg, _, rfl⟩
        · exact absurd hm h1
        · obtain ⟨gs, h1, h2⟩ := ih (assignAll_mode_associative (.inl hm)) h
          exact ⟨g :: gs, .cons hg h1, by rw [List.flatten_cons, assignAll_append]; exact h2⟩
  · rintro ⟨g, hg, rfl⟩
    exact mergeSet_given hg (by rw [hm]; simp)

/-! ## What the container holds -/

/-- The columns are the keys of the map, each once. -/
def KeysOk (p : PairContainer) : Prop :=
  p.columns.Nodup ∧ ∀ c, c ∈ p.columns ↔ (mapLookup c p.map).isSome = true

theorem keysOk_new : KeysOk PairContainer.new := ⟨.nil, by simp [PairContainer.new, mapLookup]⟩

theorem keysOk_one {p : PairContainer} (h : KeysOk p) (ce : Column × Expr) :
    KeysOk (assignOne p ce) := by
  obtain ⟨c, e⟩ := ce
  obtain ⟨h1, h2⟩ := h
  unfold assignOne
  cases hs : (mapLookup c p.map).isSome with
  | true =>
    refine ⟨by simpa [hs] using h1, ?_⟩
    intro d
    simp only [if_true, mapLookup_assign, h2]
    by_cases hd : c = d
    · subst hd; simp [hs]
    · simp [hd]
  | false =>
    have hc : c ∉ p.columns := by rw [h2, hs]; simp
    refine ⟨?_, ?_⟩
    · simp only [Bool.false_eq_true, if_false]
      rw [List.nodup_append]
      refine ⟨h1, by simp, ?_⟩
      intro a ha b hb
      rw [List.mem_singleton] at hb
      subst hb
      exact fun e => hc (e ▸ ha)
    · intro d
      simp only [Bool.false_eq_true, if_false, mapLookup_assign, List.mem_append, h2, List.mem_singleton]
      by_cases hd : c = d
      · subst hd; simp
      · simp [hd, Ne.symm hd]

theorem keysOk_all {p : PairContainer} (h : KeysOk p) (g : List (Column × Expr)) :
    KeysOk (assignAll p g) := by
  induction g generalizing p with
  | nil => exact h
  | cons ce g ih => exact ih (keysOk_one h ce)

theorem lookup_all (p : PairContainer) (g : List (Column × Expr)) (c : Column) :
    mapLookup c (assignAll p g).map = (lastGiven g c).or (mapLookup c p.map) := by
  induction g generalizing p with
  | nil => rfl
  | cons ce g ih =>
    have := lastGiven_append [ce] g c
    rw [List.singleton_append] at this
    rw [this]
    show mapLookup c (assignAll (assignOne p ce) g).map = _
    rw [ih]
    obtain ⟨d, e⟩ := ce
    rw [lastGiven_single]
    simp only [assignOne, mapLookup_assign]
    by_cases hd : d = c <;> cases lastGiven g c <;> simp [hd]

theorem lookupAll_ok {m : List (Column × Expr)} {cs : List Column}
    (h : ∀ c ∈ cs, (mapLookup c m).isSome = true) :
    ∃ l, lookupAll m cs = .ok l ∧ l.map (·.1) = cs ∧
      ∀ c e, (c, e) ∈ l ↔ c ∈ cs ∧ mapLookup c m = some e := by
  induction cs with
  | nil => exact ⟨[], rfl, rfl, by simp⟩
  | cons c cs ih =>
    obtain ⟨l, h1, h2, h3⟩ := ih (fun c hc => h c (List.mem_cons_of_mem _ hc))
    have hc := h c List.mem_cons_self
    cases hl : mapLookup c m with
    | none => rw [hl] at hc; cases hc
    | some e =>
      refine ⟨(c, e) :: l, by rw [lookupAll, hl, h1], by simp [h2], ?_⟩
      intro d f
      rw [List.mem_cons, h3, List.mem_cons, Prod.mk.injEq]
      constructor
      · rintro (⟨rfl, rfl⟩ | ⟨h4, h5⟩)
        · exact ⟨.inl rfl, hl⟩
        · exact ⟨.inr h4, h5⟩
      · rintro ⟨rfl | h4, h5⟩
        · rw [hl] at h5; cases h5; exact .inl ⟨rfl, rfl⟩
        · exact .inr ⟨h4, h5⟩

section
variable [GoRuntime]

/-- What is written for a key-value SET. -/
theorem values_ok {p : PairContainer} (hm : p.mode = .associative) (hk : KeysOk p) :
    ∃ l : List (Column × Expr), p.values = .ok (l.map (·.1), l.map (·.2)) ∧
      l.map (·.1) = GoRuntime.sortSlice columnLess p.columns ∧
      ∀ c e, (c, e) ∈ l ↔ mapLookup c p.map = some e := by
  have hp := GoRuntime.sortSlice_perm columnLess p.columns
  obtain ⟨l, h1, h2, h3⟩ := lookupAll_ok (m := p.map)
    (cs := GoRuntime.sortSlice columnLess p.columns)
    (fun c hc => (hk.2 c).1 (hp.mem_iff.1 hc))
  refine ⟨l, ?_, h2, ?_⟩
  · unfold PairContainer.values
    rw [if_neg (by simp [hm]), h1]
  · intro c e
    rw [h3, hp.mem_iff, hk.2]
    constructor
    · exact fun h => h.2
    · intro h; exact ⟨by simp [h], h⟩

theorem zip_fst_snd (l : List (Column × Expr)) : (l.map (·.1)).zip (l.map (·.2)) = l := by
  induction l with
  | nil => rfl
  | cons x l ih => simp [ih]

/-- Assignments made on an empty container. -/
theorem assignAll_new {p : PairContainer} (hp : p.map = [] ∧ p.columns = [] ∧ p.expressions = [])
    {g : List (Column × Expr)} (hm : (assignAll p g).mode = .associative) :
    ∃ as, (assignAll p g).values = .ok (as.map (·.1), as.map (·.2)) ∧ Assigns as g := by
  have hk : KeysOk (assignAll p g) := by
    refine keysOk_all ⟨by simp [hp.2.1], ?_⟩ g
    simp [hp.1, hp.2.1, mapLookup]
  obtain ⟨l, h1, h2, h3⟩ := values_ok hm hk
  refine ⟨l, h1, ?_, ?_⟩
  · rw [h2]
    exact (GoRuntime.sortSlice_perm columnLess _).nodup_iff.2 hk.1
  · intro c e
    rw [h3, lookup_all, hp.1]
    simp [mapLookup]


/-! ## The text of a key-value SET -/

theorem pair_string {ce : Column × Expr} {t : Str} (h : (writePair ce).string = .ok t) :
    ∃ x, PairText ce x ∧ t = x.1 ++ s%" = " ++ x.2 := by
  obtain ⟨hok, ht⟩ := (string_denotes (denotes_pair ce) t).1 h
  unfold assignL at ht
  obtain ⟨t1, t2, h1, h2, rfl⟩ := rawText_append_inv ht
  obtain ⟨t3, h3, rfl⟩ := rawText_sql_inv h2
  exact ⟨(t1, t3), ⟨(string_denotes (denotes_column ce.1) t1).2 ⟨rfl, h1⟩,
    (expr_string ce.2 t3).2 ⟨hok, h3⟩⟩, by simp⟩

theorem pairs_text {as : List (Column × Expr)} {ts : List Str}
    (h : Texts (fun ce => (writePair ce).string) as ts) :
    ∃ xs, Each PairText as xs ∧ ts = xs.map fun x => x.1 ++ s%" = " ++ x.2 := by
  induction as generalizing ts with
  | nil =>
    cases ts with
    | nil => exact ⟨[], .nil, rfl⟩
    | cons _ _ => cases h
  | cons ce as ih =>
    cases ts with
    | nil => cases h
    | cons t ts =>
      simp only [Texts, List.map_cons, List.cons.injEq] at h
      obtain ⟨xs, h1, rfl⟩ := ih h.2
      obtain ⟨x, hx, rfl⟩ := pair_string h.1
      exact ⟨x :: xs, .cons hx h1, rfl⟩

theorem assignments_eq {p : PairContainer} {as : List (Column × Expr)}
    (hv : p.values = .ok (as.map (·.1), as.map (·.2))) : assignments p = as := by
  unfold assignments
  rw [hv]
  exact zip_fst_snd as

theorem set_text {p : PairContainer} {as : List (Column × Expr)} (hm : p.mode = .associative)
    (hv : p.values = .ok (as.map (·.1), as.map (·.2))) {t : Str} (h : p.write.string = .ok t) :
    ∃ xs, Each PairText as xs ∧ t = s%"SET " ++ assignText xs := by
  obtain ⟨hok, ht⟩ := (string_denotes (denotes_set p) t).1 h
  unfold setL at ht
  obtain ⟨u, hu, rfl⟩ := rawText_sql_inv ht
  simp only [hm] at hu
  have hok' : ∀ ce ∈ as, okE ce.2 = true := by
    unfold okSet at hok
    simp only [hm, hv, zip_fst_snd, Bool.and_eq_true, List.all_eq_true] at hok
    exact hok.2
  rw [assignments_eq hv] at hu
  obtain ⟨ts, h1, rfl⟩ := commaSep_texts denotes_pair hok' hu
  obtain ⟨xs, h2, rfl⟩ := pairs_text h1
  exact ⟨xs, h2, rfl⟩

/-! ## Order of columns -/

theorem strLt_iff (s t : Str) : strLt s t = true ↔ s < t := by
  induction s generalizing t with
  | nil => cases t <;> simp [strLt]
  | cons a s ih =>
    cases t with
    | nil => simp [strLt]
    | cons b t =>
      have h1 : a.toNat < b.toNat ↔ a < b := Iff.rfl
      have h2 : a.toNat = b.toNat ↔ a = b := Char.toNat_inj
      simp [strLt, List.cons_lt_cons_iff, ih, h1, h2]

theorem str_trichotomy (s t : Str) : s < t ∨ s = t ∨ t < s := by
  induction s generalizing t with
  | nil => cases t <;> simp
  | cons a s ih =>
    cases t with
    | nil => simp
    | cons b t =>
      simp only [List.cons_lt_cons_iff, List.cons.injEq]
      have h1 : ∀ a b : Char, a.toNat < b.toNat ↔ a < b := fun _ _ => Iff.rfl
      have h2 : a.toNat = b.toNat ↔ a = b := Char.toNat_inj
      rcases Nat.lt_trichotomy a.toNat b.toNat with h | h | h
      · exact .inl (.inl h)
      · rw [h2] at h
        subst h
        rcases ih t with h | h | h
        · exact .inl (.inr ⟨rfl, h⟩)
        · exact .inr (.inl ⟨rfl, h⟩)
        · exact .inr (.inr (.inr ⟨rfl, h⟩))
      · exact .inr (.inr (.inl h))

theorem str_lt_trans {s t u : Str} (h1 : s < t) (h2 : t < u) : s < u := by
  induction s generalizing t u with
  | nil =>
    cases u with
    | nil => cases t <;> simp at h2
    | cons _ _ => simp
  | cons a s ih =>
    cases t with
    | nil => simp at h1
    | cons b t =>
      cases u with
      | nil => simp at h2
      | cons c u =>
        rw [List.cons_lt_cons_iff] at h1 h2 ⊢
        rcases h1 with h1 | ⟨rfl, h1⟩
        · rcases h2 with h2 | ⟨rfl, h2⟩
          · exact .inl (Nat.lt_trans h1 h2)
          · exact .inl h1
        · rcases h2 with h2 | ⟨rfl, h2⟩
          · exact .inl h2
          · exact .inr ⟨rfl, ih h1 h2⟩

theorem str_lt_irrefl (s : Str) : ¬ s < s := by
  induction s with
  | nil => simp
  | cons a s ih =>
    rw [List.cons_lt_cons_iff]
    rintro (h | ⟨_, h⟩)
    · exact Nat.lt_irrefl _ h
    · exact ih h

/-- Columns without alias are sorted by name. -/
theorem sort_columns {l : List Column} (hn : l.Nodup) (ha : ∀ c ∈ l, c.alias = []) :
    (GoRuntime.sortSlice columnLess l).Pairwise (fun a b => a.name < b.name) := by
  have hless : ∀ a ∈ l, ∀ b ∈ l, columnLess a b = true ↔ a.name < b.name := by
    intro a h1 b h2
    unfold columnLess
    rw [ha a h1, ha b h2]
    simp [strLt_iff]
  have hless' : ∀ a ∈ l, ∀ b ∈ l, columnLess a b = false ↔ ¬ a.name < b.name := by
    intro a h1 b h2
    rw [← hless a h1 b h2]
    simp
  have hs := GoRuntime.sortSlice_sorted columnLess l
    (fun a h => (hless' a h a h).2 (str_lt_irrefl _))
    (fun a h1 b h2 c h3 h4 h5 => (hless a h1 c h3).2
      (str_lt_trans ((hless a h1 b h2).1 h4) ((hless b h2 c h3).1 h5)))
    (fun a h1 b h2 c h3 h4 h5 h6 h7 => by
      rw [hless' a h1 b h2] at h4
      rw [hless' b h2 a h1] at h5
      rw [hless' b h2 c h3] at h6
      rw [hless' c h3 b h2] at h7
      have e1 : a.name = b.name := by
        rcases str_trichotomy a.name b.name with h | h | h
        · exact absurd h h4
        · exact h
        · exact absurd h h5
      have e2 : b.name = c.name := by
        rcases str_trichotomy b.name c.name with h | h | h
        · exact absurd h h6
        · exact h
        · exact absurd h h7
      have e3 : a.name = c.name := e1.trans e2
      rw [hless' a h1 c h3, hless' c h3 a h1, e3]
      exact ⟨str_lt_irrefl _, str_lt_irrefl _⟩)
  have hp := GoRuntime.sortSlice_perm columnLess l
  have hnd := hp.nodup_iff.2 hn
  have hboth := hs.and hnd
  refine List.Pairwise.imp_of_mem ?_ hboth
  intro a b h1 h2 ⟨h3, h4⟩
  replace h1 := hp.mem_iff.1 h1
  replace h2 := hp.mem_iff.1 h2
  rw [hless' b h2 a h1] at h3
  rcases str_trichotomy a.name b.name with h | h | h
  · exact h
  · refine absurd ?_ h4
    have e1 := ha a h1
    have e2 := ha b h2
    cases a; cases b
    simp_all
  · exact absurd h h3

theorem sort_unique {l l' : List Column} (hp : l.Perm l') (hn : l.Nodup)
    (ha : ∀ c ∈ l, c.alias = []) :
    GoRuntime.sortSlice columnLess l = GoRuntime.sortSlice columnLess l' := by
  have h1 := sort_columns hn ha
  have h2 := sort_columns (hp.nodup_iff.1 hn) (fun c hc => ha c (hp.mem_iff.2 hc))
  refine List.Perm.eq_of_pairwise ?_ h1 h2
    ((GoRuntime.sortSlice_perm _ _).trans (hp.trans (GoRuntime.sortSlice_perm _ _).symm))
  intro a b _ _ h3 h4
  exact absurd (str_lt_trans h3 h4) (str_lt_irrefl _)

/-! ## Iteration order -/

/-- Two SET clauses that are written in the same way. -/
structure SetSame (p q : PairContainer) : Prop where
  mode : p.mode = q.mode
  expressions : p.expressions = q.expressions
  equal : p.mode ≠ .associative → p = q
  left : p.mode ≠ .array → KeysOk p
  right : p.mode ≠ .array → KeysOk q
  lookups : p.mode ≠ .array → ∀ c, mapLookup c p.map = mapLookup c q.map
  alias : p.mode ≠ .array → ∀ c ∈ p.columns, c.alias = []

theorem SetSame.columns {p q : PairContainer} (h : SetSame p q) (hm : p.mode ≠ .array) :
    p.columns.Perm q.columns := by
  rw [List.perm_ext_iff_of_nodup (h.left hm).1 (h.right hm).1]
  intro c
  rw [(h.left hm).2, (h.right hm).2, h.lookups hm]

theorem SetSame.symm {p q : PairContainer} (h : SetSame p q) : SetSame q p where
  mode := h.mode.symm
  expressions := h.expressions.symm
  equal hm := (h.equal (h.mode ▸ hm)).symm
  left hm := h.right (h.mode ▸ hm)
  right hm := h.left (h.mode ▸ hm)
  lookups hm c := (h.lookups (h.mode ▸ hm) c).symm
  alias hm c hc := h.alias (h.mode ▸ hm) c ((h.columns (h.mode ▸ hm)).mem_iff.2 hc)

theorem lookupAll_congr {m m' : List (Column × Expr)} (h : ∀ c, mapLookup c m = mapLookup c m')
    (cs : List Column) : lookupAll m cs = lookupAll m' cs := by
  induction cs with
  | nil => rfl
  | cons c cs ih => rw [lookupAll, lookupAll, h, ih]

theorem SetSame.values {p q : PairContainer} (h : SetSame p q) : p.values = q.values := by
  by_cases hm : p.mode = .associative
  · have ha : p.mode ≠ .array := by rw [hm]; simp
    unfold PairContainer.values
    rw [if_neg (by simp [hm]), if_neg (by simp [← h.mode, hm]),
      sort_unique (h.columns ha) (h.left ha).1 (h.alias ha), lookupAll_congr (h.lookups ha)]
  · rw [h.equal hm]

theorem mapLookup_none {m : List (Column × Expr)} (h : ∀ c, mapLookup c m = none) : m = [] := by
  cases m with
  | nil => rfl
  | cons x m =>
    have := h x.1
    rw [mapLookup, if_pos rfl] at this
    cases this

theorem SetSame.empty {p q : PairContainer} (h : SetSame p q) : p.isEmpty = q.isEmpty := by
  by_cases hm : p.mode = .associative
  · have ha : p.mode ≠ .array := by rw [hm]; simp
    unfold PairContainer.isEmpty
    rw [h.expressions, h.mode]
    have : p.map.isEmpty = q.map.isEmpty := by
      rw [Bool.eq_iff_iff, List.isEmpty_iff, List.isEmpty_iff]
      constructor
      · intro h0
        refine mapLookup_none fun c => ?_
        rw [← h.lookups ha, h0]; rfl
      · intro h0
        refine mapLookup_none fun c => ?_
        rw [h.lookups ha, h0]; rfl
    rw [this]
  · rw [h.equal hm]

theorem SetSame.write {p q : PairContainer} (h : SetSame p q) : p.write = q.write := by
  by_cases hm : p.mode = .associative
  · unfold PairContainer.write PairContainer.writeAssociative
    rw [h.empty, h.values, ← h.mode, hm]
    simp
  · rw [h.equal hm]

end

theorem SetSame.refl_new (m : PairMode) : SetSame { PairContainer.new with mode := m } { PairContainer.new with mode := m } where
  mode := rfl
  expressions := rfl
  equal _ := rfl
  left _ := ⟨.nil, by simp [PairContainer.new, mapLookup]⟩
  right _ := ⟨.nil, by simp [PairContainer.new, mapLookup]⟩
  lookups _ _ := rfl
  alias _ c hc := by simp [PairContainer.new] at hc

theorem each_perm {α β : Type} {R : α → β → Prop} {l l' : List α} (hp : l.Perm l') :
    ∀ {m : List β}, Each R l m → ∃ m', Each R l' m' ∧ m.Perm m' := by
  induction hp with
  | nil => intro m h; exact ⟨m, h, .refl _⟩
  | cons x _ ih =>
    intro m h
    cases h with
    | cons h1 h2 =>
      obtain ⟨m', h3, h4⟩ := ih h2
      exact ⟨_, .cons h1 h3, h4.cons _⟩
  | swap x y l =>
    intro m h
    cases h with
    | cons h1 h2 =>
      cases h2 with
      | cons h3 h4 => exact ⟨_, .cons h3 (.cons h1 h4), .swap ..⟩
  | trans _ _ ih1 ih2 =>
    intro m h
    obtain ⟨m1, h1, h2⟩ := ih1 h
    obtain ⟨m2, h3, h4⟩ := ih2 h1
    exact ⟨m2, h3, h2.trans h4⟩

theorem Spec.SameArg.symm {a b : Any} (h : SameArg a b) : SameArg b a := by
  cases h with
  | refl => exact .refl _
  | strMap id h => exact .strMap id h.symm
  | anyMap h => exact .anyMap h.symm

theorem Spec.SameArg.given {a b : Any} (h : SameArg a b) {g : List (Column × Expr)} (hg : GivenArg a g) :
    ∃ g', GivenArg b g' ∧ g.Perm g' := by
  cases h with
  | refl => exact ⟨g, hg, .refl _⟩
  | strMap id h => exact each_perm (h.map _) hg
  | anyMap h => exact each_perm h hg

theorem Spec.SameArg.distinct {a b : Any} (h : SameArg a b) (ha : DistinctKeys a) : DistinctKeys b := by
  intro g hg
  obtain ⟨g', h1, h2⟩ := h.symm.given hg
  exact (h2.map _).nodup_iff.2 (ha g' h1)

theorem Spec.SameArg.noAlias {a b : Any} (h : SameArg a b) (ha : NoAlias a) : NoAlias b := by
  intro g hg ce hce
  obtain ⟨g', h1, h2⟩ := h.symm.given hg
  exact ha g' h1 ce (h2.mem_iff.1 hce)

theorem Spec.SameArg.columns {a b : Any} (h : SameArg a b) {cs : List Column} (hc : ColumnsArg a cs) :
    b = a := by
  cases h with
  | refl => rfl
  | strMap id h => exact hc.elim
  | anyMap h => exact hc.elim

theorem assignAll_expressions (p : PairContainer) (g : List (Column × Expr)) :
    (assignAll p g).expressions = p.expressions := by
  induction g generalizing p with
  | nil => rfl
  | cons ce g ih => exact ih (assignOne p ce)

theorem assignAll_columns (p : PairContainer) (g : List (Column × Expr)) (c : Column)
    (h : c ∈ (assignAll p g).columns) : c ∈ p.columns ∨ c ∈ g.map (·.1) := by
  induction g generalizing p with
  | nil => exact .inl h
  | cons ce g ih =>
    rcases ih (assignOne p ce) h with h1 | h1
    · unfold assignOne at h1
      simp only at h1
      split at h1
      · exact .inl h1
      · rw [List.mem_append, List.mem_singleton] at h1
        rcases h1 with h1 | h1
        · exact .inl h1
        · exact .inr (by simp [h1])
    · exact .inr (List.mem_cons_of_mem _ h1)

theorem SetSame.assign {p q : PairContainer} (h : SetSame p q) {g g' : List (Column × Expr)}
    (hp : g.Perm g') (hn : (g.map (·.1)).Nodup) (ha : ∀ ce ∈ g, ce.1.alias = [])
    (hm : g ≠ [] → p.mode ≠ .array) : SetSame (assignAll p g) (assignAll q g') := by
  by_cases hg : g = []
  · subst hg
    rw [List.nil_perm.1 hp]
    exact h
  · have hg' : g' ≠ [] := fun h0 => hg (by subst h0; exact List.perm_nil.1 hp)
    replace hm := hm hg
    have h1 := assignAll_mode_associative (p := p) (g := g) (.inr hg)
    have h2 := assignAll_mode_associative (p := q) (g := g') (.inr hg')
    refine ⟨h1.trans h2.symm, ?_, fun h => absurd h1 h, fun _ => keysOk_all (h.left hm) g,
      fun _ => keysOk_all (h.right hm) g', fun _ c => ?_, fun _ c hc => ?_⟩
    · rw [assignAll_expressions, assignAll_expressions, h.expressions]
    · rw [lookup_all, lookup_all, h.lookups hm, lastGiven_perm hp hn]
    · rcases assignAll_columns _ _ _ hc with h3 | h3
      · exact h.alias hm c h3
      · obtain ⟨ce, h4, rfl⟩ := List.mem_map.1 h3
        exact ha ce h4

theorem SetSame.mergeArg {p q p' : PairContainer} (h : SetSame p q) {a b : Any} (hab : SameArg a b)
    (hd : DistinctKeys a) (hn : NoAlias a) (hp : mergeSetArg p a = .ok p') :
    ∃ q', mergeSetArg q b = .ok q' ∧ SetSame p' q' := by
  rcases mergeSetArg_inv hp with ⟨cs, hc, hm, rfl⟩ | ⟨g, hg, hm, rfl⟩
  · rw [hab.columns hc]
    have he := h.equal hm
    subst he
    refine ⟨_, hp, ?_⟩
    exact ⟨rfl, rfl, fun _ => rfl, fun h => absurd rfl h, fun h => absurd rfl h,
      fun h => absurd rfl h, fun h => absurd rfl h⟩
  · obtain ⟨g', hg', hperm⟩ := hab.given hg
    by_cases h0 : g = []
    · subst h0
      have h0' := List.nil_perm.1 hperm
      subst h0'
      by_cases hma : q.mode = .array
      · have hma' : p.mode ≠ .associative := by rw [h.mode, hma]; simp
        have he := h.equal hma'
        subst he
        refine ⟨p, ?_, h⟩
        cases hab with
        | refl => exact hp
        | @strMap id es es' hperm' =>
          cases es' with
          | nil => rfl
          | cons _ _ => cases hg'
        | anyMap hperm' => cases hg'; rfl
      · exact ⟨_, mergeSetArg_given hg' hma, h⟩
    · have hma := hm h0
      refine ⟨_, mergeSetArg_given hg' (by rw [← h.mode]; exact hma), ?_⟩
      exact h.assign hperm (hd g hg) (hn g hg) hm

theorem SetSame.merge {args args' : List Any} (ha : Each SameArg args args') :
    ∀ {p q p' : PairContainer}, SetSame p q → (∀ a ∈ args, DistinctKeys a ∧ NoAlias a) →
      mergeSet p args = .ok p' → ∃ q', mergeSet q args' = .ok q' ∧ SetSame p' q' := by
  induction ha with
  | nil => intro p q p' h _ hp; cases hp; exact ⟨q, rfl, h⟩
  | @cons a b l m hab _ ih =>
    intro p q p' h hd hp
    rw [mergeSet] at hp
    split at hp
    · cases hp
    · next p1 h1 =>
      obtain ⟨q1, h2, h3⟩ := h.mergeArg hab (hd a List.mem_cons_self).1
        (hd a List.mem_cons_self).2 h1
      obtain ⟨q', h4, h5⟩ := ih h3 (fun x hx => hd x (List.mem_cons_of_mem _ hx)) hp
      exact ⟨q', by rw [mergeSet, h2]; exact h4, h5⟩

theorem sameArgs_symm {args args' : List Any} (h : Each SameArg args args') :
    Each SameArg args' args := by
  induction h with
  | nil => exact .nil
  | cons h1 _ ih => exact .cons h1.symm ih

theorem sameArgs_distinct {args args' : List Any} (h : Each SameArg args args')
    (hd : ∀ a ∈ args, DistinctKeys a ∧ NoAlias a) : ∀ a ∈ args', DistinctKeys a ∧ NoAlias a := by
  induction h with
  | nil => intro a ha; cases ha
  | @cons x y l m h1 _ ih =>
    intro a ha
    rcases List.mem_cons.1 ha with rfl | ha
    · have := hd x List.mem_cons_self
      exact ⟨h1.distinct this.1, h1.noAlias this.2⟩
    · exact ih (fun z hz => hd z (List.mem_cons_of_mem _ hz)) a ha

/-! ## Histories of an UPDATE -/

theorem updApply_frame {call : UpdCall} (hc : call.clause ≠ .set) {b b' : UpdateStmt}
    (h : call.apply b = .ok b') (q : PairContainer) :
    b'.set = b.set ∧ call.apply { b with set := q } = .ok { b' with set := q } := by
  cases call with
  | only => cases h; exact ⟨rfl, rfl⟩
  | set => exact absurd rfl hc
  | «using» => exact absurd rfl hc
  | «with» args =>
    simp only [UpdCall.apply, UpdateStmt.With] at h ⊢
    split at h <;> cases h <;> simp_all
  | «where» c =>
    simp only [UpdCall.apply, UpdateStmt.Where, UpdateStmt.And] at h ⊢
    split at h
    · cases h
    · cases h; simp_all
    · split at h
      · cases h
      · cases h; simp_all
  | and c =>
    simp only [UpdCall.apply, UpdateStmt.And] at h ⊢
    split at h
    · cases h
    · cases h; simp_all
  | or c =>
    simp only [UpdCall.apply, UpdateStmt.Or] at h ⊢
    split at h
    · cases h
    · cases h; simp_all
  | «from» a =>
    simp only [UpdCall.apply, UpdateStmt.From] at h ⊢
    split at h
    · cases h
    · split at h
      · cases h
      · cases h; simp_all
  | returning args =>
    simp only [UpdCall.apply, UpdateStmt.Returning] at h ⊢
    split at h
    · cases h
    · split at h
      · cases h
      · cases h; simp_all
  | comment c => cases h; exact ⟨rfl, rfl⟩

/-- After calls that use the key-value syntax only. -/
theorem runAll_given {calls : List UpdCall} {g : List (Column × Expr)} (hg : GivenBy calls g) :
    ∀ {b b' : UpdateStmt}, b.set.mode ≠ .array → runAll UpdCall.apply calls b = .ok b' →
      b'.set = assignAll b.set g := by
  induction hg with
  | nil => intro b b' _ h; cases h; rfl
  | @set args l g h0 hga _ ih =>
    intro b b' hm h
    rw [runAll] at h
    split at h
    · cases h
    · next b1 h1 =>
      obtain ⟨_, s, hs, rfl⟩ := updateSet_inv h1
      rw [mergeSet_given hga hm] at hs
      cases hs
      rw [ih (by exact assignAll_mode hm) h, assignAll_append]
  | @other call l h0 hc _ ih =>
    intro b b' hm h
    rw [runAll] at h
    split at h
    · cases h
    · next b1 h1 =>
      have := (updApply_frame hc h1 b.set).1
      rw [ih (by rw [this]; exact hm) h, this]

theorem update_set {table : Any} {b : UpdateStmt} (h : update table = .ok b) :
    b.set = PairContainer.new := by
  unfold update UpdateStmt.new at h
  split at h
  · cases h
  · cases h; rfl

/-! ## The two syntaxes -/

theorem columns_not_given {a : Any} {cs : List Column} {g : List (Column × Expr)}
    (h : ColumnsArg a cs) : ¬ GivenArg a g := by
  intro hg
  unfold ColumnsArg at h
  split at h
  · exact hg
  · exact hg
  · exact h

theorem each_length {α β : Type} {R : α → β → Prop} {l : List α} {m : List β} (h : Each R l m) :
    l.length = m.length := by
  induction h with
  | nil => rfl
  | cons _ _ ih => simp [ih]

theorem each_fun' {α β : Type} {R : α → β → Prop} (hR : ∀ a x y, R a x → R a y → x = y)
    {l : List α} {m m' : List β} (h : Each R l m) (h' : Each R l m') : m = m' := by
  induction h generalizing m' with
  | nil => cases h'; rfl
  | cons h1 _ ih =>
    cases h' with
    | cons h2 h3 => rw [hR _ _ _ h1 h2, ih h3]

theorem given_length {a : Any} {g g' : List (Column × Expr)} (h : GivenArg a g)
    (h' : GivenArg a g') : g.length = g'.length := by
  unfold GivenArg at h h'
  split at h
  · obtain ⟨_, _, rfl⟩ := h
    obtain ⟨_, _, rfl⟩ := h'
    rfl
  · exact (each_length h).symm.trans (each_length h')
  · exact (each_length h).symm.trans (each_length h')
  · exact h.elim

theorem merge_pairs {args : List Any} {p q : PairContainer} (hm : p.mode = .associative)
    (h : mergeSet p args = .ok q) : q.mode = .associative ∧ ∃ g, GivenArgs args g := by
  obtain ⟨g, hg, rfl⟩ := (mergeSet_pairs_iff hm).1 h
  exact ⟨assignAll_mode_associative (.inl hm), g, hg⟩

theorem merge_list {args : List Any} : ∀ {p q : PairContainer}, p.mode = .array →
    mergeSet p args = .ok q → q.mode = .array ∧ ∃ css, Each ListedArg args css := by
  induction args with
  | nil => intro p q hm h; cases h; exact ⟨hm, [], .nil⟩
  | cons a l ih =>
    intro p q hm h
    rw [mergeSet] at h
    split at h
    · cases h
    · next p' hp =>
      rcases mergeSetArg_inv hp with ⟨cs, hc, _, rfl⟩ | ⟨g, hg, hga, rfl⟩
      · obtain ⟨h1, css, h2⟩ := ih (by rfl) h
        exact ⟨h1, cs :: css, .cons (.inl hc) h2⟩
      · have h0 : g = [] := Decidable.byContradiction fun h0 => hga h0 hm
        subst h0
        obtain ⟨h1, css, h2⟩ := ih (p := assignAll p []) hm h
        exact ⟨h1, [] :: css, .cons (.inr ⟨hg, rfl⟩) h2⟩

theorem merge_fresh {args : List Any} : ∀ {p q : PairContainer}, p.mode = .unknown →
    mergeSet p args = .ok q →
      (∃ g, GivenArgs args g ∧ q = assignAll p g) ∨ q.mode = .array ∧ ∃ css, Each ListedArg args css := by
  induction args with
  | nil => intro p q hm h; cases h; exact .inl ⟨[], ⟨[], .nil, rfl⟩, rfl⟩
  | cons a l ih =>
    intro p q hm h
    rw [mergeSet] at h
    split at h
    · cases h
    · next p' hp =>
      rcases mergeSetArg_inv hp with ⟨cs, hc, _, rfl⟩ | ⟨g, hg, hga, rfl⟩
      · obtain ⟨h1, css, h2⟩ := merge_list (by rfl) h
        exact .inr ⟨h1, cs :: css, .cons (.inl hc) h2⟩
      · by_cases h0 : g = []
        · subst h0
          rcases ih (p := assignAll p []) hm h with ⟨g, ⟨gs, h1, rfl⟩, rfl⟩ | ⟨h1, css, h2⟩
          · exact .inl ⟨gs.flatten, ⟨[] :: gs, .cons hg h1, rfl⟩, rfl⟩
          · exact .inr ⟨h1, [] :: css, .cons (.inr ⟨hg, rfl⟩) h2⟩
        · obtain ⟨g', ⟨gs, h1, rfl⟩, rfl⟩ :=
            (mergeSet_pairs_iff (assignAll_mode_associative (p := p) (.inr h0))).1 h
          exact .inl ⟨(g :: gs).flatten, ⟨g :: gs, .cons hg h1, rfl⟩, by
            rw [List.flatten_cons, assignAll_append]⟩

theorem given_nil_listed {args : List Any} (h : GivenArgs args []) :
    ∃ css, Each ListedArg args css ∧ css.flatten = [] := by
  obtain ⟨gs, h, hf⟩ := h
  induction h with
  | nil => exact ⟨[], .nil, rfl⟩
  | @cons a g l gs h1 _ ih =>
    rw [List.flatten_cons] at hf
    obtain ⟨e1, e2⟩ := List.append_eq_nil_iff.1 hf.symm
    subst e1
    obtain ⟨css, h2, h3⟩ := ih e2.symm
    exact ⟨[] :: css, .cons (.inr ⟨h1, rfl⟩) h2, by simpa using h3⟩

theorem useAll_inv {args : List Any} : ∀ {p q : PairContainer}, UpdateStmt.useAll p args = .ok q →
    (args = [] ∨ p.mode = .array) ∧ ∃ es, Each (fun a e => newExpression a = .ok e) args es ∧
      q = { p with expressions := p.expressions ++ es } := by
  induction args with
  | nil => intro p q h; cases h; exact ⟨.inl rfl, [], .nil, by simp⟩
  | cons a l ih =>
    intro p q h
    rw [UpdateStmt.useAll] at h
    split at h
    · cases h
    · next e he =>
      split at h
      · cases h
      · next p' hp =>
        obtain ⟨hm, rfl⟩ := use_ok hp
        obtain ⟨_, es, h1, rfl⟩ := ih h
        exact ⟨.inr hm, e :: es, .cons he h1, by simp⟩

theorem run_pairs {calls : List UpdCall} : ∀ {b b' : UpdateStmt}, b.set.mode = .associative →
    runAll UpdCall.apply calls b = .ok b' → ∃ g, GivenBy calls g := by
  induction calls with
  | nil => intro b b' _ _; exact ⟨[], .nil⟩
  | cons call l ih =>
    intro b b' hm h
    rw [runAll] at h
    split at h
    · cases h
    · next b1 h1 =>
      by_cases hc : call.clause = .set
      · cases call with
        | set args =>
          obtain ⟨_, s, hs, rfl⟩ := updateSet_inv h1
          obtain ⟨h2, g, hg⟩ := merge_pairs hm hs
          obtain ⟨g', hg'⟩ := ih (by exact h2) h
          exact ⟨g ++ g', .set hg hg'⟩
        | «using» args =>
          have := (updateUsing_inv h1).1
          rw [hm] at this
          cases this
        | _ => cases hc
      · obtain ⟨g, hg⟩ := ih (by rw [(updApply_frame hc h1 b.set).1]; exact hm) h
        exact ⟨g, .other hc hg⟩

theorem run_list {calls : List UpdCall} : ∀ {b b' : UpdateStmt}, b.set.mode = .array →
    runAll UpdCall.apply calls b = .ok b' → ∃ cs es, ListedBy calls cs es := by
  induction calls with
  | nil => intro b b' _ _; exact ⟨[], [], .nil⟩
  | cons call l ih =>
    intro b b' hm h
    rw [runAll] at h
    split at h
    · cases h
    · next b1 h1 =>
      by_cases hc : call.clause = .set
      · cases call with
        | set args =>
          obtain ⟨_, s, hs, rfl⟩ := updateSet_inv h1
          obtain ⟨h2, css, h3⟩ := merge_list hm hs
          obtain ⟨cs, es, h4⟩ := ih (by exact h2) h
          exact ⟨_, es, .set h3 h4⟩
        | «using» args =>
          obtain ⟨_, _, s, hs, rfl⟩ := updateUsing_inv h1
          obtain ⟨_, es', h2, rfl⟩ := useAll_inv hs
          obtain ⟨cs, es, h4⟩ := ih (by exact hm) h
          exact ⟨cs, _, .use h2 h4⟩
        | _ => cases hc
      · obtain ⟨cs, es, hg⟩ := ih (by rw [(updApply_frame hc h1 b.set).1]; exact hm) h
        exact ⟨cs, es, .other hc hg⟩

theorem run_fresh {calls : List UpdCall} : ∀ {b b' : UpdateStmt}, b.set.mode = .unknown →
    runAll UpdCall.apply calls b = .ok b' →
      (∃ g, GivenBy calls g) ∨ ∃ cs es, ListedBy calls cs es := by
  induction calls with
  | nil => intro b b' _ _; exact .inl ⟨[], .nil⟩
  | cons call l ih =>
    intro b b' hm h
    rw [runAll] at h
    split at h
    · cases h
    · next b1 h1 =>
      by_cases hc : call.clause = .set
      · cases call with
        | set args =>
          obtain ⟨_, s, hs, rfl⟩ := updateSet_inv h1
          rcases merge_fresh hm hs with ⟨g, h2, rfl⟩ | ⟨h2, css, h3⟩
          · by_cases h0 : g = []
            · subst h0
              rcases ih (by exact hm) h with ⟨g, hg⟩ | ⟨cs, es, hl⟩
              · exact .inl ⟨[] ++ g, .set h2 hg⟩
              · obtain ⟨css, h3, h4⟩ := given_nil_listed h2
                exact .inr ⟨_, es, .set h3 hl⟩
            · obtain ⟨g', hg'⟩ := run_pairs (by exact assignAll_mode_associative (.inr h0)) h
              exact .inl ⟨g ++ g', .set h2 hg'⟩
          · obtain ⟨cs, es, h4⟩ := run_list (by exact h2) h
            exact .inr ⟨_, es, .set h3 h4⟩
        | «using» args =>
          have := (updateUsing_inv h1).1
          rw [hm] at this
          cases this
        | _ => cases hc
      · rcases ih (by rw [(updApply_frame hc h1 b.set).1]; exact hm) h with ⟨g, hg⟩ | ⟨cs, es, hl⟩
        · exact .inl ⟨g, .other hc hg⟩
        · exact .inr ⟨cs, es, .other hc hl⟩

theorem merge_listed {args : List Any} {css : List (List Column)} (h : Each ListedArg args css) :
    ∀ {p q : PairContainer}, p.mode ≠ .associative → mergeSet p args = .ok q →
      q.mode ≠ .associative ∧ q.columns = p.columns ++ css.flatten ∧
        q.expressions = p.expressions ∧ q.map = p.map := by
  induction h with
  | nil => intro p q hm h; cases h; simp [hm]
  | @cons a cs l css h1 _ ih =>
    intro p q hm h
    rw [mergeSet] at h
    split at h
    · cases h
    · next p' hp =>
      rcases h1 with h1 | ⟨h1, rfl⟩
      · rw [mergeSetArg_columns h1 hm] at hp
        cases hp
        obtain ⟨h2, h3, h4, h5⟩ := ih (by simp) h
        exact ⟨h2, by rw [h3]; simp, h4, h5⟩
      · rcases mergeSetArg_inv hp with ⟨cs, hc, _, rfl⟩ | ⟨g, hg, _, rfl⟩
        · exact absurd h1 (columns_not_given hc)
        · have := given_length h1 hg
          have h0 : g = [] := List.length_eq_zero_iff.1 this.symm
          subst h0
          obtain ⟨h2, h3, h4, h5⟩ := ih (p := assignAll p []) hm h
          exact ⟨h2, by rw [h3]; rfl, h4, h5⟩

theorem run_listed {calls : List UpdCall} {cs : List Column} {es : List Expr}
    (h : ListedBy calls cs es) : ∀ {b b' : UpdateStmt}, b.set.mode ≠ .associative →
      runAll UpdCall.apply calls b = .ok b' →
      b'.set.mode ≠ .associative ∧ b'.set.columns = b.set.columns ++ cs ∧
        b'.set.expressions = b.set.expressions ++ es ∧ b'.set.map = b.set.map := by
  induction h with
  | nil => intro b b' hm h; cases h; simp [hm]
  | set h1 _ ih =>
    intro b b' hm h
    rw [runAll] at h
    split at h
    · cases h
    · next b1 hb =>
      obtain ⟨_, s, hs, rfl⟩ := updateSet_inv hb
      obtain ⟨e1, e2, e3, e4⟩ := merge_listed h1 hm hs
      obtain ⟨f1, f2, f3, f4⟩ := ih (by exact e1) h
      exact ⟨f1, by rw [f2]; simp [e2], by rw [f3, e3], by rw [f4, e4]⟩
  | use h1 _ ih =>
    intro b b' hm h
    rw [runAll] at h
    split at h
    · cases h
    · next b1 hb =>
      obtain ⟨_, _, s, hs, rfl⟩ := updateUsing_inv hb
      obtain ⟨_, es', h2, rfl⟩ := useAll_inv hs
      have := each_fun' (fun a x y h1 h2 => by rw [h1] at h2; cases h2; rfl) h1 h2
      subst this
      obtain ⟨f1, f2, f3, f4⟩ := ih (by exact hm) h
      exact ⟨f1, by rw [f2], by rw [f3]; simp, by rw [f4]⟩
  | other hc _ ih =>
    intro b b' hm h
    rw [runAll] at h
    split at h
    · cases h
    · next b1 hb =>
      have := (updApply_frame hc hb b.set).1
      obtain ⟨f1, f2, f3, f4⟩ := ih (by rw [this]; exact hm) h
      exact ⟨f1, by rw [f2, this], by rw [f3, this], by rw [f4, this]⟩

theorem each_source {α β : Type} {R : α → β → Prop} {l : List α} {m : List β} (h : Each R l m)
    {b : β} (hb : b ∈ m) : ∃ a ∈ l, R a b := by
  induction h with
  | nil => cases hb
  | cons h1 _ ih =>
    rcases List.mem_cons.1 hb with rfl | hb
    · exact ⟨_, List.mem_cons_self, h1⟩
    · obtain ⟨a, ha, h⟩ := ih hb
      exact ⟨a, List.mem_cons_of_mem _ ha, h⟩

theorem each_target {α β : Type} {R : α → β → Prop} {l : List α} {m : List β} (h : Each R l m)
    {a : α} (ha : a ∈ l) : ∃ b ∈ m, R a b := by
  induction h with
  | nil => cases ha
  | cons h1 _ ih =>
    rcases List.mem_cons.1 ha with rfl | ha
    · exact ⟨_, List.mem_cons_self, h1⟩
    · obtain ⟨b, hb, h⟩ := ih ha
      exact ⟨b, List.mem_cons_of_mem _ hb, h⟩

theorem each_exists {α β : Type} {R : α → β → Prop} {l : List α} (h : ∀ a ∈ l, ∃ b, R a b) :
    ∃ m, Each R l m := by
  induction l with
  | nil => exact ⟨[], .nil⟩
  | cons a l ih =>
    obtain ⟨b, hb⟩ := h a List.mem_cons_self
    obtain ⟨m, hm⟩ := ih fun a ha => h a (List.mem_cons_of_mem _ ha)
    exact ⟨b :: m, .cons hb hm⟩

/-- Every assignment comes from a pair. -/
theorem given_source {args : List Any} {gs : List (List (Column × Expr))} (h : Each GivenArg args gs)
    {g : List (Column × Expr)} (hg : g ∈ gs) {ce : Column × Expr} (hce : ce ∈ g) :
    ∃ kv, GivenPair kv ce := by
  obtain ⟨a, _, h1⟩ := each_source h hg
  unfold GivenArg at h1
  split at h1
  · obtain ⟨x, h2, rfl⟩ := h1
    rw [List.mem_singleton] at hce
    subst hce
    exact ⟨_, h2⟩
  · obtain ⟨kv, _, h2⟩ := each_source h1 hce
    exact ⟨kv, h2⟩
  · obtain ⟨kv, _, h2⟩ := each_source h1 hce
    exact ⟨kv, h2⟩
  · exact h1.elim

end Verif
