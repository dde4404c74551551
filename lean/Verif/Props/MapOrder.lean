import Verif.Props.Set
import Verif.Model.Runtime

/-!
# C32, exactly: when the iteration order of a map shows
-/

namespace Verif.Props
open Spec

/-- A Go map. -/
def _root_.Verif.Any.IsMap : Any → Prop
  | .strMap _ _ | .anyMap _ => True
  | _ => False

section
variable [GoRuntime]

private theorem pairText_fun {ce : Column × Expr} {x y : Str × Str} (hx : PairText ce x)
    (hy : PairText ce y) : x = y := by
  have h1 := hx.1.symm.trans hy.1
  have h2 := hx.2.symm.trans hy.2
  cases x; cases y
  cases h1; cases h2
  rfl

/-- The text of an UPDATE on which only `Set` was called, once, with pairs. -/
private theorem set_once {table : Any} {b0 b : UpdateStmt} (h0 : update table = .ok b0) {a : Any}
    {g : List (Column × Expr)} (hg : GivenArg a g) (hn : ∀ ce ∈ g, ce.1.alias = [])
    (hb : b0.Set [a] = .ok b) {t : Str} (ht : (Stmt.update b).write.string = .ok t) :
    ∃ as xs name, b0.table.write.string = .ok name ∧ Assigns as g ∧
      as.Pairwise (fun x y => x.1.name < y.1.name) ∧ Each PairText as xs ∧
      t = s%"UPDATE " ++ name ++ s%" SET " ++ assignText xs := by
  obtain ⟨-, s, hs, rfl⟩ := updateSet_inv hb
  rw [update_set h0, mergeSet_given (g := g) ⟨[g], .cons hg .nil, by simp⟩ (by simp [PairContainer.new])] at hs
  cases hs
  obtain ⟨w, f, r, tb, set, wh, -, htb, hset, -, -, -, -, ht⟩ := C25_update _ t ht
  have hm : (assignAll PairContainer.new g).mode = .associative := by
    refine assignAll_mode_associative (.inr ?_)
    rintro rfl
    have h1 := ((string_denotes (denotes_set _) set).1 hset).1
    simp [okSet, assignAll, PairContainer.new, setBlank] at h1
  have hk : KeysOk (assignAll PairContainer.new g) := keysOk_all keysOk_new g
  obtain ⟨as, h2, h3, h4⟩ := values_ok hm hk
  obtain ⟨xs, h5, rfl⟩ := set_text hm h2 hset
  have hso := sort_columns (l := (assignAll PairContainer.new g).columns) hk.1 (by
    intro c hc
    rcases assignAll_columns _ _ _ hc with h | h
    · cases h
    · obtain ⟨ce, h5, rfl⟩ := List.mem_map.1 h
      exact hn ce h5)
  rw [← h3, List.pairwise_map] at hso
  refine ⟨as, xs, tb, htb, ⟨?_, ?_⟩, hso, h5, ?_⟩
  · rw [h3]
    exact (GoRuntime.sortSlice_perm columnLess _).nodup_iff.2 hk.1
  · intro c e
    rw [h4, lookup_all]
    simp [PairContainer.new, mapLookup]
  · rw [ht]
    unfold update UpdateStmt.new at h0
    split at h0
    · cases h0
    · cases h0
      simp [oneSpace, when, commentText, blank, List.intercalate]

/-- Assignments in the order of the names are determined by what they assign. -/
private theorem assigns_unique {l m : List (Column × Expr)}
    (hl : l.Pairwise fun x y => x.1.name < y.1.name) (hm : m.Pairwise fun x y => x.1.name < y.1.name)
    (h : ∀ x, x ∈ l ↔ x ∈ m) : l = m := by
  have hnd : ∀ l : List (Column × Expr), (l.Pairwise fun x y => x.1.name < y.1.name) → l.Nodup := by
    intro l hl
    refine hl.imp ?_
    rintro x y h rfl
    exact str_lt_irrefl _ h
  refine List.Perm.eq_of_pairwise ?_ hl hm ((List.perm_ext_iff_of_nodup (hnd l hl) (hnd m hm)).2 h)
  intro a b _ _ h3 h4
  exact absurd (str_lt_trans h3 h4) (str_lt_irrefl _)

private theorem comma_cancel (l r : List Str) (u v : Str)
    (h : commaText (l ++ u :: r) = commaText (l ++ v :: r)) : u = v := by
  unfold commaText at h
  induction l with
  | nil =>
    cases r with
    | nil => simpa [List.intercalate] using h
    | cons b r =>
      simp only [List.nil_append, intercalate_cons2] at h
      exact List.append_cancel_right (List.append_cancel_right h)
  | cons a l ih =>
    cases l with
    | nil =>
      simp only [List.cons_append, List.nil_append, intercalate_cons2] at h ih
      exact ih (List.append_cancel_left h)
    | cons b l =>
      simp only [List.cons_append, intercalate_cons2] at h ih
      exact ih (List.append_cancel_left h)

omit [GoRuntime] in
private theorem each_parts {α β : Type} {R : α → β → Prop} {l : List α} {a : α} {r : List α} :
    ∀ {m : List β}, Each R (l ++ a :: r) m →
      ∃ x y z, m = x ++ y :: z ∧ Each R l x ∧ R a y ∧ Each R r z := by
  induction l with
  | nil => intro m h; cases h with | cons h1 h2 => exact ⟨[], _, _, rfl, .nil, h1, h2⟩
  | cons b l ih =>
    intro m h
    cases h with
    | cons h1 h2 =>
      obtain ⟨x, y, z, rfl, h3, h4⟩ := ih h2
      exact ⟨_ :: x, y, z, rfl, .cons h1 h3, h4⟩

omit [GoRuntime] in
private theorem each_unmap {α β γ : Type} {R : α → β → Prop} {f : γ → α} : ∀ {l : List γ} {m : List β},
    Each R (l.map f) m ↔ Each (fun c b => R (f c) b) l m := by
  intro l
  induction l with
  | nil =>
    intro m
    constructor <;> intro h <;> cases h <;> exact .nil
  | cons c l ih =>
    intro m
    constructor
    · intro h
      cases h with
      | cons h1 h2 => exact .cons h1 (ih.1 h2)
    · intro h
      cases h with
      | cons h1 h2 => exact .cons h1 (ih.2 h2)

omit [GoRuntime] in
private theorem each_flip {α β : Type} {R : α → β → Prop} {l : List α} {m : List β} (h : Each R l m) :
    Each (fun b a => R a b) m l := by
  induction h with
  | nil => exact .nil
  | cons h1 _ ih => exact .cons h1 ih

omit [GoRuntime] in
/-- Every order of the assignments of a map is an iteration order of the map. -/
private theorem map_order {a : Any} {g g' : List (Column × Expr)} (hm : a.IsMap) (hg : GivenArg a g)
    (hp : g.Perm g') : ∃ a', SameArg a a' ∧ GivenArg a' g' := by
  cases a with
  | strMap id entries =>
    obtain ⟨l, h1, h2⟩ := each_perm hp (each_flip (each_unmap.1 hg))
    exact ⟨.strMap id l, .strMap id h2, each_unmap.2 (each_flip h1)⟩
  | anyMap entries =>
    obtain ⟨l, h1, h2⟩ := each_perm hp (each_flip hg)
    exact ⟨.anyMap l, .anyMap h2, each_flip h1⟩
  | _ => exact hm.elim

omit [GoRuntime] in
private theorem two_last {α : Type} {g : List α} {x y : α} (hx : x ∈ g) (hy : y ∈ g) (hne : x ≠ y) :
    ∃ r, g.Perm (r ++ [x, y]) := by
  obtain ⟨l1, l2, rfl⟩ := List.append_of_mem hx
  have hy' : y ∈ l1 ++ l2 := by
    simp only [List.mem_append, List.mem_cons] at hy ⊢
    rcases hy with h | h | h
    · exact .inl h
    · exact absurd h.symm hne
    · exact .inr h
  obtain ⟨m1, m2, hm⟩ := List.append_of_mem hy'
  refine ⟨m1 ++ m2, ?_⟩
  have h1 : (l1 ++ x :: l2).Perm (x :: (l1 ++ l2)) := List.perm_middle
  have h2 : (m1 ++ y :: m2).Perm (y :: (m1 ++ m2)) := List.perm_middle
  rw [hm] at h1
  refine (h1.trans (h2.cons x)).trans ?_
  exact List.perm_append_comm (l₁ := [x, y])

omit [GoRuntime] in
private theorem lastGiven_mem {g : List (Column × Expr)} {c : Column} {e : Expr}
    (h : lastGiven g c = some e) : (c, e) ∈ g := by
  unfold lastGiven at h
  rw [Option.map_eq_some_iff] at h
  obtain ⟨⟨d, f⟩, h1, rfl⟩ := h
  have := List.mem_of_getLast? h1
  rw [List.mem_filter] at this
  have h2 := of_decide_eq_true this.2
  simp only at h2
  subst h2
  exact this.1

private theorem rawText_iff (l : List Piece) :
    (∃ t, rawText l = .ok t) ↔ ∀ v, .val v ∈ l → ∃ t, formatValue v = .ok t := by
  induction l with
  | nil => simp [rawText]
  | cons p l ih =>
    have : (∃ t, rawText (p :: l) = .ok t) ↔ (∃ t, p.rawText = .ok t) ∧ ∃ t, rawText l = .ok t := by
      constructor
      · rintro ⟨t, h⟩
        obtain ⟨u, v, h1, h2, -⟩ := rawText_append_inv (a := [p]) h
        refine ⟨?_, v, h2⟩
        unfold rawText at h1
        split at h1
        · cases h1
        · exact ⟨_, by assumption⟩
      · rintro ⟨⟨t, h1⟩, u, h2⟩
        exact ⟨t ++ u, by simp [rawText, h1, h2]⟩
    rw [this, ih]
    cases p <;> simp [Piece.rawText]

omit [GoRuntime] in
private theorem val_commaSep {v : Val} {ls : List (List Piece)} (h : .val v ∈ commaSep ls) :
    ∃ l ∈ ls, .val v ∈ l := by
  induction ls with
  | nil => cases h
  | cons a ls ih =>
    cases ls with
    | nil => exact ⟨a, by simp, h⟩
    | cons b ls =>
      simp only [commaSep, List.mem_append, List.mem_cons, reduceCtorEq, false_or] at h
      rcases h with h | h
      · exact ⟨a, by simp, h⟩
      · obtain ⟨l, h1, h2⟩ := ih h
        exact ⟨l, List.mem_cons_of_mem _ h1, h2⟩

omit [GoRuntime] in
private theorem val_aliased {v : Val} {n a : Str} : .val v ∉ aliased n a := by
  unfold aliased
  split <;> simp

/-- If the values can be written and the table is not empty, so can the UPDATE. -/
private theorem set_renders {table : Any} {b0 : UpdateStmt} (h0 : update table = .ok b0) {a : Any}
    {g : List (Column × Expr)} (hg : GivenArg a g) (hne : g ≠ []) (ht : b0.table.name ≠ [])
    (hv : ∀ ce ∈ g, ∃ t, ce.2.write.string = .ok t) :
    ∃ b t, b0.Set [a] = .ok b ∧ (Stmt.update b).write.string = .ok t := by
  have hb : b0.Set [a] = .ok { b0 with set := assignAll PairContainer.new g } := by
    unfold UpdateStmt.Set
    rw [update_set h0,
      mergeSet_given (g := g) ⟨[g], .cons hg .nil, by simp⟩ (by simp [PairContainer.new])]
    rfl
  have hm : (assignAll PairContainer.new g).mode = .associative :=
    assignAll_mode_associative (.inr hne)
  have hk : KeysOk (assignAll PairContainer.new g) := keysOk_all keysOk_new g
  obtain ⟨as, h2, h3, h4⟩ := values_ok hm hk
  have hsub : ∀ x ∈ as, x ∈ g := by
    intro x hx
    have := (h4 x.1 x.2).1 hx
    rw [lookup_all] at this
    exact lastGiven_mem (by simpa [PairContainer.new, mapLookup] using this)
  have hmap : (assignAll PairContainer.new g).map ≠ [] := by
    intro h
    obtain ⟨ce, hce⟩ := List.exists_mem_of_ne_nil _ hne
    have h5 : (lastGiven g ce.1).isSome = true :=
      (lastGiven_isSome g ce.1).2 (List.mem_map.2 ⟨ce, hce, rfl⟩)
    have h6 := lookup_all PairContainer.new g ce.1
    rw [h] at h6
    simp only [mapLookup, PairContainer.new] at h6
    rw [Option.isSome_iff_exists] at h5
    obtain ⟨e, he⟩ := h5
    rw [he] at h6
    simp at h6
  have hz : b0 = ⟨[], b0.table, false, [], b0.set, .nil, [], []⟩ := by
    unfold update UpdateStmt.new at h0
    split at h0
    · cases h0
    · cases h0; rfl
  have hok : okStmt (.update { b0 with set := assignAll PairContainer.new g }) = true := by
    rw [hz]
    simp only [okStmt, okSet, setBlank, hm, h2, zip_fst_snd]
    simp only [Bool.and_eq_true, List.all_eq_true]
    refine ⟨by simpa using ht, rfl, ⟨by simp [hmap], ?_⟩, by simp, rfl, rfl⟩
    intro ce hce
    obtain ⟨t, h5⟩ := hv ce (hsub ce hce)
    exact ((expr_string _ _).1 h5).1
  have htx : ∃ t, rawText (layout (.update { b0 with set := assignAll PairContainer.new g })) = .ok t := by
    rw [rawText_iff]
    intro v hin
    rw [hz] at hin
    have hl : Piece.val v ∈ commaSep (as.map assignL) := by
      simp only [layout, updateL, clause, blank, commentL, setL, hm, assignments_eq h2] at hin
      simp only [List.isEmpty_nil, Bool.not_true, Bool.false_eq_true, ↓reduceIte, spaced] at hin
      have htb : .val v ∉ tableL b0.table := by
        unfold tableL
        split <;> simp [val_aliased]
      simp [htb] at hin
      exact hin
    obtain ⟨l, h5, h6⟩ := val_commaSep hl
    obtain ⟨ce, h7, rfl⟩ := List.mem_map.1 h5
    simp only [assignL, columnL, List.mem_append, val_aliased, List.mem_cons, reduceCtorEq, false_or] at h6
    obtain ⟨t, h8⟩ := hv ce (hsub ce h7)
    exact (rawText_iff _).1 ⟨t, ((expr_string _ _).1 h8).2⟩ v h6
  obtain ⟨t, htx⟩ := htx
  exact ⟨_, t, hb, (stmt_string _ _).2 ⟨hok, htx⟩⟩

/-- C32, exactly, for one map without aliases, on a table with a name, whose values can be rendered:
the text of the UPDATE is the same for all orders in which the map may be iterated if and only if
keys that name the same column come with values of the same text. -/
theorem C32_exact (table : Any) (b0 : UpdateStmt) (h0 : update table = .ok b0) (a : Any)
    (hm : a.IsMap) (g : List (Column × Expr)) (hg : GivenArg a g) (hn : ∀ ce ∈ g, ce.1.alias = [])
    (ht : b0.table.name ≠ []) (hv : ∀ ce ∈ g, ∃ t, ce.2.write.string = .ok t) :
    (∀ a' b b' t t', SameArg a a' → b0.Set [a] = .ok b → b0.Set [a'] = .ok b' →
      (Stmt.update b).write.string = .ok t → (Stmt.update b').write.string = .ok t' → t = t') ↔
    ∀ c e e', (c, e) ∈ g → (c, e') ∈ g → e.write.string = e'.write.string := by
  constructor
  · intro h c e e' he he'
    by_cases hee : e = e'
    · rw [hee]
    have hok : ∀ a', SameArg a a' → ∃ b t, b0.Set [a'] = .ok b ∧ (Stmt.update b).write.string = .ok t := by
      intro a' hs
      obtain ⟨g', hg', hp⟩ := hs.given hg
      exact set_renders h0 hg' (List.ne_nil_of_mem (hp.mem_iff.1 he)) ht fun ce hce =>
        hv ce (hp.mem_iff.2 hce)
    have hne : (c, e) ≠ (c, e') := fun h => hee (Prod.mk.inj h).2
    obtain ⟨r, hp⟩ := two_last he he' hne
    have hp1 : g.Perm (r ++ [(c, e'), (c, e)]) :=
      hp.trans (List.Perm.append_left r (.swap ..))
    obtain ⟨a1, s1, g1⟩ := map_order hm hg hp1
    obtain ⟨a2, s2, g2⟩ := map_order hm hg hp
    obtain ⟨b, t, hb, ht⟩ := hok a (.refl a)
    obtain ⟨b1, t1, hb1, ht1⟩ := hok a1 s1
    obtain ⟨b2, t2, hb2, ht2⟩ := hok a2 s2
    have ht12 : t1 = t2 := (h a1 b b1 t t1 s1 hb hb1 ht ht1).symm.trans (h a2 b b2 t t2 s2 hb hb2 ht ht2)
    obtain ⟨as1, xs1, n1, hn1, ha1, ho1, hx1, e1⟩ :=
      set_once h0 g1 (fun ce hce => hn ce (hp1.mem_iff.2 hce)) hb1 ht1
    obtain ⟨as2, xs2, n2, hn2, ha2, ho2, hx2, e2⟩ :=
      set_once h0 g2 (fun ce hce => hn ce (hp.mem_iff.2 hce)) hb2 ht2
    have hnn : n1 = n2 := Except.ok.inj (hn1.symm.trans hn2)
    have last1 : ∀ d, lastGiven (r ++ [(c, e'), (c, e)]) d = if d = c then some e else lastGiven r d := by
      intro d
      rw [show [(c, e'), (c, e)] = [(c, e')] ++ [(c, e)] from rfl, lastGiven_append, lastGiven_append,
        lastGiven_single, lastGiven_single]
      by_cases hd : d = c
      · simp [hd]
      · rw [if_neg (fun h => hd h.symm), if_neg (fun h => hd h.symm), if_neg hd]; rfl
    have last2 : ∀ d, lastGiven (r ++ [(c, e), (c, e')]) d = if d = c then some e' else lastGiven r d := by
      intro d
      rw [show [(c, e), (c, e')] = [(c, e)] ++ [(c, e')] from rfl, lastGiven_append, lastGiven_append,
        lastGiven_single, lastGiven_single]
      by_cases hd : d = c
      · simp [hd]
      · rw [if_neg (fun h => hd h.symm), if_neg (fun h => hd h.symm), if_neg hd]; rfl
    have hin : (c, e) ∈ as1 := (ha1.2 c e).2 (by rw [last1]; simp)
    obtain ⟨p, q, rfl⟩ := List.append_of_mem hin
    -- the other assignments are about other columns
    have hother : ∀ x ∈ p ++ q, x.1 ≠ c := by
      have := ha1.1
      rw [List.map_append, List.map_cons, List.perm_middle.nodup_iff, List.nodup_cons,
        ← List.map_append] at this
      intro x hx hc
      exact this.1 (List.mem_map.2 ⟨x, hx, hc⟩)
    have has2 : as2 = p ++ (c, e') :: q := by
      refine assigns_unique ho2 ?_ ?_
      · have hsub := ho1
        rw [List.pairwise_append, List.pairwise_cons] at hsub ⊢
        refine ⟨hsub.1, ⟨fun y hy => hsub.2.1.1 y hy, hsub.2.1.2⟩, fun x hx y hy => ?_⟩
        rcases List.mem_cons.1 hy with rfl | hy
        · exact hsub.2.2 x hx (c, e) List.mem_cons_self
        · exact hsub.2.2 x hx y (List.mem_cons_of_mem _ hy)
      · rintro ⟨d, f⟩
        rw [ha2.2, last2]
        have h1 := ha1.2 d f
        rw [last1] at h1
        by_cases hd : d = c
        · subst hd
          have hp' : (d, f) ∉ p := fun hx => hother _ (List.mem_append_left _ hx) rfl
          have hq' : (d, f) ∉ q := fun hx => hother _ (List.mem_append_right _ hx) rfl
          simp [hp', hq', eq_comm]
        · rw [if_neg hd] at h1 ⊢
          rw [← h1]
          simp [hd]
    subst has2
    obtain ⟨x1, y1, z1, rfl, i1, i2, i3⟩ := each_parts hx1
    obtain ⟨x2, y2, z2, rfl, j1, j2, j3⟩ := each_parts hx2
    cases each_fun' (R := PairText) (fun _ _ _ h1 h2 => pairText_fun h1 h2) i1 j1
    cases each_fun' (R := PairText) (fun _ _ _ h1 h2 => pairText_fun h1 h2) i3 j3
    rw [e1, e2, hnn] at ht12
    have h3 := List.append_cancel_left ht12
    unfold assignText at h3
    rw [List.map_append, List.map_cons, List.map_append, List.map_cons] at h3
    have h4 := comma_cancel _ _ _ _ h3
    have h5 : y1.1 = y2.1 := Except.ok.inj (i2.1.symm.trans j2.1)
    rw [h5] at h4
    have h6 : y1.2 = y2.2 := List.append_cancel_left h4
    have k1 : e.write.string = .ok y1.2 := i2.2
    have k2 : e'.write.string = .ok y2.2 := j2.2
    rw [k1, k2, h6]
  · intro h a' b b' t t' hs hb hb' ht ht'
    obtain ⟨g', hg', hp⟩ := hs.given hg
    obtain ⟨as1, xs1, n1, hn1, ha1, ho1, hx1, rfl⟩ := set_once h0 hg hn hb ht
    obtain ⟨as2, xs2, n2, hn2, ha2, ho2, hx2, rfl⟩ :=
      set_once h0 hg' (fun ce hce => hn ce (hp.mem_iff.2 hce)) hb' ht'
    have hnn : n1 = n2 := Except.ok.inj (hn1.symm.trans hn2)
    rw [hnn]
    -- the same columns
    have hcols : as1.map (·.1) = as2.map (·.1) := by
      have hnd : ∀ {as g : List (Column × Expr)}, Assigns as g → (as.map (·.1)).Nodup := fun h => h.1
      have hmem : ∀ {as g : List (Column × Expr)}, Assigns as g → ∀ c, c ∈ as.map (·.1) ↔ c ∈ g.map (·.1) := by
        intro as g h c
        rw [List.mem_map]
        refine Iff.trans ?_ (lastGiven_isSome g c)
        rw [Option.isSome_iff_exists]
        constructor
        · rintro ⟨⟨d, e⟩, h1, rfl⟩
          exact ⟨e, (h.2 d e).1 h1⟩
        · rintro ⟨e, he⟩
          exact ⟨(c, e), (h.2 c e).2 he, rfl⟩
      refine List.Perm.eq_of_pairwise (le := fun x y : Column => x.name < y.name) ?_
        (List.pairwise_map.2 ho1) (List.pairwise_map.2 ho2)
        ((List.perm_ext_iff_of_nodup (hnd ha1) (hnd ha2)).2 fun c => ?_)
      · intro a b _ _ h3 h4
        exact absurd (str_lt_trans h3 h4) (str_lt_irrefl _)
      · rw [hmem ha1, hmem ha2]
        exact (hp.map _).mem_iff
    have hsub1 : ∀ x ∈ as1, x ∈ g := fun x hx => lastGiven_mem ((ha1.2 x.1 x.2).1 hx)
    have hsub2 : ∀ x ∈ as2, x ∈ g := fun x hx => hp.mem_iff.2 (lastGiven_mem ((ha2.2 x.1 x.2).1 hx))
    have hxs : xs1 = xs2 := by
      clear ha1 ha2 ho1 ho2 ht ht'
      induction hx1 generalizing as2 xs2 with
      | nil =>
        cases as2 with
        | nil => cases hx2; rfl
        | cons _ _ => cases hcols
      | @cons x y as1 xs1 h1 _ ih =>
        cases hx2 with
        | nil => cases hcols
        | @cons x' y' as2 xs2 h2 h3 =>
          rw [List.map_cons, List.map_cons, List.cons.injEq] at hcols
          have h4 := ih _ _ h3 hcols.2 (fun z hz => hsub1 z (List.mem_cons_of_mem _ hz))
            (fun z hz => hsub2 z (List.mem_cons_of_mem _ hz))
          rw [h4]
          refine congrArg (· :: xs2) ?_
          have h5 := h x.1 x.2 x'.2 (hsub1 x List.mem_cons_self) (by
            rw [hcols.1]; exact hsub2 x' List.mem_cons_self)
          have h6 : y.1 = y'.1 := by
            have := h1.1
            rw [hcols.1, h2.1] at this
            exact (Except.ok.inj this).symm
          have h7 : y.2 = y'.2 := by
            have := h1.2
            rw [h5, h2.2] at this
            exact (Except.ok.inj this).symm
          exact Prod.ext h6 h7
    rw [hxs]

end

/-! ## The hypotheses can be met -/

section
attribute [local instance] Runtime.sample

/-- A map with two keys for the column a. -/
private def doubled (x y : Val) : Any :=
  .anyMap [(.val (.str s%"a"), .val x), (.val (.str s%"b"), .val (.int .int 1)), (.val (.str s%" a"), .val y)]

private def doubledPairs (x y : Val) : List (Column × Expr) :=
  [({ name := s%"a" }, .value x), ({ name := s%"b" }, .value (.int .int 1)), ({ name := s%"a" }, .value y)]

private theorem doubled_given (x y : Int) :
    GivenArg (doubled (.int .int x) (.int .int64 y)) (doubledPairs (.int .int x) (.int .int64 y)) :=
  .cons ⟨(toColumn_iff _ _).1 rfl, rfl⟩ (.cons ⟨(toColumn_iff _ _).1 rfl, rfl⟩
    (.cons ⟨(toColumn_iff _ _).1 rfl, rfl⟩ .nil))

private theorem doubled_exact (x y : Int) (b0 : UpdateStmt) (h0 : update (.val (.str s%"t")) = .ok b0) :
    (∀ a' b b' t t', SameArg (doubled (.int .int x) (.int .int64 y)) a' →
      b0.Set [doubled (.int .int x) (.int .int64 y)] = .ok b → b0.Set [a'] = .ok b' →
      (Stmt.update b).write.string = .ok t → (Stmt.update b').write.string = .ok t' → t = t') ↔
    ∀ c e e', (c, e) ∈ doubledPairs (.int .int x) (.int .int64 y) →
      (c, e') ∈ doubledPairs (.int .int x) (.int .int64 y) → e.write.string = e'.write.string :=
  C32_exact _ b0 h0 (doubled (.int .int x) (.int .int64 y)) trivial _ (doubled_given x y)
    (by simp [doubledPairs]) (by cases h0; decide)
    (by
      intro ce hce
      simp only [doubledPairs, List.mem_cons, List.not_mem_nil, or_false] at hce
      rcases hce with rfl | rfl | rfl <;> exact ⟨_, rfl⟩)

/-- The same number twice, of different types: the order does not show. -/
example (b0 : UpdateStmt) (h0 : update (.val (.str s%"t")) = .ok b0) (a' : Any) (b b' : UpdateStmt)
    (t t' : Str) (h1 : SameArg (doubled (.int .int 2) (.int .int64 2)) a')
    (h2 : b0.Set [doubled (.int .int 2) (.int .int64 2)] = .ok b) (h3 : b0.Set [a'] = .ok b')
    (h4 : (Stmt.update b).write.string = .ok t) (h5 : (Stmt.update b').write.string = .ok t') : t = t' := by
  refine (doubled_exact 2 2 b0 h0).2 ?_ a' b b' t t' h1 h2 h3 h4 h5
  intro c e e' he he'
  simp only [doubledPairs, List.mem_cons, List.not_mem_nil, or_false, Prod.mk.injEq] at he he'
  rcases he with ⟨rfl, rfl⟩ | ⟨rfl, rfl⟩ | ⟨rfl, rfl⟩ <;>
    rcases he' with ⟨h, rfl⟩ | ⟨h, rfl⟩ | ⟨h, rfl⟩ <;> first | rfl | (revert h; decide)

/-- Two numbers: it does. -/
example (b0 : UpdateStmt) (h0 : update (.val (.str s%"t")) = .ok b0) :
    ¬ ∀ a' b b' t t', SameArg (doubled (.int .int 2) (.int .int64 3)) a' →
      b0.Set [doubled (.int .int 2) (.int .int64 3)] = .ok b → b0.Set [a'] = .ok b' →
      (Stmt.update b).write.string = .ok t → (Stmt.update b').write.string = .ok t' → t = t' := by
  intro h
  have := (doubled_exact 2 3 b0 h0).1 h { name := s%"a" } (.value (.int .int 2)) (.value (.int .int64 3))
    (by simp [doubledPairs]) (by simp [doubledPairs])
  exact absurd this (by intro h; cases h)

example : ((do
    let b ← update (.val (.str s%"t"))
    let b ← b.Set [doubled (.int .int 2) (.int .int64 2)]
    (Stmt.update b).write.string : Go Str).toOption) = some s%"UPDATE \"t\" SET \"a\" = 2, \"b\" = 1" := by
  decide +kernel

end

end Verif.Props
