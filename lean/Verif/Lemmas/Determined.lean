import Verif.Lemmas.Portable
import Verif.Lemmas.Unquote
import Verif.Lemmas.Embed
import Verif.Lemmas.Where
import Verif.Model.Runtime

/-!
# Columns can be told from the text, and sorts that differ
-/

namespace Verif
open Spec

/-! ## The text of a column -/

section
variable [GoRuntime]

theorem goQuoteText_ofRunes (s : Str) : Raw.goQuoteText (Raw.ofRunes s) = goQuote s := by
  unfold Raw.goQuoteText goQuote
  rw [Raw.units_ofRunes, List.flatMap_map]
  simp only [Raw.quoteUnitText_char]

theorem goQuote_prefix {s s' t u : Str} (h : goQuote s ++ t = goQuote s' ++ u) :
    s = s' ∧ t = u := by
  have h1 := Raw.unquote_goQuote (Raw.ofRunes s) t
  have h2 := Raw.unquote_goQuote (Raw.ofRunes s') u
  rw [goQuoteText_ofRunes] at h1 h2
  rw [h, h2, Option.some.injEq, Prod.mk.injEq] at h1
  refine ⟨?_, h1.2.symm⟩
  have := congrArg Raw.runes h1.1
  rw [Raw.runes_ofRunes, Raw.runes_ofRunes] at this
  exact this.symm

omit [GoRuntime] in
theorem joinWith_two (sep : Str) (a b : Str) (l : List Str) :
    joinWith sep (a :: b :: l) = a ++ sep ++ joinWith sep (b :: l) := rfl

theorem quotedParts_prefix {ps qs : List Str} (hp : ps ≠ []) (hq : qs ≠ []) {t u : Str}
    (ht : t.head? ≠ some '.') (hu : u.head? ≠ some '.')
    (h : joinWith s%"." (ps.map goQuote) ++ t = joinWith s%"." (qs.map goQuote) ++ u) :
    ps = qs ∧ t = u := by
  induction ps generalizing qs with
  | nil => exact absurd rfl hp
  | cons p ps ih =>
    obtain ⟨q, qs, rfl⟩ := List.exists_cons_of_ne_nil hq
    cases ps with
    | nil =>
      cases qs with
      | nil =>
        obtain ⟨rfl, rfl⟩ := goQuote_prefix (s := p) (s' := q) h
        exact ⟨rfl, rfl⟩
      | cons q' qs =>
        simp only [List.map_cons, List.map_nil, joinWith_two, List.append_assoc] at h
        obtain ⟨rfl, rfl⟩ := goQuote_prefix (s := p) (s' := q) h
        exact absurd rfl ht
    | cons p' ps =>
      cases qs with
      | nil =>
        simp only [List.map_cons, List.map_nil, joinWith_two, List.append_assoc] at h
        obtain ⟨rfl, rfl⟩ := goQuote_prefix (s := p) (s' := q) h
        exact absurd rfl hu
      | cons q' qs =>
        simp only [List.map_cons, joinWith_two, List.append_assoc] at h
        obtain ⟨rfl, h⟩ := goQuote_prefix h
        rw [List.append_cancel_left_eq] at h
        obtain ⟨h1, h2⟩ := ih (qs := q' :: qs) (by simp) (by simp) (by simpa using h)
        exact ⟨by rw [h1], h2⟩

omit [GoRuntime] in
theorem joinWith_splitOn (sep : Char) (s : Str) : joinWith [sep] (splitOn sep s) = s := by
  induction s with
  | nil => rfl
  | cons x b ih =>
    rw [splitOn]
    split
    · next h =>
      subst h
      cases h' : splitOn x b with
      | nil => exact absurd h' (splitOn_ne_nil x b)
      | cons q ps => rw [joinWith, ← h', ih]; rfl
    · cases h' : splitOn sep b with
      | nil => exact absurd h' (splitOn_ne_nil sep b)
      | cons q ps =>
        rw [h'] at ih
        cases ps with
        | nil => rw [joinWith] at ih ⊢; rw [ih]
        | cons q' ps => rw [joinWith] at ih ⊢; rw [← ih]; rfl

theorem quote_prefix {n m t u : Str} (ht : t.head? ≠ some '.') (hu : u.head? ≠ some '.')
    (h : quote n ++ t = quote m ++ u) : n = m ∧ t = u := by
  obtain ⟨h1, h2⟩ := quotedParts_prefix (splitOn_ne_nil '.' n) (splitOn_ne_nil '.' m) ht hu h
  refine ⟨?_, h2⟩
  rw [← joinWith_splitOn '.' n, h1, joinWith_splitOn]

/-- A column can be told from an assignment to it. -/
theorem column_text {c d : Column} {x y : List Piece} {ph : Nat → Val → Str} {k k' : Nat}
    (h : render ph k (columnL c ++ .sql s%" = " :: x) =
      render ph k' (columnL d ++ .sql s%" = " :: y)) : c = d := by
  cases c with
  | mk n a =>
  cases d with
  | mk m b =>
  cases ha : a.isEmpty <;> cases hb : b.isEmpty
  all_goals
    simp only [columnL, aliased, ha, hb, if_true, if_false, List.cons_append, List.nil_append,
      render, Bool.false_eq_true] at h
    obtain ⟨rfl, h1⟩ := quote_prefix (by simp) (by simp) h
  · have h := List.append_cancel_left (as := s%" AS ") h1
    have h := (quote_prefix (n := a) (m := b) (t := s%" = " ++ render ph k x)
      (u := s%" = " ++ render ph k' y) (by simp) (by simp) h).1
    rw [h]
  · simp at h1
  · simp at h1
  · rw [List.isEmpty_iff.1 ha, List.isEmpty_iff.1 hb]

end

/-! ## Sorts that differ -/

/-- Two elements that the comparison calls less than each other. -/
def contradicts {α : Type} (lt : α → α → Bool) (l : List α) : Bool :=
  l.any fun a => l.any fun b => lt a b && lt b a

/-- A version of Go like another, but for lists that the comparison cannot order. -/
@[reducible] def Runtime.unruly (r : GoRuntime) (f : ∀ {α : Type}, List α → List α)
    (hf : ∀ {α : Type} (l : List α), (f l).Perm l) : GoRuntime where
  isPrint := r.isPrint
  isPrint_ascii := r.isPrint_ascii
  sprint := r.sprint
  sortSlice lt l := if contradicts lt l then f l else r.sortSlice lt l
  sortSlice_perm lt l := by
    split
    · exact hf l
    · exact r.sortSlice_perm lt l
  sortSlice_sorted lt l h1 h2 h3 := by
    split
    · next h =>
      simp only [contradicts, List.any_eq_true, Bool.and_eq_true] at h
      obtain ⟨a, ha, b, hb, hab, hba⟩ := h
      have := h2 a ha b hb a ha hab hba
      rw [h1 a ha] at this
      cases this
    · exact r.sortSlice_sorted lt l h1 h2 h3

/-- It leaves such lists as they are. -/
@[reducible] def Runtime.lazy (r : GoRuntime) : GoRuntime := Runtime.unruly r id List.Perm.refl

/-- It reverses such lists. -/
@[reducible] def Runtime.reversing (r : GoRuntime) : GoRuntime :=
  Runtime.unruly r List.reverse List.reverse_perm

theorem contradicts_columns {l : List Column} (h : ¬ Agree l) : contradicts columnLess l = true := by
  unfold Agree at h
  simp only [Classical.not_forall, Classical.not_not] at h
  obtain ⟨c, hc, d, hd, h1, h2⟩ := h
  simp only [contradicts, List.any_eq_true, Bool.and_eq_true]
  refine ⟨c, hc, d, hd, ?_, ?_⟩
  · simp [columnLess, (@strLt_iff Runtime.sample _ _).2 h1]
  · simp [columnLess, (@strLt_iff Runtime.sample _ _).2 h2]

theorem lazy_columns (r : GoRuntime) {l : List Column} (h : ¬ Agree l) :
    (Runtime.lazy r).sortSlice columnLess l = l := by
  show (if contradicts columnLess l then id l else r.sortSlice columnLess l) = l
  rw [if_pos (contradicts_columns h)]; rfl

theorem reversing_columns (r : GoRuntime) {l : List Column} (h : ¬ Agree l) :
    (Runtime.reversing r).sortSlice columnLess l = l.reverse := by
  show (if contradicts columnLess l then l.reverse else r.sortSlice columnLess l) = l.reverse
  rw [if_pos (contradicts_columns h)]

/-! ## The text of a statement -/

theorem lookupAll_columns {m : List (Column × Expr)} {cs : List Column} {l : List (Column × Expr)}
    (h : lookupAll m cs = .ok l) : l.map (·.1) = cs := by
  induction cs generalizing l with
  | nil => cases h; rfl
  | cons c cs ih =>
    rw [lookupAll] at h
    cases hc : mapLookup c m with
    | none => rw [hc] at h; cases h
    | some e =>
      rw [hc] at h
      cases hl : lookupAll m cs with
      | error e => rw [hl] at h; cases h
      | ok l' => rw [hl] at h; cases h; rw [List.map_cons, ih hl]

/-- A list without repetitions that is its own reverse has at most one element. -/
theorem nodup_reverse {α : Type} {l : List α} (hd : l.Nodup) (h : l.head? = l.reverse.head?) :
    ∀ c ∈ l, ∀ d ∈ l, c = d := by
  cases l with
  | nil => intro c hc; cases hc
  | cons a l =>
    cases l with
    | nil => intro c hc d hd; simp_all
    | cons b l =>
      rw [List.head?_reverse, List.head?_cons, List.getLast?_cons_cons] at h
      exact absurd (List.mem_of_getLast? h.symm) (List.nodup_cons.1 hd).1

/-- The assignments of a SET clause that can be written. -/
theorem assigned (r : GoRuntime) {p : PairContainer} (hm : p.mode = .associative)
    (h : @okSet r p = true) :
    (@assignments r p).map (·.1) = r.sortSlice columnLess p.columns := by
  unfold assignments
  cases hv : @PairContainer.values r p with
  | error e =>
    simp [okSet, hm, hv] at h
  | ok v =>
    unfold PairContainer.values at hv
    rw [if_neg (by simp [hm])] at hv
    cases hl : lookupAll p.map (r.sortSlice columnLess p.columns) with
    | error e => rw [hl] at hv; cases hv
    | ok l =>
      rw [hl] at hv
      cases hv
      simp only [zip_fst_snd]
      exact lookupAll_columns hl

/-- Where the assignments are in a statement. -/
theorem assigned_layout {s : Stmt} {p : PairContainer} (hs : setClause s = some p)
    (hm : p.mode = .associative) (hb : setBlank p = false) :
    ∃ pre post, ∀ r : GoRuntime,
      @layout r s = pre ++ .sql s%"SET " :: commaSep ((@assignments r p).map assignL) ++ post := by
  cases s with
  | select s => cases hs
  | delete s => cases hs
  | update u =>
    cases hs
    refine ⟨spaced [clause (!u.withs.isEmpty) (.sql s%"WITH " :: commaSep (withsL u.withs)),
       some [.sql s%"UPDATE"], clause u.only [.sql s%"ONLY"], some (tableL u.table)] ++
       [.sql s%" "], spaceTail [clause (!u.tables.isEmpty) (fromL u.tables),
         clause (!blank u.whr) (.sql s%"WHERE " :: exprL u.whr),
         clause (!u.returning.isEmpty) (returningL u.returning)] ++ commentL u.comment, ?_⟩
    intro r
    simp only [layout, updateL, setL, hm]
    rw [show ∀ a b c d e f g h : Option (List Piece),
      [a, b, c, d, e, f, g, h] = [a, b, c, d] ++ [e, f, g, h] from fun _ _ _ _ _ _ _ _ => rfl,
      spaced_append ⟨_, List.mem_cons_of_mem _ List.mem_cons_self⟩, spaceTail_some]
    simp only [List.append_assoc, List.cons_append, List.nil_append]
  | insert i =>
    cases ha : i.action with
    | nil => simp [setClause, ha] at hs
    | nothing => simp [setClause, ha] at hs
    | update q =>
      simp only [setClause, ha, Option.some.injEq] at hs
      subst hs
      refine ⟨spaced [some (.sql s%"INSERT INTO " :: tableL i.into),
        clause (!i.columns.isEmpty) (.sql s%"(" :: commaSep (i.columns.map columnL) ++ [.sql s%")"]),
        clause (!blank i.values) (.sql s%"VALUES " :: exprL i.values)] ++
        .sql s%" " :: .sql s%"ON CONFLICT " ::
          (if i.target.isEmpty then []
           else .sql s%"(" :: commaSep (i.target.map columnL) ++ [.sql s%") "]) ++
        [.sql s%"DO UPDATE "], spaceTail [clause (!i.returning.isEmpty) (returningL i.returning)] ++
        commentL i.comment, ?_⟩
      intro r
      simp only [layout, insertL, actionL, conflictL, setL, hm, ha, actionBlank, hb]
      rw [show ∀ a b c d e : Option (List Piece), [a, b, c, d, e] = [a, b, c] ++ [d, e] from
        fun _ _ _ _ _ => rfl, spaced_append ⟨_, List.mem_cons_self⟩, Bool.not_false,
        show ∀ a, clause true a = some a from fun _ => rfl, spaceTail_some]
      simp only [List.append_assoc, List.cons_append, List.nil_append]

/-- Two texts with the same text before the assignments begin with the same column. -/
theorem first_column (r r' : GoRuntime) (hr : r'.isPrint = r.isPrint) {pre post : List Piece}
    {as bs : List (Column × Expr)}
    (h : @render r dollar 1 (pre ++ .sql s%"SET " :: commaSep (as.map assignL) ++ post) =
      @render r' dollar 1 (pre ++ .sql s%"SET " :: commaSep (bs.map assignL) ++ post))
    (hl : as ≠ []) (hl' : bs ≠ []) :
    (as.map (·.1)).head? = (bs.map (·.1)).head? := by
  rw [← portable_render r r' dollar (fun n _ c _ => by rw [hr])] at h
  obtain ⟨a, as, rfl⟩ := List.exists_cons_of_ne_nil hl
  obtain ⟨b, bs, rfl⟩ := List.exists_cons_of_ne_nil hl'
  have key : ∀ (a : Column × Expr) (as : List (Column × Expr)), ∃ x,
      commaSep ((a :: as).map assignL) ++ post = columnL a.1 ++ .sql s%" = " :: x := by
    intro a as
    cases as with
    | nil => exact ⟨exprL a.2 ++ post, by simp [commaSep, assignL]⟩
    | cons c as =>
      exact ⟨exprL a.2 ++ .sql s%", " :: commaSep ((c :: as).map assignL) ++ post,
        by simp [commaSep, assignL]⟩
  obtain ⟨x, hx⟩ := key a as
  obtain ⟨y, hy⟩ := key b bs
  rw [List.append_assoc, List.append_assoc, List.cons_append, List.cons_append, hx, hy,
    @render_append r, @render_append r, List.append_cancel_left_eq] at h
  simp only [render, List.append_cancel_left_eq] at h
  rw [List.map_cons, List.map_cons, List.head?_cons, List.head?_cons, @column_text r _ _ _ _ _ _ _ h]

theorem ok_set (r : GoRuntime) {s : Stmt} {p : PairContainer} (hs : setClause s = some p)
    (hb : setBlank p = false) (h : @okStmt r s = true) : @okSet r p = true := by
  cases s with
  | select s => cases hs
  | delete s => cases hs
  | update u =>
    cases hs
    simp only [okStmt, Bool.and_eq_true] at h
    exact h.2.2.1
  | insert i =>
    cases ha : i.action with
    | nil => simp [setClause, ha] at hs
    | nothing => simp [setClause, ha] at hs
    | update q =>
      simp only [setClause, ha, Option.some.injEq] at hs
      subst hs
      simp only [okStmt, ha, actionBlank, hb, okAction, Bool.and_eq_true, Bool.false_or] at h
      exact h.2.2.1

/-- If leaving columns as they are and reversing them give one text, the columns can be ordered. -/
theorem agree_of_texts (r : GoRuntime) {s : Stmt} {p : PairContainer} (hs : setClause s = some p)
    (hm : p.mode = .associative) (hd : p.columns.Nodup) (hb : setBlank p = false)
    (hok : @okStmt r s = true)
    (h : @render (Runtime.lazy r) dollar 1 (@layout (Runtime.lazy r) s) =
      @render (Runtime.reversing r) dollar 1 (@layout (Runtime.reversing r) s)) :
    Agree p.columns := by
  refine Classical.byContradiction fun hn => ?_
  have hset := ok_set r hs hb hok
  have h1 := assigned (Runtime.lazy r) hm ((portable_okSet r _).symm.trans hset)
  have h2 := assigned (Runtime.reversing r) hm ((portable_okSet r _).symm.trans hset)
  rw [lazy_columns r hn] at h1
  rw [reversing_columns r hn] at h2
  obtain ⟨pre, post, hl⟩ := assigned_layout hs hm hb
  rw [hl, hl] at h
  have hne : p.columns ≠ [] := by
    intro he; rw [he] at hn; exact hn (fun c hc => by cases hc)
  have h3 := first_column (Runtime.lazy r) (Runtime.reversing r) rfl h
    (by intro he; rw [he] at h1; exact hne h1.symm)
    (by intro he; rw [he] at h2; exact hne (List.reverse_eq_nil_iff.1 h2.symm))
  rw [h1, h2] at h3
  refine hn fun c hc d hd' hlt => ?_
  exact absurd hlt (nodup_reverse hd h3 c hc d hd' ▸ @str_lt_irrefl r _)

theorem reversed_set (r : GoRuntime) {p : PairContainer} (hm : p.mode = .associative)
    (hn : ¬ Agree p.columns) :
    @setL (Runtime.reversing r) { p with columns := p.columns.reverse } =
      @setL (Runtime.lazy r) p := by
  have hn' : ¬ Agree p.columns.reverse := fun ha =>
    hn fun c hc d hd => ha c (List.mem_reverse.2 hc) d (List.mem_reverse.2 hd)
  simp only [setL, assignments, PairContainer.values, hm, ne_eq, not_true_eq_false, if_false]
  rw [lazy_columns r hn, reversing_columns r hn', List.reverse_reverse]

/-- If rendering the statement with reversed columns gives the same, the columns can be ordered. -/
theorem agree_of_again (r : GoRuntime) {s s' : Stmt} {p : PairContainer} (hs : setClause s = some p)
    (hm : p.mode = .associative) (hd : p.columns.Nodup) (hb : setBlank p = false)
    (hok : @okStmt r s = true)
    (hl : @layout (Runtime.reversing r) s' = @layout (Runtime.lazy r) s)
    (h : (@Stmt.write (Runtime.reversing r) s').query = (@Stmt.write (Runtime.reversing r) s).query) :
    Agree p.columns := by
  refine agree_of_texts r hs hm hd hb hok ?_
  have hok' : @okStmt (Runtime.reversing r) s = true := (portable_ok r _).symm.trans hok
  rw [@query_eq (Runtime.reversing r) s hok'] at h
  have h1 := (@query_ok (Runtime.reversing r) s' _ h).2
  rw [hl] at h1
  rw [portable_render (Runtime.lazy r) (Runtime.reversing r) dollar (fun _ _ _ _ => rfl)]
  exact (congrArg Prod.fst h1).symm

/-- A statement that assigns to columns with contradicting aliases has a SET clause. -/
theorem assigned_clause {s : Stmt} (h : ¬ Agree (assignedColumns s)) :
    ∃ p, setClause s = some p ∧ p.mode = .associative ∧ assignedColumns s = p.columns := by
  have hnil : Agree [] := fun c hc => by cases hc
  cases s with
  | select s => exact absurd hnil h
  | delete s => exact absurd hnil h
  | update u =>
    simp only [assignedColumns] at h ⊢
    split at h
    · next hm => exact ⟨_, rfl, hm, by rw [if_pos hm]⟩
    · exact absurd hnil h
  | insert i =>
    cases ha : i.action with
    | nil => simp only [assignedColumns, ha] at h; exact absurd hnil h
    | nothing => simp only [assignedColumns, ha] at h; exact absurd hnil h
    | update q =>
      simp only [assignedColumns, setClause, ha] at h ⊢
      split at h
      · next hm => exact ⟨_, rfl, hm, by rw [if_pos hm]⟩
      · exact absurd hnil h

theorem kept_nonblank {s : Stmt} (hk : Kept s) {p : PairContainer} (hs : setClause s = some p)
    (hm : p.mode = .associative) (hn : ¬ Agree p.columns) : setBlank p = false := by
  obtain ⟨_, h⟩ := hk p hs hm
  cases hc : p.columns with
  | nil => rw [hc] at hn; exact absurd (fun c hc => by cases hc) hn
  | cons c l =>
    obtain ⟨e, he⟩ := h c (by rw [hc]; exact List.mem_cons_self)
    simp only [setBlank, hm]
    cases hmap : p.map with
    | nil => rw [hmap] at he; cases he
    | cons x m => rfl

/-! ## What calls keep -/

theorem mem_of_lookup {m : List (Column × Expr)} {c : Column} (h : (mapLookup c m).isSome = true) :
    ∃ e, (c, e) ∈ m := by
  induction m with
  | nil => cases h
  | cons x m ih =>
    obtain ⟨k, v⟩ := x
    rw [mapLookup] at h
    split at h
    · next hk => subst hk; exact ⟨v, List.mem_cons_self⟩
    · obtain ⟨e, he⟩ := ih h
      exact ⟨e, List.mem_cons_of_mem _ he⟩

theorem kept_merge {args : List Any} : ∀ {p q : PairContainer}, (p.mode ≠ .array → KeysOk p) →
    mergeSet p args = .ok q → q.mode ≠ .array → KeysOk q := by
  induction args with
  | nil => intro p q hp h; cases h; exact hp
  | cons a l ih =>
    intro p q hp h
    rw [mergeSet] at h
    split at h
    · cases h
    · next p' h' =>
      refine ih ?_ h
      rcases mergeSetArg_inv h' with ⟨cs, _, _, rfl⟩ | ⟨g, _, hg, rfl⟩
      · intro hm; exact absurd rfl hm
      · cases g with
        | nil => exact hp
        | cons x g => exact fun _ => keysOk_all (hp (hg (by simp))) _

theorem kept_run {calls : List UpdCall} : ∀ {b b' : UpdateStmt},
    (b.set.mode ≠ .array → KeysOk b.set) → runAll UpdCall.apply calls b = .ok b' →
      b'.set.mode ≠ .array → KeysOk b'.set := by
  induction calls with
  | nil => intro b b' hb h; cases h; exact hb
  | cons c l ih =>
    intro b b' hb h
    rw [runAll] at h
    split at h
    · cases h
    · next b1 h1 =>
      refine ih ?_ h
      by_cases hc : c.clause = .set
      · cases c with
        | set args =>
          obtain ⟨_, s, hs, rfl⟩ := updateSet_inv h1
          exact kept_merge hb hs
        | «using» args =>
          simp only [UpdCall.apply, UpdateStmt.Using] at h1
          split at h1
          · cases h1
          · generalize hq : UpdateStmt.useAll b.set args = o at h1
            cases o with
            | error e => split at h1 <;> cases h1
            | ok q =>
              simp only at h1
              split at h1
              · cases h1
              cases h1
              obtain ⟨hm, es, _, rfl⟩ := useAll_inv hq
              intro hne
              rcases hm with hm | hm
              · exact hb hne
              · exact absurd hm hne
        | _ => cases hc
      · rw [(updApply_frame hc h1 b.set).1]; exact hb

theorem kept_built {table : Any} {calls : List UpdCall} {b0 u : UpdateStmt}
    (h0 : update table = .ok b0) (h : runAll UpdCall.apply calls b0 = .ok u) :
    Kept (.update u) := by
  intro p hp hm
  cases hp
  have := kept_run (by rw [update_set h0]; exact fun _ => keysOk_new) h (by rw [hm]; simp)
  exact ⟨this.1, fun c hc => mem_of_lookup ((this.2 c).1 hc)⟩

end Verif
