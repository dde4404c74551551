import Verif.Lemmas.Float
import Verif.Lemmas.ScanLayout
import Verif.Lemmas.RawText
import Verif.Lemmas.Literal
import Verif.Lemmas.Timestamp

/-!
# Scanning the texts of `Query`, `NamedQuery` and `String`
-/

set_option linter.unusedSectionVars false

namespace Verif
open Spec

section
variable [GoRuntime]
variable {b : Bool}

omit [GoRuntime] in
theorem flatMap_none (l : List Nat) : (l.flatMap fun _ => ([] : List Str)) = [] := by
  induction l with
  | nil => rfl
  | cons a l ih => simp [ih]

/-! ## Placeholders and literals -/

theorem scan_dollarDigits {t ds : Str} (h : ∀ c ∈ t, Spec.isDigit c = true) {d : Nat} {fs : List Str} :
    scan b ⟨.dollar ds, d, fs⟩ t = ⟨.dollar (ds ++ t), d, fs⟩ := by
  induction t generalizing ds with
  | nil => simp [scan_nil]
  | cons c t ih =>
    rw [scan_cons]
    have : Scan.step b ⟨.dollar ds, d, fs⟩ c = ⟨.dollar (ds ++ [c]), d, fs⟩ := by
      simp [Scan.step, h c List.mem_cons_self]
    rw [this, ih fun x hx => h x (List.mem_cons_of_mem _ hx)]
    simp

theorem closed_dollar (k : Nat) (v : Val) : ClosedWith b (dollar k v) [numeral k] := by
  unfold ClosedWith dollar
  rw [scan_append, show scan b .init s%"$" = ⟨.dollar [], 0, []⟩ from rfl,
    scan_dollarDigits fun c hc => digit_of_mem_formatNat hc]
  simp [Scan.settle, numeral, formatNat]

theorem closed_colon (k : Nat) (v : Val) : ClosedWith b (colon k v) [] := by
  unfold ClosedWith colon
  rw [scan_append, scan_append, show scan b .init s%":" = ⟨.free, 0, []⟩ from rfl,
    show scan b ⟨.free, 0, []⟩ s%"arg_" = ⟨.word, 0, []⟩ from rfl,
    scan_digits fun c hc => digit_of_mem_formatNat hc]
  rfl

/-- The inside of a literal without quote or backslash. -/
theorem scan_plainLiteral {t : Str} (h : ∀ c ∈ t, c ≠ '\'' ∧ c ≠ '\\') {d : Nat} {fs : List Str} :
    scan b ⟨.literal, d, fs⟩ t = ⟨.literal, d, fs⟩ := by
  induction t with
  | nil => rfl
  | cons c t ih =>
    rw [scan_cons]
    have hc := h c List.mem_cons_self
    have : Scan.step b ⟨.literal, d, fs⟩ c = ⟨.literal, d, fs⟩ := by
      simp [Scan.step, hc.1, hc.2]
    rw [this]
    exact ih fun x hx => h x (List.mem_cons_of_mem _ hx)

theorem scan_quotelessLiteral {t : Str} (h : '\'' ∉ t) {d : Nat} {fs : List Str} :
    scan false ⟨.literal, d, fs⟩ t = ⟨.literal, d, fs⟩ := by
  induction t with
  | nil => rfl
  | cons c t ih =>
    rw [scan_cons]
    have hc : c ≠ '\'' := fun e => h (e ▸ List.mem_cons_self)
    have : Scan.step false ⟨.literal, d, fs⟩ c = ⟨.literal, d, fs⟩ := by
      simp [Scan.step, hc]
    rw [this]
    exact ih fun hm => h (List.mem_cons_of_mem _ hm)

theorem scan_formatStringRune (c : Char) (d : Nat) (fs : List Str) :
    scan true ⟨.literal, d, fs⟩ (formatStringRune c) = ⟨.literal, d, fs⟩ := by
  unfold formatStringRune
  split
  · rfl
  split
  · rfl
  split
  · rfl
  split
  · rfl
  split
  · rfl
  · rename_i h1 h2 _ _ _
    exact scan_plainLiteral (by simp [h1, h2])

theorem closed_formatString {s : Str} (h : b = true ∨ '\'' ∉ s) :
    ClosedWith b (formatString s) [] := by
  unfold ClosedWith formatString
  rw [scan_append, scan_append, show scan b .init s%"'" = ⟨.literal, 0, []⟩ from rfl]
  have : scan b ⟨.literal, 0, []⟩ (s.flatMap formatStringRune) = ⟨.literal, 0, []⟩ := by
    cases b with
    | true =>
      clear h
      induction s with
      | nil => rfl
      | cons c s ih => rw [List.flatMap_cons, scan_append, scan_formatStringRune, ih]
    | false =>
      refine scan_quotelessLiteral ?_
      have hs : '\'' ∉ s := by simpa using h
      simp only [List.mem_flatMap, not_exists, not_and]
      intro c hc
      exact formatStringRune_no_quote fun e => hs (e ▸ hc)
  rw [this]
  rfl

theorem hexDigit_plain {n : Nat} (h : n < 16) : hexDigit n ≠ '\'' ∧ hexDigit n ≠ '\\' := by
  have : ∀ n < 16, hexDigit n ≠ '\'' ∧ hexDigit n ≠ '\\' := by decide
  exact this n h

theorem closed_formatBytes (x : List UInt8) : ClosedWith b (formatBytes x) [] := by
  unfold ClosedWith formatBytes
  rw [scan_append, scan_append, show scan b .init s%"decode('" = ⟨.literal, 1, []⟩ from rfl,
    scan_plainLiteral, show scan b ⟨.literal, 1, []⟩ s%"', 'hex')" = ⟨.free, 0, []⟩ from by
      cases b <;> rfl]
  · rfl
  · intro c hc
    simp only [hexEncode, List.mem_flatMap] at hc
    obtain ⟨y, -, hc⟩ := hc
    have hy : y.toNat < 256 := y.toNat_lt
    simp only [List.mem_cons, List.not_mem_nil, or_false] at hc
    rcases hc with rfl | rfl
    · exact hexDigit_plain (by omega)
    · exact hexDigit_plain (by omega)

theorem digit_plain {c : Char} (h : Spec.isDigit c = true) : c ≠ '\'' ∧ c ≠ '\\' := by
  constructor <;> (rintro rfl; revert h; decide)

theorem isDigit_padNat {w n : Nat} {c : Char} (h : c ∈ padNat w n) : Spec.isDigit c = true := by
  simp only [padNat, List.mem_append, List.mem_replicate] at h
  rcases h with ⟨-, rfl⟩ | h
  · rfl
  · exact digit_of_mem_formatNat h

theorem padYear_plain {y : Int} {c : Char} (h : c ∈ padYear y) : c ≠ '\'' ∧ c ≠ '\\' := by
  unfold padYear at h
  split at h
  · exact digit_plain (isDigit_padNat h)
  · rcases List.mem_cons.1 h with rfl | h
    · decide
    · exact digit_plain (isDigit_padNat h)

theorem formatMicros_plain {n : Nat} {c : Char} (h : c ∈ formatMicros n) : c ≠ '\'' ∧ c ≠ '\\' := by
  unfold formatMicros at h
  split at h
  · cases h
  · rename_i ds _ hds
    rcases List.mem_cons.1 h with rfl | h
    · decide
    · obtain ⟨k, hk⟩ := dropTrailingZeros_spec (padNat 6 (n / 1000))
      refine digit_plain (isDigit_padNat (w := 6) (n := n / 1000) ?_)
      rw [hk]
      exact List.mem_append_left _ h

theorem formatTime_plain (ns : Int) :
    ∃ t, formatTime ns = '\'' :: (t ++ ['\'']) ∧ ∀ c ∈ t, c ≠ '\'' ∧ c ≠ '\\' := by
  refine ⟨padYear (civilOf ns).year ++ s%"-" ++ padNat 2 (civilOf ns).month ++ s%"-" ++
    padNat 2 (civilOf ns).day ++ s%" " ++ padNat 2 (civilOf ns).hour ++ s%":" ++
    padNat 2 (civilOf ns).minute ++ s%":" ++ padNat 2 (civilOf ns).second ++
    formatMicros (civilOf ns).nano ++ s%"+00", ?_, ?_⟩
  · simp [formatTime]
  · intro c hc
    have hp : ∀ w n, c ∈ padNat w n → c ≠ '\'' ∧ c ≠ '\\' :=
      fun w n h => digit_plain (isDigit_padNat h)
    have hk : ∀ t : Str, (∀ c ∈ t, c ≠ '\'' ∧ c ≠ '\\') → c ∈ t → c ≠ '\'' ∧ c ≠ '\\' :=
      fun t h => h c
    simp only [List.mem_append] at hc
    rcases hc with (((((((((((h | h) | h) | h) | h) | h) | h) | h) | h) | h) | h) | h) | h
    · exact padYear_plain h
    · exact hk _ (by decide) h
    · exact hp _ _ h
    · exact hk _ (by decide) h
    · exact hp _ _ h
    · exact hk _ (by decide) h
    · exact hp _ _ h
    · exact hk _ (by decide) h
    · exact hp _ _ h
    · exact hk _ (by decide) h
    · exact hp _ _ h
    · exact formatMicros_plain h
    · exact hk _ (by decide) h

theorem closed_formatTime (ns : Int) : ClosedWith b (formatTime ns) [] := by
  unfold ClosedWith
  obtain ⟨t, e, ht⟩ := formatTime_plain ns
  rw [e, scan_cons, show Scan.step b .init '\'' = ⟨.literal, 0, []⟩ from rfl, scan_append,
    scan_plainLiteral ht]
  rfl

theorem closed_formatInt (n : Int) : ClosedWith b (formatInt n) [] := by
  unfold ClosedWith
  rw [show Scan.init = ⟨.free, 0, []⟩ from rfl, scan_formatInt]
  rfl

theorem closed_formatNat (n : Nat) : ClosedWith b (formatNat n) [] := by
  unfold ClosedWith
  rw [show Scan.init = ⟨.free, 0, []⟩ from rfl, scan_formatNat]
  rfl

theorem scan_number {neg : Bool} {ds : Str} (hne : ds ≠ [])
    (h : ∀ c ∈ ds, Spec.isDigit c = true) (d : Nat) (fs : List Str) :
    scan b ⟨.free, d, fs⟩ ((if neg then s%"-" else []) ++ ds) = ⟨.word, d, fs⟩ := by
  cases ds with
  | nil => exact absurd rfl hne
  | cons c s =>
    have hc := h c List.mem_cons_self
    have hs := scan_digits (b := b) (d := d) (fs := fs) fun x hx => h x (List.mem_cons_of_mem _ hx)
    cases neg with
    | false =>
      show scan b (Scan.start _ c) s = _
      rw [start_digit hc]
      exact hs
    | true =>
      have hne : c ≠ '-' := by rintro rfl; cases hc
      simp only [if_true, List.cons_append, List.nil_append]
      rw [scan_cons, show Scan.step b ⟨.free, d, fs⟩ '-' = ⟨.dash, d, fs⟩ from rfl, scan_cons]
      have : Scan.step b ⟨.dash, d, fs⟩ c = ⟨.word, d, fs⟩ := by
        simp only [Scan.step, if_neg hne]
        exact start_digit hc _
      rw [this]
      exact hs

theorem closed_formatFloat (x : BitVec 64) : ClosedWith b (formatFloat x) [] := by
  rcases formatFloat_form x with h | h | h | ⟨neg, ds, t, hne, hd, e, ht⟩
  · rw [h]; rfl
  · rw [h]; rfl
  · rw [h]; rfl
  · rw [e]
    unfold ClosedWith
    rw [← List.append_assoc, scan_append, show Scan.init = ⟨.free, 0, []⟩ from rfl,
      scan_number hne hd]
    rcases ht with rfl | ⟨fs, rfl, hfn, hf⟩
    · rfl
    · rw [scan_cons, show Scan.step b ⟨.word, 0, []⟩ '.' = ⟨.free, 0, []⟩ from rfl]
      have := scan_number (b := b) (neg := false) hfn hf 0 []
      simp only [Bool.false_eq_true, if_false, List.nil_append] at this
      rw [this]
      rfl

/-! Slices. -/

theorem joinWith_intercalate (sep : Str) (l : List Str) : joinWith sep l = sep.intercalate l := by
  induction l with
  | nil => rfl
  | cons p l ih =>
    cases l with
    | nil => simp [joinWith, List.intercalate, List.intersperse]
    | cons q l =>
      rw [joinWith, ih]
      simp [List.intercalate, List.intersperse]

/-- Between tokens or at the end of a word. -/
def AtWord (s : Scan) : Prop := s = ⟨.free, 0, []⟩ ∨ s = ⟨.word, 0, []⟩

theorem atWord_joinWith {l : List Str} (h : ∀ p ∈ l, AtWord (scan b ⟨.free, 0, []⟩ p)) :
    AtWord (scan b ⟨.free, 0, []⟩ (joinWith s%" " l)) := by
  induction l with
  | nil => exact .inl rfl
  | cons p l ih =>
    have hp := h p List.mem_cons_self
    cases l with
    | nil => exact hp
    | cons q l =>
      rw [joinWith, List.append_assoc, scan_append]
      have : scan b (scan b ⟨.free, 0, []⟩ p) (s%" " ++ joinWith s%" " (q :: l)) =
          scan b ⟨.free, 0, []⟩ (joinWith s%" " (q :: l)) := by
        rcases hp with e | e <;> rw [e] <;> rfl
      rw [this]
      exact ih fun x hx => h x (List.mem_cons_of_mem _ hx)

theorem closed_bracketed {t : Str} (h : SelfContained b t) :
    SelfContained b (s%"[" ++ t ++ s%"]") := by
  unfold SelfContained ClosedWith at *
  rw [List.append_assoc, scan_append, show scan b .init s%"[" = Scan.init from rfl, scan_append]
  generalize scan b .init t = s at *
  obtain ⟨m, d, f⟩ := s
  cases m with
  | free => simp only [Scan.settle, Scan.mk.injEq] at h; obtain ⟨-, rfl, rfl⟩ := h; rfl
  | word => simp only [Scan.settle, Scan.mk.injEq] at h; obtain ⟨-, rfl, rfl⟩ := h; rfl
  | dash => simp only [Scan.settle, Scan.mk.injEq] at h; obtain ⟨-, rfl, rfl⟩ := h; rfl
  | slash => simp only [Scan.settle, Scan.mk.injEq] at h; obtain ⟨-, rfl, rfl⟩ := h; rfl
  | dollar ds =>
    simp only [Scan.settle] at h
    split at h <;> simp at h
  | name => simp [Scan.settle] at h
  | literal => simp [Scan.settle] at h
  | escape => simp [Scan.settle] at h
  | comment => simp [Scan.settle] at h
  | bad => simp [Scan.settle] at h

theorem atWord_elem {k : ElemKind} (hk : k ≠ .string) (v : Val) :
    AtWord (scan b ⟨.free, 0, []⟩ (sprintElem k v)) := by
  unfold sprintElem
  split
  · exact absurd rfl hk
  · exact .inr (scan_formatInt _ _ _)
  · exact .inr (scan_formatNat _ _ _)
  · rename_i x; cases x <;> exact .inr rfl
  · exact .inl rfl

theorem closed_elems {k : ElemKind} (hk : k ≠ .string) (l : List Val) :
    SelfContained b (joinWith s%" " (l.map (sprintElem k))) := by
  have := atWord_joinWith (b := b) (l := l.map (sprintElem k)) (by
    intro p hp
    obtain ⟨v, -, rfl⟩ := List.mem_map.1 hp
    exact atWord_elem hk v)
  unfold SelfContained ClosedWith
  rw [show Scan.init = ⟨.free, 0, []⟩ from rfl]
  rcases this with e | e <;> rw [e] <;> rfl

theorem sprintElem_string (v : Val) : sprintElem .string v = stringOf v := by
  cases v <;> rfl

theorem closed_formatSlice {k : ElemKind} {l : List Val} (h : TameVal b (.slice k l)) :
    SelfContained b (formatSlice k l) := by
  cases k with
  | string =>
    refine closed_bracketed ?_
    rw [joinWith_intercalate, show l.map (sprintElem .string) = l.map stringOf from
      List.map_congr_left fun v _ => sprintElem_string v]
    exact h
  | int k => exact closed_bracketed (closed_elems (k := .int k) nofun l)
  | uint k => exact closed_bracketed (closed_elems (k := .uint k) nofun l)
  | bool => exact closed_bracketed (closed_elems (k := .bool) nofun l)
  | float32 => exact h
  | float64 => exact h
  | bytes => exact h

theorem closed_literal (k : Nat) {v : Val} (h : TameVal b v) : ClosedWith b (literal k v) [] := by
  induction v using formatValue.induct with
  | case1 => cases b <;> rfl
  | case2 s => exact closed_formatString h
  | case3 x => exact closed_formatBytes x
  | case4 ns => exact closed_formatTime ns
  | case5 => cases b <;> rfl
  | case6 => rfl
  | case7 _ v ih => exact ih h
  | case8 n => exact closed_formatInt n
  | case9 n => simp only [literal, formatValue]; exact closed_formatInt _
  | case10 n => exact closed_formatNat n
  | case11 n => simp only [literal, formatValue]; exact closed_formatNat _
  | case12 x => cases x <;> cases b <;> rfl
  | case13 x => exact closed_formatFloat _
  | case14 x => exact closed_formatFloat x
  | case15 k l => exact closed_formatSlice h
  | case16 ty id => exact h

/-! ## `String` -/

theorem rawText_render {l : List Piece} {t : Str} (h : rawText l = .ok t) (k : Nat) :
    t = render literal k l := by
  induction l generalizing t k with
  | nil => cases h; rfl
  | cons p l ih =>
    simp only [rawText] at h
    cases hp : p.rawText with
    | error e => rw [hp] at h; cases h
    | ok x =>
      rw [hp] at h
      cases hl : rawText l with
      | error e => rw [hl] at h; cases h
      | ok u =>
        rw [hl] at h
        cases h
        cases p with
        | val v =>
          cases v
          case nil => cases hp; rw [render, ← ih hl]
          all_goals
            simp only [Piece.rawText] at hp
            rw [render, ← ih hl (k + 1), literal, hp]
            all_goals exact nofun
        | _ => cases hp; rw [render, ← ih hl]

/-! ## Any writer -/

theorem denotes_query {w : W} {ok : Bool} {l : List Piece} (h : Denotes w ok (evs l))
    {r : Str × List Val} (hq : w.query = .ok r) :
    ok = true ∧ r = (render dollar 1 l, arguments l) := by
  cases ok with
  | true =>
    rw [W.query, h.1 rfl _ _ stdContext_additive, run_std] at hq
    exact ⟨rfl, by simpa using hq.symm⟩
  | false =>
    obtain ⟨p, es, hl⟩ := h.2 rfl
    obtain ⟨s', hs'⟩ := run_std_total es ⟨[], []⟩
    rw [W.query, hl _ _ stdContext_additive, hs'] at hq
    cases hq

theorem denotes_namedQuery {w : W} {ok : Bool} {l : List Piece} (h : Denotes w ok (evs l))
    {r : Str × Option (List (Str × Val))} (hq : w.namedQuery = .ok r) :
    ok = true ∧ r.1 = render colon 1 l := by
  cases ok with
  | true =>
    have := run_named l [] []
    simp only [namedMap, List.isEmpty_nil, if_true] at this
    rw [W.namedQuery, h.1 rfl _ _ namedContext_additive, this] at hq
    cases hq
    exact ⟨rfl, by simp⟩
  | false =>
    obtain ⟨p, es, hl⟩ := h.2 rfl
    obtain ⟨s', hs'⟩ := run_named_total es ⟨[], none⟩
    rw [W.namedQuery, hl _ _ namedContext_additive, hs'] at hq
    cases hq

/-! ## Good pieces -/

theorem tame_butComments {p : Piece} (h : Tame b p) : TameButComments b p := by
  cases p <;> first | exact h | exact h.elim

theorem noNote_of_tame {l : List Piece} (h : ∀ p ∈ l, Tame b p) : NoNote l :=
  fun _ hc => h _ hc

theorem good_dollar {l : List Piece} (h : ∀ p ∈ l, TameButComments b p) :
    AllGood b dollar (fun k => [numeral k]) l :=
  fun p hp => ⟨h p hp, fun v _ _ k => closed_dollar k v⟩

theorem good_colon {l : List Piece} (h : ∀ p ∈ l, TameButComments b p) :
    AllGood b colon (fun _ => []) l :=
  fun p hp => ⟨h p hp, fun v _ _ k => closed_colon k v⟩

theorem arguments_mem {l : List Piece} {v : Val} (h : .val v ∈ l) (hv : v ≠ .nil) :
    v ∈ arguments l := by
  induction l with
  | nil => cases h
  | cons p l ih =>
    rcases List.mem_cons.1 h with rfl | hm
    · cases v
      case nil => exact absurd rfl hv
      all_goals exact List.mem_cons_self
    · cases p with
      | val w =>
        cases w
        case nil => exact ih hm
        all_goals exact List.mem_cons_of_mem _ (ih hm)
      | _ => exact ih hm

theorem good_literal {l : List Piece} (h : ∀ p ∈ l, TameButComments b p)
    (hv : ∀ v ∈ arguments l, TameVal b v) : AllGood b literal (fun _ => []) l :=
  fun p hp => ⟨h p hp, fun v e hn k =>
    closed_literal k (hv v (arguments_mem (e ▸ hp) hn))⟩

/-! ## Comments -/

theorem layout_uncommented (s : Stmt) :
    layout s = layout (uncommented s) ++ commentL (commentOf s) := by
  cases s with
  | select s =>
    cases s
    simp [layout, uncommented, commentOf, selectL, commentL]
  | insert i => simp [layout, uncommented, commentOf, insertL, commentL]
  | update u => simp [layout, uncommented, commentOf, updateL, commentL]
  | delete d => simp [layout, uncommented, commentOf, deleteL, commentL]

/-- The text of a comment. -/
def commentText (c : Str) : Str := if c.isEmpty then [] else s%"; -- " ++ c

theorem arguments_uncommented (s : Stmt) :
    arguments (layout (uncommented s)) = arguments (layout s) := by
  rw [layout_uncommented s, arguments_append]
  unfold commentL
  split <;> simp [arguments]

theorem render_uncommented (ph : Nat → Val → Str) (k : Nat) (s : Stmt) :
    render ph k (layout s) = render ph k (layout (uncommented s)) ++ commentText (commentOf s) := by
  rw [show render ph k (layout s)
    = render ph k (layout (uncommented s) ++ commentL (commentOf s)) by rw [← layout_uncommented],
    render_append]
  congr 1
  unfold commentL commentText
  split
  · rfl
  · rw [render, render, List.append_nil]

theorem scan_oneLine {c : Str} (h : OneLine c) {d : Nat} {fs : List Str} :
    scan b ⟨.comment, d, fs⟩ c = ⟨.comment, d, fs⟩ := by
  induction c with
  | nil => rfl
  | cons x c ih =>
    rw [scan_cons]
    have h1 : x ≠ '\n' := fun e => h.1 (e ▸ List.mem_cons_self)
    have h2 : x ≠ '\r' := fun e => h.2 (e ▸ List.mem_cons_self)
    have : Scan.step b ⟨.comment, d, fs⟩ x = ⟨.comment, d, fs⟩ := by simp [Scan.step, h1, h2]
    rw [this]
    exact ih ⟨fun hm => h.1 (List.mem_cons_of_mem _ hm), fun hm => h.2 (List.mem_cons_of_mem _ hm)⟩

theorem endsWith_comment {t c : Str} {ps : List Str} (h : ClosedWith b t ps) (hc : OneLine c) :
    EndsWith b (t ++ commentText c) ps := by
  unfold commentText
  split
  · rw [List.append_nil]; exact .inl h
  · refine .inr ?_
    rw [scan_append, scan_append]
    rw [show s%"; -- " = ';' :: s%" -- " from rfl, scan_settled h rfl]
    rw [show scan b ⟨.free, 0, ps⟩ (';' :: s%" -- ") = ⟨.comment, 0, ps⟩ from by cases b <;> rfl]
    exact scan_oneLine hc

/-! ### What a reader sees -/

/-- What is seen of a text, without a minus sign still pending at its end. -/
def emitted (b : Bool) : Scan → Str → Str
  | _, [] => []
  | s, c :: t =>
    let s' := s.step b c
    if s'.mode = .comment then emitted b s' t
    else (if s.mode = .dash then ['-'] else []) ++ (if s'.mode = .dash then [] else [c])
      ++ emitted b s' t

/-- The pending minus sign. -/
def pending (s : Scan) : Str := if s.mode = .dash then ['-'] else []

theorem visible_eq (s : Scan) (t : Str) : visible b s t = emitted b s t ++ pending (scan b s t) := by
  induction t generalizing s with
  | nil => rfl
  | cons c t ih =>
    rw [visible, emitted, scan_cons]
    split
    · exact ih _
    · rw [ih, List.append_assoc _ _ (pending _)]

theorem emitted_append (s : Scan) (t u : Str) :
    emitted b s (t ++ u) = emitted b s t ++ emitted b (scan b s t) u := by
  induction t generalizing s with
  | nil => rfl
  | cons c t ih =>
    rw [List.cons_append, emitted, emitted, scan_cons]
    split
    · exact ih _
    · rw [ih, List.append_assoc _ _ (emitted b _ u)]

theorem emitted_oneLine {c : Str} (h : OneLine c) {d : Nat} {fs : List Str} :
    emitted b ⟨.comment, d, fs⟩ c = [] := by
  induction c with
  | nil => rfl
  | cons x c ih =>
    have h1 : x ≠ '\n' := fun e => h.1 (e ▸ List.mem_cons_self)
    have h2 : x ≠ '\r' := fun e => h.2 (e ▸ List.mem_cons_self)
    have : Scan.step b ⟨.comment, d, fs⟩ x = ⟨.comment, d, fs⟩ := by simp [Scan.step, h1, h2]
    rw [emitted, this]
    simp only [if_true]
    exact ih ⟨fun hm => h.1 (List.mem_cons_of_mem _ hm), fun hm => h.2 (List.mem_cons_of_mem _ hm)⟩

theorem visible_comment {t c : Str} {ps : List Str} (h : ClosedWith b t ps) (hc : OneLine c) :
    visible b .init (t ++ (s%"; -- " ++ c)) = visible b .init t ++ s%"; " := by
  have hs : Scan.step b (scan b .init t) ';' = ⟨.free, 0, ps⟩ := by
    rw [settle_step h rfl]; rfl
  have h2 : scan b (scan b .init t) s%"; -- " = ⟨.comment, 0, ps⟩ := by
    rw [show s%"; -- " = ';' :: s%" -- " from rfl, scan_cons, hs]
    cases b <;> rfl
  have h3 : emitted b (scan b .init t) s%"; -- " = pending (scan b .init t) ++ s%"; " := by
    rw [show s%"; -- " = ';' :: s%" -- " from rfl, emitted, hs]
    unfold pending
    cases b <;> simp [emitted, Scan.step, Scan.start, wordStart]
  rw [visible_eq, visible_eq, emitted_append, emitted_append, h2, emitted_oneLine hc, h3,
    scan_append, scan_append, h2, scan_oneLine hc]
  simp [pending]

/-! ### Comments of several lines -/

theorem start_found (m : Mode) (d : Nat) (fs gs : List Str) (c : Char) :
    Scan.start ⟨m, d, gs ++ fs⟩ c
      = { Scan.start ⟨m, d, fs⟩ c with found := gs ++ (Scan.start ⟨m, d, fs⟩ c).found } := by
  unfold Scan.start
  repeat' split
  all_goals rfl

theorem step_found (s : Scan) (gs : List Str) (c : Char) :
    Scan.step b { s with found := gs ++ s.found } c
      = { Scan.step b s c with found := gs ++ (Scan.step b s c).found } := by
  obtain ⟨m, d, fs⟩ := s
  cases m <;> simp only [Scan.step]
  all_goals repeat' split
  all_goals first | rfl | (rw [List.append_assoc]; exact start_found _ _ _ _ _) | exact start_found _ _ _ _ _

theorem scan_found (t : Str) (s : Scan) (gs : List Str) :
    scan b { s with found := gs ++ s.found } t
      = { scan b s t with found := gs ++ (scan b s t).found } := by
  induction t generalizing s with
  | nil => rfl
  | cons c t ih => rw [scan_cons, scan_cons, step_found, ih]

theorem visible_found (t : Str) (s : Scan) (gs : List Str) :
    visible b { s with found := gs ++ s.found } t = visible b s t := by
  induction t generalizing s with
  | nil => rfl
  | cons c t ih =>
    rw [visible, visible]
    simp only [step_found]
    rw [ih]

/-- After a comment with a line break the scanner is where it would be if it had begun there. -/
theorem scan_comment (c : Str) (d : Nat) (fs : List Str) (h : fromLineBreak c ≠ []) :
    scan b ⟨.comment, d, fs⟩ c = scan b ⟨.free, d, fs⟩ (fromLineBreak c) := by
  induction c with
  | nil => exact absurd rfl h
  | cons x c ih =>
    unfold fromLineBreak at h ih ⊢
    rw [List.dropWhile_cons] at h ⊢
    split
    · next hx =>
      rw [if_pos hx] at h
      rw [scan_cons, ← ih h]
      simp only [Bool.and_eq_true, decide_eq_true_eq, ne_eq] at hx
      rw [show Scan.step b ⟨.comment, d, fs⟩ x = ⟨.comment, d, fs⟩ by simp [Scan.step, hx.1, hx.2]]
    · next hx =>
      rw [scan_cons, scan_cons]
      have hx' : x = '\n' ∨ x = '\r' := by
        simp only [Bool.and_eq_true, decide_eq_true_eq, ne_eq] at hx
        by_cases h1 : x = '\n'
        · exact .inl h1
        · exact .inr (Classical.byContradiction fun h2 => hx ⟨h1, h2⟩)
      rcases hx' with rfl | rfl <;> rfl

theorem visible_comment_any (c : Str) (d : Nat) (fs : List Str) :
    visible b ⟨.comment, d, fs⟩ c = visible b ⟨.free, d, fs⟩ (fromLineBreak c) := by
  induction c with
  | nil => rfl
  | cons x c ih =>
    unfold fromLineBreak at ih ⊢
    rw [List.dropWhile_cons]
    split
    · next hx =>
      simp only [Bool.and_eq_true, decide_eq_true_eq, ne_eq] at hx
      rw [← ih, visible]
      rw [show Scan.step b ⟨.comment, d, fs⟩ x = ⟨.comment, d, fs⟩ by simp [Scan.step, hx.1, hx.2]]
      rfl
    · next hx =>
      have hx' : x = '\n' ∨ x = '\r' := by
        simp only [Bool.and_eq_true, decide_eq_true_eq, ne_eq] at hx
        by_cases h1 : x = '\n'
        · exact .inl h1
        · exact .inr (Classical.byContradiction fun h2 => hx ⟨h1, h2⟩)
      rw [visible, visible]
      rcases hx' with rfl | rfl <;> rfl

theorem oneLine_iff (c : Str) : OneLine c ↔ fromLineBreak c = [] := by
  unfold OneLine fromLineBreak
  induction c with
  | nil => simp
  | cons x c ih =>
    rw [List.dropWhile_cons]
    by_cases h1 : x = '\n'
    · subst h1; simp
    · by_cases h2 : x = '\r'
      · subst h2; simp
      · rw [if_pos (by simp [h1, h2]), ← ih]
        simp [Ne.symm h1, Ne.symm h2]

theorem emitted_append_visible (s : Scan) (t u : Str) :
    visible b s (t ++ u) = emitted b s t ++ visible b (scan b s t) u := by
  rw [visible_eq, visible_eq, emitted_append, scan_append, List.append_assoc]

theorem visible_comment_exact {t c : Str} {ps : List Str} (h : ClosedWith b t ps) :
    visible b .init (t ++ (s%"; -- " ++ c))
      = visible b .init t ++ s%"; " ++ visible b .init (fromLineBreak c) := by
  have hs : Scan.step b (scan b .init t) ';' = ⟨.free, 0, ps⟩ := by
    rw [settle_step h rfl]; rfl
  have h2 : scan b (scan b .init t) s%"; -- " = ⟨.comment, 0, ps⟩ := by
    rw [show s%"; -- " = ';' :: s%" -- " from rfl, scan_cons, hs]
    cases b <;> rfl
  have h3 : emitted b (scan b .init t) s%"; -- " = pending (scan b .init t) ++ s%"; " := by
    rw [show s%"; -- " = ';' :: s%" -- " from rfl, emitted, hs]
    unfold pending
    cases b <;> simp [emitted, Scan.step, Scan.start, wordStart]
  rw [emitted_append_visible, emitted_append_visible, h2, h3, visible_comment_any, visible_eq _ t]
  have := visible_found (b := b) (fromLineBreak c) .init ps
  rw [show ({ Scan.init with found := ps ++ Scan.init.found } : Scan) = ⟨.free, 0, ps⟩ by
    simp [Scan.init]] at this
  rw [this]
  simp

theorem scan_comment_exact {t c : Str} {ps : List Str} (h : ClosedWith b t ps)
    (hc : fromLineBreak c ≠ []) :
    scan b .init (t ++ (s%"; -- " ++ c))
      = { scan b .init (fromLineBreak c) with
          found := ps ++ (scan b .init (fromLineBreak c)).found } := by
  rw [scan_append, scan_append]
  rw [show s%"; -- " = ';' :: s%" -- " from rfl, scan_settled h rfl]
  rw [show scan b ⟨.free, 0, ps⟩ (';' :: s%" -- ") = ⟨.comment, 0, ps⟩ from by cases b <;> rfl]
  rw [scan_comment c 0 ps hc, ← scan_found]
  simp [Scan.init]


/-! ## Comments of sub-selects -/

/-- What a scanner does with a layout from its first comment on. -/
theorem scan_note {ph : Nat → Val → Str} {mark : Nat → List Str} {s : Stmt}
    (h : AllGood b ph mark (layout s)) {A B : List Piece} {c : Str}
    (hl : layout s = A ++ .note c :: B) (hn : NoNote A) :
    ∃ e, (scan b .init (render ph 1 A)).settle
        = ⟨.free, e, (List.range' 1 (arguments A).length).flatMap mark⟩ ∧
      render ph 1 (layout s)
        = render ph 1 A ++ s%"; -- " ++ c ++ render ph (1 + (arguments A).length) B ∧
      scan b .init (render ph 1 (layout s))
        = scan b ⟨.comment, e, (List.range' 1 (arguments A).length).flatMap mark⟩
            (c ++ render ph (1 + (arguments A).length) B) := by
  obtain ⟨e, he⟩ := (runs_layout s h).2 A c B hl hn
  have h1 := he 1 0 []
  simp only [Nat.zero_add, List.nil_append] at h1
  have hr : render ph 1 (layout s)
      = render ph 1 A ++ s%"; -- " ++ c ++ render ph (1 + (arguments A).length) B := by
    rw [hl, render_append, render]
    simp
  refine ⟨e, h1, hr, ?_⟩
  rw [hr, List.append_assoc, List.append_assoc, scan_append]
  have h2 := scan_settled (b := b) (c := ';') (t := s%" -- " ++ (c ++ render ph (1 + (arguments A).length) B))
    h1 rfl
  refine (show _ = _ from h2).trans ?_
  rw [← List.cons_append, scan_append]
  congr 1

omit [GoRuntime] in
theorem oneLine_tail {t c u : Str} (h : OneLine (t ++ s%"; -- " ++ c ++ u)) : OneLine (c ++ u) := by
  obtain ⟨h1, h2⟩ := h
  simp only [List.append_assoc, List.mem_append, not_or] at h1 h2
  exact ⟨by simpa using h1.2.2, by simpa using h2.2.2⟩

omit [GoRuntime] in
theorem endsWith_inComment {t : Str} {e : Nat} {fs ps : List Str}
    (h : scan b .init t = ⟨.comment, e, fs⟩) : EndsWith b t ps ↔ e = 0 ∧ fs = ps := by
  unfold EndsWith ClosedWith
  rw [h]
  simp [Scan.settle]

end

end Verif
