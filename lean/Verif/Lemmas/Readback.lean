import Verif.Lemmas.SqlClean
import Verif.Lemmas.PlainMap
import Verif.Lemmas.Timestamp

/-!
# Reading the texts of `NamedQuery` and `String`
-/

set_option linter.unusedSectionVars false
set_option linter.unusedSimpArgs false

namespace Verif
open Spec

variable {b : Bool}

/-! ## Named arguments -/

theorem supplyNamed_sym {args : List (Str × Val)} {c : Char} (hc : c ≠ ':') (l : List SqlTok) :
    supplyNamed args (.sym c :: l) = (supplyNamed args l).map (.tok (.sym c) :: ·) := by
  rw [supplyNamed.eq_def]
  simp only [if_neg hc]

theorem supplyNamed_colon {args : List (Str × Val)} {w : Str} {v : Val} {l : List SqlTok}
    {ls : List Lexeme} (h : argumentNamed args w = some v) (hl : supplyNamed args l = some ls) :
    supplyNamed args (.sym ':' :: .word w :: l) = some (.value v :: ls) := by
  rw [supplyNamed.eq_def]
  simp only [if_true, h, hl]

theorem supplyNamed_clean {args : List (Str × Val)} {ts : List SqlTok} (h : ts.all cleanTok = true)
    (l : List SqlTok) :
    supplyNamed args (ts ++ l) = (supplyNamed args l).map (ts.map Lexeme.tok ++ ·) := by
  induction ts with
  | nil => simp
  | cons t ts ih =>
    simp only [List.all_cons, Bool.and_eq_true] at h
    cases t with
    | param ds => cases h.1
    | literal t => cases h.1
    | sym c =>
      have hc : c ≠ ':' := by
        have := h.1
        simp only [cleanTok, Bool.and_eq_true, decide_eq_true_eq] at this
        exact this.1
      rw [List.cons_append, supplyNamed_sym hc, ih h.2]
      cases supplyNamed args l <;> rfl
    | word w =>
      rw [List.cons_append, supplyNamed, ih h.2]
      · cases supplyNamed args l <;> rfl
      · nofun
      · nofun
    | name w =>
      rw [List.cons_append, supplyNamed, ih h.2]
      · cases supplyNamed args l <;> rfl
      · nofun
      · nofun

theorem cleanToks_all {ts : List SqlTok} (h : cleanToks ts = true) : ts.all cleanTok = true := by
  simp only [cleanToks, Bool.and_eq_true] at h
  exact h.1

theorem cleanToks_noPoint {ts : List SqlTok} (h : cleanToks ts = true) : noPoint ts = true := by
  simp only [cleanToks, Bool.and_eq_true] at h
  exact h.2

theorem supplyNamed_words {args : List (Str × Val)} {v w : Str} (l : List SqlTok) :
    supplyNamed args (.word v :: .word w :: l)
      = (supplyNamed args l).map ([Lexeme.tok (.word v), .tok (.word w)] ++ ·) := by
  rw [supplyNamed, supplyNamed]
  · cases supplyNamed args l <;> rfl
  all_goals nofun

theorem clean_nameTokens [GoRuntime] (l : List Str) : (nameTokens l).all cleanTok = true := by
  induction l with
  | nil => rfl
  | cons p l ih =>
    cases l with
    | nil => rfl
    | cons q l =>
      rw [nameTokens]
      simp only [List.all_cons, ih, Bool.and_true]
      rfl

theorem counted_tokens [GoRuntime] {t : Str} (h : Counted t) :
    ∃ w n, (w = s%"LIMIT" ∨ w = s%"OFFSET") ∧
      (tokens b t).getD [] = [.word w, .word (formatNat n)] := by
  have key : ∀ (w : Str) (n : Nat), tokRun b .free (w ++ s%" ") = (.free, [.word w]) →
      (tokens b (w ++ s%" " ++ formatNat n)).getD [] = [.word w, .word (formatNat n)] := by
    intro w n hw
    rw [tokens, tokRun_append, hw]
    simp only
    rw [lexes_digits (fun c hc => digit_of_mem_formatNat hc) (formatNat_ne_nil n)]
    rfl
  obtain ⟨n, rfl | rfl⟩ := h
  · exact ⟨_, n, .inl rfl, key s%"LIMIT" n (by cases b <;> rfl)⟩
  · exact ⟨_, n, .inr rfl, key s%"OFFSET" n (by cases b <;> rfl)⟩

section
variable [GoRuntime]

theorem supplyNamed_pieces {args : List (Str × Val)} {nm : Nat → Str} {l : List Piece} (h : Cleans b l) (k : Nat)
    (hall : ∀ (i : Nat) v, (arguments l)[i]? = some v →
      argumentNamed args (nm (k + i)) = some v) :
    supplyNamed args (pieceTokens b (fun i _ => [.sym ':', .word (nm i)]) k l)
      = some (lexemes b l) := by
  induction l generalizing k with
  | nil => rfl
  | cons p l ih =>
    obtain ⟨hp, hl⟩ := cleans_cons.1 h
    cases p with
    | note c => cases hp
    | name n =>
      rw [pieceTokens, supplyNamed_clean (clean_nameTokens _), ih hl k hall, lexemes_cons]
      rfl
    | raw t =>
      rw [pieceTokens, supplyNamed_clean (cleanToks_all hp), ih hl k hall, lexemes_cons]
      rfl
    | sql t =>
      rcases hp with hp | hp
      · rw [pieceTokens, supplyNamed_clean (cleanToks_all hp), ih hl k hall, lexemes_cons]
        rfl
      · obtain ⟨w, n, -, e⟩ := counted_tokens (b := b) hp
        rw [pieceTokens, lexemes_cons, pieceLexemes, e]
        simp only [List.cons_append, List.nil_append]
        rw [supplyNamed_words, ih hl k hall]
        rfl
    | val v =>
      cases v
      case nil =>
        rw [pieceTokens, supplyNamed]
        · rw [ih hl k hall, lexemes_cons]
          rfl
        all_goals nofun
      all_goals
        rw [pieceTokens]
        simp only [List.cons_append, List.nil_append]
        have h0 := hall 0 _ rfl
        rw [Nat.add_zero] at h0
        have hrest := ih hl (k + 1) (fun i v hv => by
          have := hall (i + 1) v (by simpa [arguments] using hv)
          rwa [show k + (i + 1) = k + 1 + i by omega] at this)
        rw [supplyNamed_colon h0 hrest, lexemes_cons]
        · rfl
        · nofun

/-! ## Literals -/

theorem noPoint_append {ts us : List SqlTok} (h : noPoint ts = true) (h' : noPoint us = true) :
    noPoint (ts ++ us) = true := by
  cases ts with
  | nil => exact h'
  | cons => exact h

/-- These tokens are read as these lexemes, whatever follows, as long as it does not begin with a
point. -/
def Consts (b : Bool) (ts : List SqlTok) (ls : List Lexeme) : Prop :=
  ∀ (n : Nat) (rest : List SqlTok) (ls' : List Lexeme), ts.length + rest.length ≤ n →
    noPoint rest = true → (∀ m, rest.length ≤ m → constants b m rest = some ls') →
    constants b n (ts ++ rest) = some (ls ++ ls')

/-- The same for whatever follows. -/
def ConstsAll (b : Bool) (ts : List SqlTok) (ls : List Lexeme) : Prop :=
  ∀ (n : Nat) (rest : List SqlTok) (ls' : List Lexeme), ts.length + rest.length ≤ n →
    (∀ m, rest.length ≤ m → constants b m rest = some ls') →
    constants b n (ts ++ rest) = some (ls ++ ls')

theorem ConstsAll.consts {ts : List SqlTok} {ls : List Lexeme} (h : ConstsAll b ts ls) :
    Consts b ts ls := fun n rest ls' hn _ hr => h n rest ls' hn hr

theorem constsAll_nil : ConstsAll b [] [] := fun n rest ls' hn h => h n (by simpa using hn)

theorem constsAll_append {ts us : List SqlTok} {ls ms : List Lexeme} (h : ConstsAll b ts ls)
    (h' : ConstsAll b us ms) : ConstsAll b (ts ++ us) (ls ++ ms) := by
  intro n rest ls' hn hr
  rw [List.append_assoc, List.append_assoc]
  refine h n (us ++ rest) _ (by simp only [List.length_append] at hn ⊢; omega) fun m hm => ?_
  exact h' m rest ls' (by simpa using hm) hr

theorem consts_append {ts us : List SqlTok} {ls ms : List Lexeme} (h : Consts b ts ls)
    (h' : Consts b us ms) (hu : noPoint us = true) : Consts b (ts ++ us) (ls ++ ms) := by
  intro n rest ls' hn hp hr
  rw [List.append_assoc, List.append_assoc]
  refine h n (us ++ rest) _ (by simp only [List.length_append] at hn ⊢; omega)
    (noPoint_append hu hp) fun m hm => ?_
  exact h' m rest ls' (by simpa using hm) hp hr

theorem consts_of_constant {t : SqlTok} {ts : List SqlTok} {ls : List Lexeme}
    (h : ∀ rest, noPoint rest = true → constant b (t :: ts ++ rest) = some (ls, rest)) :
    Consts b (t :: ts) ls := by
  intro n rest ls' hn hp hr
  match n with
  | 0 => simp at hn
  | n + 1 =>
    have := h rest hp
    simp only [List.cons_append] at this ⊢
    rw [constants, this]
    · simp only [hr n (by simp only [List.length_cons] at hn; omega)]
      rfl
    · nofun

theorem constsAll_of_constant {t : SqlTok} {ts : List SqlTok} {ls : List Lexeme}
    (h : ∀ rest, constant b (t :: ts ++ rest) = some (ls, rest)) : ConstsAll b (t :: ts) ls := by
  intro n rest ls' hn hr
  match n with
  | 0 => simp at hn
  | n + 1 =>
    have := h rest
    simp only [List.cons_append] at this ⊢
    rw [constants, this]
    · simp only [hr n (by simp only [List.length_cons] at hn; omega)]
      rfl
    · nofun

theorem constsAll_sym {c : Char} (hc : c ≠ '-') : ConstsAll b [.sym c] [.tok (.sym c)] := by
  refine constsAll_of_constant fun rest => ?_
  simp only [List.cons_append, List.nil_append, constant, if_neg hc]

theorem numberTokens_word {w : Str} (h : readNat w = none) (r : List SqlTok) :
    numberTokens (.word w :: r) = none := by
  simp only [numberTokens, h]

theorem constsAll_clean {ts : List SqlTok} (h : ts.all cleanTok = true)
    (hd : .word s%"decode" ∉ ts) : ConstsAll b ts (ts.map .tok) := by
  induction ts with
  | nil => exact constsAll_nil
  | cons t ts ih =>
    simp only [List.all_cons, Bool.and_eq_true] at h
    simp only [List.mem_cons, not_or] at hd
    refine constsAll_append (ts := [t]) (ls := [.tok t]) ?_ (ih h.2 hd.2)
    have ht := h.1
    cases t with
    | param ds => cases ht
    | literal t => cases ht
    | name n => exact constsAll_of_constant fun rest => rfl
    | sym c =>
      simp only [cleanTok, Bool.and_eq_true, decide_eq_true_eq] at ht
      exact constsAll_sym ht.2
    | word w =>
      simp only [cleanTok, cleanWord, Bool.and_eq_true, decide_eq_true_eq, Option.isNone_iff_eq_none] at ht
      obtain ⟨⟨⟨⟨h1, h2⟩, h3⟩, h4⟩, h5⟩ := ht
      have hw : w ≠ s%"decode" := by rintro rfl; exact hd.1 rfl
      refine constsAll_of_constant fun rest => ?_
      simp only [List.cons_append, List.nil_append, constant]
      rw [if_neg (by simp [h1, h2]), if_neg hw, numberTokens_word h5, wordLexeme, if_neg h3,
        if_neg h4]

theorem consts_clean {ts : List SqlTok} (h : ts.all cleanTok = true)
    (hd : .word s%"decode" ∉ ts) : Consts b ts (ts.map .tok) := (constsAll_clean h hd).consts

theorem consts_counted {w : Str} (h : w = s%"LIMIT" ∨ w = s%"OFFSET") (ds : Str) :
    Consts b [.word w, .word ds] [.tok (.word w), .tok (.word ds)] := by
  refine consts_of_constant fun rest _ => ?_
  simp only [List.cons_append, List.nil_append, constant, if_pos h]

/-- Digits that no point follows. -/
theorem numberTokens_int {ds : Str} {n : Nat} (h : readNat ds = some n) {rest : List SqlTok}
    (hp : noPoint rest = true) : numberTokens (.word ds :: rest) = some (n, 0, rest) := by
  unfold numberTokens
  simp only [h]
  split
  · next c fs r' =>
    have hc : c ≠ '.' := by
      rintro rfl
      exact absurd hp (by simp [noPoint])
    simp only [if_neg hc]
  · rfl

/-- Digits, a point and digits. -/
theorem numberTokens_point {ds fs : Str} {i f : Nat} (h : readNat ds = some i)
    (h' : readNat fs = some f) (rest : List SqlTok) :
    numberTokens (.word ds :: .sym '.' :: .word fs :: rest)
      = some (i * 10 ^ fs.length + f, fs.length, rest) := by
  simp only [numberTokens, h, if_true, h']

theorem constant_number {ds : Str} {m : Nat} (h : readNat ds = some m) {r rest : List SqlTok}
    {N k : Nat} (hr : numberTokens (.word ds :: r) = some (N, k, rest)) :
    constant b (.word ds :: r) = some ([.value (numberValue false N k)], rest) := by
  have hne : ∀ w, readNat w = none → ds ≠ w := by
    rintro w hw e
    rw [e, hw] at h
    cases h
  simp only [constant]
  rw [if_neg (by
    rintro (e | e)
    · exact hne _ (by decide) e
    · exact hne _ (by decide) e), if_neg (hne _ (by decide)), hr]

theorem consts_numeral (neg : Bool) {ds : Str} {m : Nat} (h : readNat ds = some m) {r : List SqlTok}
    {N k : Nat} (hr : ∀ rest, noPoint rest = true →
      numberTokens (.word ds :: (r ++ rest)) = some (N, k, rest)) :
    Consts b ((if neg then [.sym '-'] else []) ++ .word ds :: r) [.value (numberValue neg N k)] := by
  cases neg with
  | false => exact consts_of_constant fun rest hp => constant_number h (hr rest hp)
  | true =>
    refine consts_of_constant fun rest hp => ?_
    show constant b (.sym '-' :: .word ds :: (r ++ rest)) = _
    simp only [constant, if_true, hr rest hp]

theorem consts_number (n : Nat) : Consts b [.word (formatNat n)] [.value (.int .int64 n)] :=
  consts_numeral false (readNat_formatNat n) (r := []) fun _ hp =>
    numberTokens_int (readNat_formatNat n) hp

theorem consts_negative (n : Nat) :
    Consts b [.sym '-', .word (formatNat n)] [.value (.int .int64 (-(n : Int)))] :=
  consts_numeral true (readNat_formatNat n) (r := []) fun _ hp =>
    numberTokens_int (readNat_formatNat n) hp

theorem consts_literal {t s : Str} (h : literalText b t = some s) :
    Consts b [.literal t] [.value (.str s)] := by
  refine consts_of_constant fun rest _ => ?_
  simp only [List.cons_append, List.nil_append, constant, h]

theorem consts_bytes {t : Str} {x : List UInt8} (h : literalText b t = some t) (hx : unhex t = some x) :
    Consts b [.word s%"decode", .sym '(', .literal t, .sym ',', .literal s%"hex", .sym ')']
      [.value (.bytes x)] := by
  refine consts_of_constant fun rest _ => ?_
  simp only [List.cons_append, List.nil_append, constant]
  rw [if_neg (by decide)]
  simp [readHex, h, hx]

theorem readBody_until {t : Str} (h : '\'' ∉ t) : readBody '\'' (t ++ ['\'']) = some (t, []) := by
  induction t with
  | nil => rfl
  | cons c t ih =>
    simp only [List.mem_cons, not_or] at h
    rw [List.cons_append, readBody.eq_def]
    simp only [if_neg (fun e : c = '\'' => h.1 e.symm), ih h.2]

theorem readEscBody_until {t : Str} (h : ∀ c ∈ t, c ≠ '\'' ∧ c ≠ '\\') :
    readEscBody (t ++ ['\'']) = some (t, []) := by
  induction t with
  | nil => rfl
  | cons c t ih =>
    have hc := h c List.mem_cons_self
    rw [List.cons_append, readEscBody, ih fun x hx => h x (List.mem_cons_of_mem _ hx)]
    · exact fun e => hc.1 e
    · exact fun e => hc.2 e

theorem literalText_plain {t : Str} (h : ∀ c ∈ t, c ≠ '\'' ∧ c ≠ '\\') : literalText b t = some t := by
  unfold literalText
  cases b with
  | true =>
    simp only [if_true, List.cons_append, readEsc, readEscBody_until h]
  | false =>
    have : '\'' ∉ t := fun hq => (h _ hq).1 rfl
    simp only [Bool.false_eq_true, if_false, List.cons_append, readStd, readQuoted, if_true,
      readBody_until this]

/-- What the literal of a float says. -/
noncomputable def saidFloat (x : BitVec 64) : Val :=
  match readNumeral (formatFloat x) with
  | some (neg, N, k) => numberValue neg N k
  | none => .float64 x

theorem saysDouble_float {x : BitVec 64} (h : x.toNat % 2 ^ 63 < 2047 * 2 ^ 52) :
    SaysDouble (decide (2 ^ 63 ≤ x.toNat)) (x.toNat % 2 ^ 63) (saidFloat x) := by
  obtain ⟨N, k, h1, h2, -⟩ := formatFloat_reads h
  rw [saidFloat, h1]
  generalize decide (2 ^ 63 ≤ x.toNat) = neg
  generalize x.toNat % 2 ^ 63 = n at *
  simp only
  by_cases hk : k = 0
  · subst hk
    refine .inr ⟨if neg then -(N : Int) else N, by simp [numberValue], ?_, ?_⟩
    · cases neg <;> simpa using h2
    · cases neg with
      | false => intro _; simp
      | true =>
        simp only [if_true, decide_eq_true_eq]
        omega
  · have hn : nearest binary64 N k = n := by
      have hex : ∃ n, RoundsTo binary64 N k n := ⟨n, h2⟩
      rw [nearest, dif_pos hex]
      exact roundsTo_unique hex.choose_spec h2
    refine .inl ⟨_, by rw [numberValue, if_neg hk, hn], ?_, ?_⟩
    · rw [BitVec.toNat_ofNat]
      cases neg <;> simp <;> omega
    · rw [BitVec.toNat_ofNat]
      cases neg <;> simp <;> omega

/-- What the literal of a value says. -/
noncomputable def said : Val → Val
  | .int .int64 n => .int .int64 n
  | .int _ n => .int .int64 (toInt64Wrap n)
  | .uint .uint64 n => .int .int64 n
  | .uint _ n => .int .int64 (toUint64Wrap n)
  | .time ns _ => .str ((formatTime ns).drop 1).dropLast
  | .float64 x => saidFloat x
  | .float32 x => saidFloat (widen x)
  | .valuerNil _ => .nil
  | .valuerOk _ v => said v
  | v => v

theorem saidBy_said (v : Val) : SaidBy v (said v) := by
  induction v using formatValue.induct with
  | case4 ns loc =>
    obtain ⟨t, e, ht⟩ := formatTime_plain ns
    refine ⟨t, by simp [said, e], fun h0 h1 => ?_⟩
    have := readTimestamp_formatTime ns (by omega) (by omega) []
    rw [e, List.append_nil] at this
    refine ⟨_, this, ?_, ?_⟩
    · rw [Int.fdiv_eq_ediv_of_nonneg ns (by decide)]; omega
    · rw [Int.fdiv_eq_ediv_of_nonneg ns (by decide)]; omega
  | case7 _ v ih => exact ih
  | case8 n => exact fun _ => rfl
  | case9 k n hk =>
    intro h
    have hw : toInt64Wrap n = n := by
      cases k <;> simp only [Val.InRange, IntKind.bits] at h <;>
        refine toInt64Wrap_of_range ?_ ?_ <;> omega
    cases k <;> simp only [said, hw]
  | case10 n => exact fun _ => rfl
  | case11 k n hk =>
    intro h
    have hw : toUint64Wrap n = n := by
      cases k <;> simp only [Val.InRange, UintKind.bits] at h <;>
        refine toUint64Wrap_of_range ?_ <;> omega
    cases k <;> simp only [said, hw]
  | case13 x =>
    intro h
    obtain ⟨e1, e2⟩ := widen_toNat x
    rw [if_neg (by omega)] at e1
    have hf := widenBits_finite (n := x.toNat % 2 ^ 31) (by omega)
    have := saysDouble_float (x := widen x) (by omega)
    rw [e1, e2] at this
    exact ⟨_, this, units_widenBits _⟩
  | case14 x => exact fun h => saysDouble_float h
  | case6 | case15 | case16 => trivial
  | _ => rfl

theorem consts_int (n : Int) :
    ∃ o, Lexes b (formatInt n) o ∧ noPoint o = true ∧ Consts b o [.value (.int .int64 n)] := by
  cases n with
  | ofNat m => exact ⟨_, lexes_formatNat m, rfl, consts_number m⟩
  | negSucc m =>
    refine ⟨_, lexes_negative m, rfl, ?_⟩
    have := consts_negative (b := b) (m + 1)
    rw [show -((m + 1 : Nat) : Int) = Int.negSucc m from rfl] at this
    exact this

theorem readDecimal_digits {ds : Str} {m : Nat} (h : readNat ds = some m) (hd : '.' ∉ ds) :
    readDecimal ds = some (m, 0) := by
  rw [readDecimal, dropWhile_without hd]
  simp [h]

theorem consts_float {x : BitVec 64} (h : x.toNat % 2 ^ 63 < 2047 * 2 ^ 52) :
    ∃ o, Lexes b (formatFloat x) o ∧ noPoint o = true ∧ Consts b o [.value (saidFloat x)] := by
  obtain ⟨N, k, h1, -, -⟩ := formatFloat_reads h
  rw [saidFloat, h1]
  simp only
  generalize decide (2 ^ 63 ≤ x.toNat) = sg at h1
  rcases formatFloat_form x with e | e | e | ⟨neg, ds, t, hne, hd, e, ht⟩
  · rw [e, show readNumeral s%"NaN" = none from rfl] at h1; cases h1
  · rw [e, show readNumeral s%"+Inf" = none from rfl] at h1; cases h1
  · rw [e, show readNumeral s%"-Inf" = none from rfl] at h1; cases h1
  have hpt : '.' ∉ ds := fun hm => absurd (hd _ hm) (by decide)
  have hr : tokRun b .free ((if neg then s%"-" else []) ++ ds)
      = (.word ds, if neg then [.sym '-'] else []) := by
    cases neg with
    | false => exact lexes_digits hd hne
    | true => exact tokRun_minus hne hd
  have hm : ∀ u, ds ++ t ≠ '-' :: u := by
    intro u e
    cases ds with
    | nil => exact hne rfl
    | cons c ds =>
      cases e
      exact absurd (hd _ List.mem_cons_self) (by decide)
  have hnp : ∀ r, noPoint ((if neg then [.sym '-'] else []) ++ .word ds :: r) = true := by
    intro r
    cases neg <;> rfl
  have hsome : ∀ d, readDecimal (ds ++ t) = some d → neg = sg ∧ d = (N, k) := by
    intro d hd'
    have := readNumeral_signed (neg := neg) hd' hm
    rw [← e, h1] at this
    cases this
    exact ⟨rfl, rfl⟩
  have hnone : readDecimal (ds ++ t) ≠ none := by
    intro hn
    rw [e] at h1
    unfold readNumeral at h1
    split at h1
    · next u eu =>
      cases neg with
      | false => exact hm _ eu
      | true =>
        cases eu
        rw [show [].append (ds ++ t) = ds ++ t from rfl, hn] at h1
        cases h1
    · next hx =>
      cases neg with
      | false => simp [hn] at h1
      | true => exact hx _ rfl
  rw [e, ← List.append_assoc]
  rcases ht with rfl | ⟨fs, rfl, hfn, hf⟩
  · cases hi : readNat ds with
    | none =>
      rw [List.append_nil, readDecimal, dropWhile_without hpt] at hnone
      simp [hi] at hnone
    | some i =>
      obtain ⟨rfl, he⟩ := hsome (i, 0) (by rw [List.append_nil]; exact readDecimal_digits hi hpt)
      cases he
      refine ⟨(if neg then [.sym '-'] else []) ++ [.word ds], ?_, hnp _, ?_⟩
      · unfold Lexes
        rw [List.append_nil, hr]
        exact ⟨_, rfl, nofun, rfl⟩
      · exact consts_numeral neg hi (r := []) fun _ hp => numberTokens_int hi hp
  · have e1 : (ds ++ '.' :: fs).dropWhile (· ≠ '.') = '.' :: fs := (takeWhile_before hpt).2
    have e2 : (ds ++ '.' :: fs).takeWhile (· ≠ '.') = ds :=
      (takeWhile_before hpt).1
    rw [readDecimal, e1] at hnone hsome
    simp only [e2] at hnone hsome
    cases hi : readNat ds with
    | none => simp [hi] at hnone
    | some i =>
      cases hj : readNat fs with
      | none => simp [hi, hj] at hnone
      | some j =>
        obtain ⟨rfl, he⟩ := hsome (i * 10 ^ fs.length + j, fs.length) (by simp [hi, hj])
        cases he
        refine ⟨(if neg then [.sym '-'] else []) ++ [.word ds, .sym '.', .word fs], ?_, hnp _, ?_⟩
        · have : tokRun b (.word ds) ('.' :: fs) = (.word fs, [.word ds, .sym '.']) := by
            rw [tokRun, show tokStep b (.word ds) '.' = (.free, [.word ds, .sym '.']) from rfl]
            simp only
            rw [lexes_digits hf hfn]
            rfl
          unfold Lexes
          rw [tokRun_append, hr]
          simp only
          rw [this]
          refine ⟨_, rfl, nofun, ?_⟩
          simp
        · exact consts_numeral neg hi (r := [.sym '.', .word fs]) fun rest _ =>
            numberTokens_point hi hj rest

theorem lexemes_saidFloat (x : BitVec 64) :
    pieceLexemes b (.val (saidFloat x)) = [.value (saidFloat x)] := by
  unfold saidFloat
  split
  · unfold numberValue
    split <;> rfl
  · rfl

theorem consts_value (k : Nat) {v : Val} (h : Legible b v) :
    ∃ o, Lexes b (Verif.literal k v) o ∧ noPoint o = true ∧
      Consts b o (pieceLexemes b (.val (said v))) := by
  induction v using formatValue.induct with
  | case1 => exact ⟨[.word s%"NULL"], ⟨_, rfl, nofun, rfl⟩, rfl, consts_clean (by decide) (by decide)⟩
  | case2 s =>
    rcases h with rfl | h
    · refine ⟨_, lexes_formatString (.inl rfl), rfl, consts_literal ?_⟩
      have := readEsc_formatString (s := s) (rest := []) (by simp)
      simp only [formatString, List.append_nil, List.cons_append, List.nil_append] at this
      simp only [literalText, if_true, List.cons_append, this]
    · have hp : s.flatMap formatStringRune = s := by
        induction s with
        | nil => rfl
        | cons c s ih =>
          obtain ⟨h1, h2, h3, h4, h5⟩ := h c List.mem_cons_self
          rw [List.flatMap_cons, ih fun x hx => h x (List.mem_cons_of_mem _ hx)]
          simp [formatStringRune, h1, h2, h3, h4, h5]
      refine ⟨_, lexes_formatString (.inr fun hq => (h _ hq).1 rfl), rfl, ?_⟩
      rw [hp]
      exact consts_literal (literalText_plain fun c hc => ⟨(h c hc).1, (h c hc).2.1⟩)
  | case3 x =>
    have hp : ∀ c ∈ hexEncode x, c ≠ '\'' ∧ c ≠ '\\' := by
      intro c hc
      simp only [hexEncode, List.mem_flatMap] at hc
      obtain ⟨y, -, hc⟩ := hc
      have hy : y.toNat < 256 := y.toNat_lt
      simp only [List.mem_cons, List.not_mem_nil, or_false] at hc
      rcases hc with rfl | rfl
      · exact hexDigit_plain (by omega)
      · exact hexDigit_plain (by omega)
    refine ⟨_, ?_, rfl, consts_bytes (literalText_plain hp) (unhex_hexEncode x)⟩
    have e : tokRun b .free (formatBytes x) =
        (.free, [.word s%"decode", .sym '(', .literal (hexEncode x), .sym ',', .literal s%"hex",
          .sym ')']) := by
      unfold formatBytes
      rw [tokRun_append, tokRun_append, show tokRun b .free s%"decode('"
        = (.literal [], [.word s%"decode", .sym '(']) from rfl]
      simp only
      rw [tokRun_plainLiteral hp]
      simp only [List.nil_append]
      rw [show tokRun b (.literal (hexEncode x)) s%"', 'hex')"
        = (.free, [.literal (hexEncode x), .sym ',', .literal s%"hex", .sym ')']) from by
          cases b <;> rfl]
      rfl
    show Lexes b (formatBytes x) _
    unfold Lexes
    rw [e]
    exact ⟨_, rfl, nofun, rfl⟩
  | case4 ns =>
    obtain ⟨t, e, ht⟩ := formatTime_plain ns
    refine ⟨[.literal t], ?_, rfl, ?_⟩
    · show Lexes b (formatTime ns) _
      rw [e]
      exact lexes_quoted (by simpa using tokRun_plainLiteral (b := b) ht [])
    · simp only [said, e, List.drop_succ_cons, List.drop_zero, List.dropLast_concat]
      exact consts_literal (literalText_plain ht)
  | case5 => exact ⟨[.word s%"NULL"], ⟨_, rfl, nofun, rfl⟩, rfl, consts_clean (by decide) (by decide)⟩
  | case6 => exact absurd h (fun h => h)
  | case7 _ v ih => exact ih h
  | case8 n => exact consts_int n
  | case9 k n hk =>
    simp only [literal, formatValue]
    cases k
    case int64 => exact absurd rfl hk
    all_goals exact consts_int (toInt64Wrap n)
  | case10 n => exact ⟨_, lexes_formatNat n, rfl, consts_number n⟩
  | case11 k n hk =>
    simp only [literal, formatValue]
    cases k
    case uint64 => exact absurd rfl hk
    all_goals exact ⟨_, lexes_formatNat _, rfl, consts_number (toUint64Wrap n)⟩
  | case12 x =>
    cases x <;> exact ⟨_, ⟨_, rfl, nofun, rfl⟩, rfl, consts_of_constant fun rest _ => rfl⟩
  | case13 x =>
    have h : x.toNat % 2 ^ 31 < 255 * 2 ^ 23 := h
    obtain ⟨e1, -⟩ := widen_toNat x
    rw [if_neg (by omega)] at e1
    have hf := widenBits_finite (n := x.toNat % 2 ^ 31) (by omega)
    have := consts_float (b := b) (x := widen x) (by omega)
    rw [← lexemes_saidFloat] at this
    exact this
  | case14 x =>
    have := consts_float (b := b) h
    rw [← lexemes_saidFloat] at this
    exact this
  | case15 k l => exact absurd h (fun h => h)
  | case16 ty id => exact absurd h (fun h => h)

theorem noPoint_nameTokens (l : List Str) : noPoint (nameTokens l) = true := by
  match l with
  | [] => rfl
  | [_] => rfl
  | _ :: _ :: _ => rfl

theorem noPoint_pieces {l : List Piece} (h : Cleans b l) (hv : ∀ v ∈ arguments l, Legible b v)
    (k : Nat) : noPoint (pieceTokens b (fun _ v => (tokens b (literal 1 v)).getD []) k l) = true := by
  induction l generalizing k with
  | nil => rfl
  | cons p l ih =>
    obtain ⟨hp, hl⟩ := cleans_cons.1 h
    cases p with
    | note c => cases hp
    | name n => exact noPoint_append (noPoint_nameTokens _) (ih hl hv k)
    | raw t => exact noPoint_append (cleanToks_noPoint hp) (ih hl hv k)
    | sql t =>
      refine noPoint_append ?_ (ih hl hv k)
      rcases hp with hp | hp
      · exact cleanToks_noPoint hp
      · obtain ⟨w, n, -, e⟩ := counted_tokens (b := b) hp
        rw [e]
        rfl
    | val v =>
      have hcase : v = .nil ∨ (arguments (.val v :: l) = v :: arguments l ∧
          pieceTokens b (fun _ v => (tokens b (literal 1 v)).getD []) k (.val v :: l) =
            (tokens b (literal 1 v)).getD [] ++
              pieceTokens b (fun _ v => (tokens b (literal 1 v)).getD []) (k + 1) l) := by
        cases v
        case nil => exact .inl rfl
        all_goals exact .inr ⟨rfl, rfl⟩
      rcases hcase with rfl | ⟨e1, e2⟩
      · rfl
      · rw [e1] at hv
        rw [e2]
        obtain ⟨o, h1, h2, -⟩ := consts_value 1 (hv v List.mem_cons_self)
        rw [h1.getD]
        exact noPoint_append h2 (ih hl (fun w hw => hv w (List.mem_cons_of_mem _ hw)) (k + 1))

theorem consts_pieces {l : List Piece} (h : Cleans b l) (k : Nat)
    (hd : .word s%"decode" ∉ pieceTokens b (fun i _ => [.param (numeral i)]) k l)
    (hv : ∀ v ∈ arguments l, Legible b v) (k' : Nat) :
    Consts b (pieceTokens b (fun _ v => (tokens b (literal 1 v)).getD []) k' l)
      (lexemes b (l.map (mapPiece said))) := by
  induction l generalizing k k' with
  | nil => exact constsAll_nil.consts
  | cons p l ih =>
    obtain ⟨hp, hl⟩ := cleans_cons.1 h
    cases p with
    | note c => cases hp
    | name n =>
      rw [pieceTokens, List.mem_append, not_or] at hd
      exact consts_append (consts_clean (clean_nameTokens _) hd.1) (ih hl k hd.2 hv k') (noPoint_pieces hl hv k')
    | raw t =>
      rw [pieceTokens, List.mem_append, not_or] at hd
      exact consts_append (consts_clean (cleanToks_all hp) hd.1) (ih hl k hd.2 hv k') (noPoint_pieces hl hv k')
    | sql t =>
      rw [pieceTokens, List.mem_append, not_or] at hd
      rcases hp with hp | hp
      · exact consts_append (consts_clean (cleanToks_all hp) hd.1) (ih hl k hd.2 hv k') (noPoint_pieces hl hv k')
      · obtain ⟨w, n, hw, e⟩ := counted_tokens (b := b) hp
        refine consts_append ?_ (ih hl k hd.2 hv k') (noPoint_pieces hl hv k')
        rw [mapPiece, pieceLexemes, e]
        · exact consts_counted hw _
        · nofun
    | val v =>
      have hcase : v = .nil ∨ (arguments (.val v :: l) = v :: arguments l ∧
          pieceTokens b (fun i _ => [.param (numeral i)]) k (.val v :: l) =
            .param (numeral k) :: pieceTokens b (fun i _ => [.param (numeral i)]) (k + 1) l ∧
          pieceTokens b (fun _ v => (tokens b (literal 1 v)).getD []) k' (.val v :: l) =
            (tokens b (literal 1 v)).getD [] ++
              pieceTokens b (fun _ v => (tokens b (literal 1 v)).getD []) (k' + 1) l) := by
        cases v
        case nil => exact .inl rfl
        all_goals exact .inr ⟨rfl, rfl, rfl⟩
      rcases hcase with rfl | ⟨e1, e2, e3⟩
      · rw [pieceTokens, List.mem_cons, not_or] at hd
        exact consts_append (ts := [.word s%"NULL"]) (consts_clean (by decide) (by decide))
          (ih hl k hd.2 hv k') (noPoint_pieces hl hv k')
      · rw [e1] at hv
        rw [e2, List.mem_cons, not_or] at hd
        rw [e3]
        obtain ⟨o, h1, -, h2⟩ := consts_value 1 (hv v List.mem_cons_self)
        rw [h1.getD]
        exact consts_append h2
          (ih hl (k + 1) hd.2 (fun w hw => hv w (List.mem_cons_of_mem _ hw)) (k' + 1))
          (noPoint_pieces hl (fun w hw => hv w (List.mem_cons_of_mem _ hw)) (k' + 1))

end

end Verif
