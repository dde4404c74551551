import Verif.Lemmas.Tokens

/-!
# The tokens of rendered statements
-/

set_option linter.unusedSectionVars false

namespace Verif
open Spec

section
variable [GoRuntime]
variable {b : Bool}

/-! ## Names -/

theorem tokRun_name {n : Str} (h : '"' ∉ n) (t : Str) :
    tokRun b (.name t) n = (.name (t ++ n), []) := by
  induction n generalizing t with
  | nil => simp [tokRun]
  | cons c n ih =>
    have h1 : c ≠ '"' := fun e => h (e ▸ List.mem_cons_self)
    rw [tokRun]
    simp only [tokStep, if_neg h1]
    rw [ih fun hm => h (List.mem_cons_of_mem _ hm)]
    simp

theorem tokRun_goQuote {n : Str} (h : '"' ∉ n) :
    tokRun b .free (goQuote n) = (.nameQuote (n.flatMap quoteRune), []) := by
  unfold goQuote
  rw [tokRun_append, tokRun_append, show tokRun b .free s%"\"" = (.name [], []) from rfl]
  simp only
  rw [tokRun_name (flatMap_no_quote h)]
  simp [tokRun, tokStep]

theorem tokRun_quotedParts {l : List Str} (h : ∀ p ∈ l, '"' ∉ p) (hl : l ≠ []) :
    ∃ t o, tokRun b .free (quotedParts l) = (.nameQuote t, o) ∧ o ++ [.name t] = nameTokens l := by
  induction l with
  | nil => exact absurd rfl hl
  | cons p l ih =>
    cases l with
    | nil => exact ⟨_, _, tokRun_goQuote (h p List.mem_cons_self), rfl⟩
    | cons q l =>
      obtain ⟨t, o, h1, h2⟩ := ih (fun x hx => h x (List.mem_cons_of_mem _ hx)) (by simp)
      refine ⟨t, .name (p.flatMap quoteRune) :: .sym '.' :: o, ?_, ?_⟩
      · show tokRun b .free (goQuote p ++ s%"." ++ quotedParts (q :: l)) = _
        rw [tokRun_append, tokRun_append, tokRun_goQuote (h p List.mem_cons_self)]
        rw [show tokRun b (.nameQuote (p.flatMap quoteRune)) s%"."
          = (.free, [.name (p.flatMap quoteRune), .sym '.']) from rfl]
        simp only
        rw [h1]
        simp
      · rw [nameTokens, ← h2]
        simp

theorem lexes_quote {n : Str} (h : '"' ∉ n) : Lexes b (quote n) (nameTokens (splitOn '.' n)) := by
  obtain ⟨t, o, h1, h2⟩ := tokRun_quotedParts (b := b) (l := splitOn '.' n)
    (fun _ hp hq => h (mem_splitOn hp _ hq)) (splitOn_ne_nil _ _)
  unfold Lexes
  rw [show quote n = quotedParts (splitOn '.' n) from rfl, h1]
  exact ⟨_, rfl, nofun, h2.symm⟩

theorem params_nameTokens (l : List Str) : params (nameTokens l) = [] := by
  induction l with
  | nil => rfl
  | cons p l ih =>
    cases l with
    | nil => rfl
    | cons q l => simpa [nameTokens, params] using ih

/-! ## Pieces -/

theorem pieceTokens_append (what : Nat → Val → List SqlTok) (k : Nat) (l m : List Piece) :
    pieceTokens b what k (l ++ m)
      = pieceTokens b what k l ++ pieceTokens b what (k + (arguments l).length) m := by
  induction l generalizing k with
  | nil => simp [pieceTokens, arguments]
  | cons p l ih =>
    cases p with
    | val v =>
      cases v
      case nil => simp only [List.cons_append, pieceTokens, arguments, ih]
      all_goals
        simp only [List.cons_append, pieceTokens, arguments, ih, List.length_cons,
          List.append_assoc]
        rw [Nat.add_assoc, Nat.add_comm 1]
    | _ => simp [pieceTokens, arguments, ih]

theorem lexes_render {ph : Nat → Val → Str} {what : Nat → Val → List SqlTok} {l : List Piece}
    (hj : Joined l) (ht : ∀ p ∈ l, Tame b p)
    (hp : ∀ v ∈ arguments l, ∀ k, Lexes b (ph k v) (what k v)) (k : Nat) :
    Lexes b (render ph k l) (pieceTokens b what k l) := by
  induction hj generalizing k with
  | nil => exact lexes_nil b
  | name n =>
    simpa [render, pieceTokens] using lexes_quote (ht _ List.mem_cons_self)
  | raw t =>
    obtain ⟨o, h, -⟩ := lexes_closed (ht (.raw t) List.mem_cons_self)
    simpa [render, pieceTokens, h.getD] using h
  | val v =>
    cases v
    case nil => exact ⟨_, rfl, nofun, rfl⟩
    all_goals
      simp only [render, pieceTokens, List.append_nil]
      exact hp _ List.mem_cons_self k
  | text h =>
    obtain ⟨o, h, -⟩ := h b
    simpa [render, pieceTokens, h.getD] using h
  | @after t l h hl ih =>
    obtain ⟨o, h, -⟩ := h b
    have e : tokens b t = some o := by rw [tokens, h]; simp [tokEnd]
    rw [render, pieceTokens, e]
    exact lexes_after h (ih (fun p hp => ht p (List.mem_cons_of_mem _ hp)) hp k)
  | @before a l c t ha hc hl iha ihl =>
    rw [render_append, pieceTokens_append]
    rw [arguments_append] at hp
    have h1 := iha (fun p hp => ht p (List.mem_append_left _ hp))
      (fun v hv => hp v (List.mem_append_left _ hv)) k
    have h2 := ihl (fun p hp => ht p (List.mem_append_right _ hp))
      (fun v hv => hp v (List.mem_append_right _ hv)) (k + (arguments a).length)
    rw [render, List.cons_append] at h2 ⊢
    exact lexes_before h1 hc h2
  | note c ha => exact absurd (ht (.note c) (by simp)) id

/-! ## Replacing placeholders -/

theorem fillTokens_append (what : List (List SqlTok)) (l m : List SqlTok) :
    fillTokens what (l ++ m) = fillTokens what l ++ fillTokens what m := by
  simp [fillTokens]

theorem fillTokens_none (what : List (List SqlTok)) {l : List SqlTok} (h : params l = []) :
    fillTokens what l = l := by
  induction l with
  | nil => rfl
  | cons t l ih =>
    cases t with
    | param ds => cases h
    | _ =>
      have := ih h
      simp only [fillTokens] at this
      simp [fillTokens, this]

theorem fillTokens_param (what : List (List SqlTok)) (n : Nat) {o : List SqlTok}
    (h : what[n]? = some o) : fillTokens what [.param (numeral (n + 1))] = o := by
  have : readNat (numeral (n + 1)) = some (n + 1) := readNat_formatNat (n + 1)
  simp [fillTokens, this, h]

/-- The pieces that are not values contain no placeholder. -/
theorem fill_pieces {what : Nat → Val → List SqlTok} {all : List (List SqlTok)} {l : List Piece}
    (hj : Joined l) (ht : ∀ p ∈ l, Tame b p) (k : Nat)
    (hall : ∀ i v, (arguments l)[i]? = some v → all[k + i]? = some (what (k + 1 + i) v)) :
    fillTokens all (pieceTokens b (fun i _ => [.param (numeral i)]) (k + 1) l)
      = pieceTokens b what (k + 1) l := by
  induction hj generalizing k with
  | nil => rfl
  | name n =>
    simp only [pieceTokens, List.append_nil]
    exact fillTokens_none _ (params_nameTokens _)
  | raw t =>
    obtain ⟨o, h, hp⟩ := lexes_closed (ht (.raw t) List.mem_cons_self)
    simp only [pieceTokens, h.getD, List.append_nil]
    exact fillTokens_none _ hp
  | val v =>
    cases v
    case nil => rfl
    all_goals
      simp only [pieceTokens, List.append_nil]
      exact fillTokens_param _ _ (hall 0 _ rfl)
  | text h =>
    obtain ⟨o, h, hp⟩ := h b
    simp only [pieceTokens, h.getD, List.append_nil]
    exact fillTokens_none _ hp
  | @after t l h hl ih =>
    obtain ⟨o, h, hp⟩ := h b
    have e : tokens b t = some o := by rw [tokens, h]; simp [tokEnd]
    rw [pieceTokens, pieceTokens, e, fillTokens_append, Option.getD_some, fillTokens_none _ hp,
      ih (fun p hp => ht p (List.mem_cons_of_mem _ hp)) k hall]
  | @before a l c t ha hc hl iha ihl =>
    rw [pieceTokens_append, pieceTokens_append, fillTokens_append]
    rw [arguments_append] at hall
    rw [iha (fun p hp => ht p (List.mem_append_left _ hp)) k ?_]
    · rw [show k + 1 + (arguments a).length = (k + (arguments a).length) + 1 by omega]
      rw [ihl (fun p hp => ht p (List.mem_append_right _ hp)) (k + (arguments a).length) ?_]
      intro i v hv
      have := hall ((arguments a).length + i) v (by
        rw [List.getElem?_append_right (by omega)]; simpa using hv)
      rw [show k + (arguments a).length + i = k + ((arguments a).length + i) by omega, this]
      rw [show k + 1 + ((arguments a).length + i) = k + (arguments a).length + 1 + i by omega]
    · intro i v hv
      refine hall i v ?_
      rw [List.getElem?_append_left (List.getElem?_eq_some_iff.1 hv).1]
      exact hv
  | note c ha => exact absurd (ht (.note c) (by simp)) id

theorem params_pieces {l : List Piece} (hj : Joined l) (ht : ∀ p ∈ l, Tame b p) {k : Nat} :
    params (pieceTokens b (fun i _ => [.param (numeral i)]) k l)
      = (List.range' k (arguments l).length).map numeral := by
  induction hj generalizing k with
  | nil => rfl
  | name n => simp [pieceTokens, params_nameTokens, arguments]
  | raw t =>
    obtain ⟨o, h, hp⟩ := lexes_closed (ht (.raw t) List.mem_cons_self)
    simp [pieceTokens, h.getD, hp, arguments]
  | val v => cases v <;> rfl
  | text h =>
    obtain ⟨o, h, hp⟩ := h b
    simp [pieceTokens, h.getD, hp, arguments]
  | @after t l h hl ih =>
    obtain ⟨o, h, hp⟩ := h b
    have e : tokens b t = some o := by rw [tokens, h]; simp [tokEnd]
    rw [pieceTokens, e, params_append, Option.getD_some, hp,
      ih fun p hp => ht p (List.mem_cons_of_mem _ hp)]
    rfl
  | @before a l c t ha hc hl iha ihl =>
    rw [pieceTokens_append, params_append, iha fun p hp => ht p (List.mem_append_left _ hp),
      ihl fun p hp => ht p (List.mem_append_right _ hp), arguments_append, List.length_append,
      ← List.map_append, List.range'_append_1]
  | note c ha => exact absurd (ht (.note c) (by simp)) id

theorem nameTokens_anonymous {l m : List Str} (h : l.length = m.length) :
    (nameTokens l).map SqlTok.anonymous = (nameTokens m).map SqlTok.anonymous := by
  induction l generalizing m with
  | nil => cases m <;> simp_all
  | cons p l ih =>
    cases m with
    | nil => simp at h
    | cons q m =>
      have h' : l.length = m.length := by simpa using h
      cases l with
      | nil => cases m <;> simp_all [nameTokens, SqlTok.anonymous]
      | cons p' l =>
        cases m with
        | nil => simp at h'
        | cons q' m =>
          simp only [nameTokens, List.map_cons, ih h']
          rfl

theorem sameButNames_tokens {what : Nat → Val → List SqlTok} {l m : List Piece}
    (h : SameButNames l m) {k : Nat} :
    (pieceTokens b what k l).map SqlTok.anonymous
      = (pieceTokens b what k m).map SqlTok.anonymous := by
  induction h generalizing k with
  | nil => rfl
  | cons p _ ih =>
    cases p with
    | val v => cases v <;> simp [pieceTokens, ih]
    | _ => simp [pieceTokens, ih]
  | name hn _ ih => simp [pieceTokens, ih, nameTokens_anonymous hn]

/-! ## Comments -/

theorem tokRun_comment {c : Str} (h : OneLine c) : tokRun b .comment c = (.comment, []) := by
  induction c with
  | nil => rfl
  | cons x c ih =>
    have h1 : x ≠ '\n' := fun e => h.1 (e ▸ List.mem_cons_self)
    have h2 : x ≠ '\r' := fun e => h.2 (e ▸ List.mem_cons_self)
    rw [tokRun]
    have : tokStep b .comment x = (.comment, []) := by simp [tokStep, h1, h2]
    rw [this]
    simp only
    rw [ih ⟨fun hm => h.1 (List.mem_cons_of_mem _ hm), fun hm => h.2 (List.mem_cons_of_mem _ hm)⟩]
    rfl

/-- A comment at the end leaves the semicolon before it. -/
theorem tokens_comment {t c : Str} {o : List SqlTok} (h : Lexes b t o) (hc : OneLine c) :
    tokens b (t ++ commentText c) = some (o ++ if c.isEmpty then [] else [.sym ';']) := by
  unfold commentText
  split
  · simpa using h.tokens
  · obtain ⟨f, h1, h2, rfl⟩ := h
    rw [tokens, tokRun_append]
    have e : tokRun b (tokRun b .free t).1 (s%"; -- " ++ c) = (.comment, f ++ [.sym ';']) := by
      rw [tokRun_append]
      have : tokRun b (tokRun b .free t).1 s%"; -- " = (.comment, f ++ [.sym ';']) := by
        rw [show s%"; -- " = ';' :: s%" -- " from rfl, tokRun, step_delim h1 h2 rfl]
        simp [tokAfter, tokStart, wordStart, isBlank, tokRun, tokStep]
      rw [this]
      simp only
      rw [tokRun_comment hc]
      simp
    rw [e]
    simp [tokEnd]

/-! ## Literals -/

theorem lexes_dollar (k : Nat) (v : Val) : Lexes b (dollar k v) [.param (numeral k)] := by
  have hd : ∀ (t ds : Str), (∀ c ∈ t, Spec.isDigit c = true) →
      tokRun b (.dollar ds) t = (.dollar (ds ++ t), []) := by
    intro t
    induction t with
    | nil => intro ds _; simp [tokRun]
    | cons c t ih =>
      intro ds h
      rw [tokRun]
      simp only [tokStep, h c List.mem_cons_self, if_true]
      rw [ih _ fun x hx => h x (List.mem_cons_of_mem _ hx)]
      simp
  unfold dollar Lexes
  rw [tokRun_append, show tokRun b .free s%"$" = (.dollar [], []) from rfl]
  simp only
  rw [hd _ _ fun c hc => digit_of_mem_formatNat hc]
  refine ⟨[.param (numeral k)], ?_, nofun, rfl⟩
  have : formatNat k ≠ [] := formatNat_ne_nil k
  simp [tokEnd, numeral, formatNat] at this ⊢

theorem tokRun_word {t u : Str} (h : ∀ c ∈ u, wordStart c = true) :
    tokRun b (.word t) u = (.word (t ++ u), []) := by
  induction u generalizing t with
  | nil => simp [tokRun]
  | cons c u ih =>
    rw [tokRun]
    simp only [tokStep, h c List.mem_cons_self, Bool.true_or, if_true]
    rw [ih fun x hx => h x (List.mem_cons_of_mem _ hx)]
    simp

theorem wordStart_digit {c : Char} (h : Spec.isDigit c = true) : wordStart c = true := by
  unfold Spec.isDigit at h
  unfold wordStart
  simp [h]

theorem lexes_colon (k : Nat) (v : Val) :
    Lexes b (colon k v) [.sym ':', .word (s%"arg_" ++ numeral k)] := by
  unfold colon Lexes
  rw [tokRun_append, tokRun_append, show tokRun b .free s%":" = (.free, [.sym ':']) from rfl]
  simp only
  rw [show tokRun b .free s%"arg_" = (.word s%"arg_", []) from rfl]
  simp only
  rw [tokRun_word fun c hc => wordStart_digit (digit_of_mem_formatNat hc)]
  exact ⟨_, rfl, nofun, rfl⟩

theorem tokRun_plainLiteral {u : Str} (h : ∀ c ∈ u, c ≠ '\'' ∧ c ≠ '\\') (t : Str) :
    tokRun b (.literal t) u = (.literal (t ++ u), []) := by
  induction u generalizing t with
  | nil => simp [tokRun]
  | cons c u ih =>
    have hc := h c List.mem_cons_self
    rw [tokRun]
    have : tokStep b (.literal t) c = (.literal (t ++ [c]), []) := by simp [tokStep, hc.1, hc.2]
    rw [this]
    simp only
    rw [ih fun x hx => h x (List.mem_cons_of_mem _ hx)]
    simp

theorem tokRun_quotelessLiteral {u : Str} (h : '\'' ∉ u) (t : Str) :
    tokRun false (.literal t) u = (.literal (t ++ u), []) := by
  induction u generalizing t with
  | nil => simp [tokRun]
  | cons c u ih =>
    have hc : c ≠ '\'' := fun e => h (e ▸ List.mem_cons_self)
    rw [tokRun]
    have : tokStep false (.literal t) c = (.literal (t ++ [c]), []) := by simp [tokStep, hc]
    rw [this]
    simp only
    rw [ih fun hm => h (List.mem_cons_of_mem _ hm)]
    simp

theorem tokRun_formatStringRune (c : Char) (t : Str) :
    tokRun true (.literal t) (formatStringRune c) = (.literal (t ++ formatStringRune c), []) := by
  unfold formatStringRune
  split
  · rfl
  split
  · rfl
  split
  · rfl
  split
  · rfl
  split
  · rfl
  · rename_i h1 h2 _ _ _
    exact tokRun_plainLiteral (by simp [h1, h2]) t

theorem lexes_quoted {t : Str} (h : tokRun b (.literal []) t = (.literal t, [])) :
    Lexes b ('\'' :: (t ++ ['\''])) [.literal t] := by
  have e : tokRun b .free ('\'' :: (t ++ ['\''])) = (.literalQuote t, []) := by
    rw [tokRun, show tokStep b .free '\'' = (.literal [], []) from rfl]
    simp only
    rw [tokRun_append, h]
    simp [tokRun, tokStep]
  unfold Lexes
  rw [e]
  exact ⟨_, rfl, nofun, rfl⟩

theorem lexes_formatString {s : Str} (h : b = true ∨ '\'' ∉ s) :
    Lexes b (formatString s) [.literal (s.flatMap formatStringRune)] := by
  have e : formatString s = '\'' :: (s.flatMap formatStringRune ++ ['\'']) := by simp [formatString]
  rw [e]
  refine lexes_quoted ?_
  cases b with
  | true =>
    have : ∀ t, tokRun true (.literal t) (s.flatMap formatStringRune)
        = (.literal (t ++ s.flatMap formatStringRune), []) := by
      clear h e
      induction s with
      | nil => intro t; simp [tokRun]
      | cons c s ih =>
        intro t
        rw [List.flatMap_cons, tokRun_append, tokRun_formatStringRune]
        simp only
        rw [ih]
        simp
    exact this []
  | false =>
    refine tokRun_quotelessLiteral ?_ []
    have hs : '\'' ∉ s := by simpa using h
    simp only [List.mem_flatMap, not_exists, not_and]
    intro c hc
    exact formatStringRune_no_quote fun e => hs (e ▸ hc)

theorem lexes_digits {t : Str} (h : ∀ c ∈ t, Spec.isDigit c = true) (hne : t ≠ []) :
    tokRun b .free t = (.word t, []) := by
  cases t with
  | nil => exact absurd rfl hne
  | cons c t =>
    have hc := h c List.mem_cons_self
    have e : tokStep b .free c = (.word [c], []) := by
      have h0 : ∀ x, Spec.isDigit x = false → c ≠ x := fun x hx e => by rw [e, hx] at hc; cases hc
      simp [tokStep, tokAfter, tokStart, wordStart_digit hc, h0 '"' rfl, h0 '\'' rfl, h0 '$' rfl,
        h0 '-' rfl, h0 '/' rfl]
    rw [tokRun, e]
    simp only
    rw [tokRun_word fun x hx => wordStart_digit (h x (List.mem_cons_of_mem _ hx))]
    simp

theorem lexes_formatNat (n : Nat) : Lexes b (formatNat n) [.word (formatNat n)] := by
  unfold Lexes
  rw [lexes_digits (fun c hc => digit_of_mem_formatNat hc) (formatNat_ne_nil n)]
  exact ⟨_, rfl, nofun, rfl⟩

theorem lexes_negative (m : Nat) :
    Lexes b (formatInt (.negSucc m)) [.sym '-', .word (formatNat (m + 1))] := by
  have hd : ∀ c ∈ formatNat (m + 1), Spec.isDigit c = true := fun c hc => digit_of_mem_formatNat hc
  have hw := lexes_digits (b := b) hd (formatNat_ne_nil _)
  have : tokRun b .dash (formatNat (m + 1)) = (.word (formatNat (m + 1)), [.sym '-']) := by
    cases hs : formatNat (m + 1) with
    | nil => exact absurd hs (formatNat_ne_nil _)
    | cons c t =>
      rw [hs] at hd hw
      have hc : c ≠ '-' := by rintro rfl; exact absurd (hd _ List.mem_cons_self) (by decide)
      rw [tokRun] at hw ⊢
      simp only [tokStep, if_neg hc] at hw ⊢
      simp only [tokAfter, List.nil_append] at hw ⊢
      simp only [Prod.mk.injEq, List.append_eq_nil_iff] at hw
      simp [hw.1, hw.2.1, hw.2.2]
  unfold Lexes
  rw [show formatInt (.negSucc m) = '-' :: formatNat (m + 1) from rfl, tokRun,
    show tokStep b .free '-' = (.dash, []) from rfl]
  simp only
  rw [this]
  exact ⟨_, rfl, nofun, rfl⟩

omit [GoRuntime] in
theorem intTokens_nat (n : Nat) : IntTokens n [.word (formatNat n)] :=
  ⟨_, fun c hc => digit_of_mem_formatNat hc, by simpa using readNat_formatNat n,
    by rw [if_neg (by omega)]; rfl⟩

theorem lexes_formatInt (n : Int) : ∃ o, Lexes b (formatInt n) o ∧ IntTokens n o := by
  cases n with
  | ofNat m => exact ⟨_, lexes_formatNat m, intTokens_nat m⟩
  | negSucc m =>
    exact ⟨_, lexes_negative m, formatNat (m + 1), fun c hc => digit_of_mem_formatNat hc,
      readNat_formatNat _, by rw [if_pos (Int.negSucc_lt_zero m)]; rfl⟩

theorem tokRun_minus {ds : Str} (hne : ds ≠ []) (h : ∀ c ∈ ds, Spec.isDigit c = true) :
    tokRun b .free ('-' :: ds) = (.word ds, [.sym '-']) := by
  have hw := lexes_digits (b := b) h hne
  rw [tokRun, show tokStep b .free '-' = (.dash, []) from rfl]
  cases ds with
  | nil => exact absurd rfl hne
  | cons c t =>
    have hc : c ≠ '-' := by rintro rfl; exact absurd (h _ List.mem_cons_self) (by decide)
    rw [tokRun] at hw
    simp only
    rw [tokRun]
    simp only [tokStep, if_neg hc] at hw ⊢
    simp only [tokAfter, List.nil_append] at hw ⊢
    simp only [Prod.mk.injEq, List.append_eq_nil_iff] at hw
    simp [hw.1, hw.2.1, hw.2.2]

theorem lexes_formatFloat (x : BitVec 64) : ∃ o, Lexes b (formatFloat x) o ∧ FloatTokens o := by
  rcases formatFloat_form x with h | h | h | ⟨neg, ds, t, hne, hd, e, ht⟩
  · rw [h]; exact ⟨_, ⟨_, rfl, nofun, rfl⟩, .inl rfl⟩
  · rw [h]; exact ⟨_, ⟨_, rfl, nofun, rfl⟩, .inr (.inl rfl)⟩
  · rw [h]; exact ⟨_, ⟨_, rfl, nofun, rfl⟩, .inr (.inr (.inl rfl))⟩
  · rw [e]
    obtain ⟨sign, hs, hr⟩ : ∃ sign, (sign = [] ∨ sign = [SqlTok.sym '-']) ∧
        tokRun b .free ((if neg then s%"-" else []) ++ ds) = (.word ds, sign) := by
      cases neg with
      | false => exact ⟨_, .inl rfl, lexes_digits hd hne⟩
      | true => exact ⟨_, .inr rfl, tokRun_minus hne hd⟩
    rw [← List.append_assoc]
    rcases ht with rfl | ⟨fs, rfl, hfn, hf⟩
    · refine ⟨sign ++ [.word ds], ?_, .inr (.inr (.inr ⟨sign, ds, hs, hd, .inl rfl⟩))⟩
      unfold Lexes
      rw [List.append_nil, hr]
      exact ⟨_, rfl, nofun, rfl⟩
    · refine ⟨sign ++ [.word ds, .sym '.', .word fs], ?_,
        .inr (.inr (.inr ⟨sign, ds, hs, hd, .inr ⟨fs, hf, rfl⟩⟩))⟩
      have : tokRun b (.word ds) ('.' :: fs) = (.word fs, [.word ds, .sym '.']) := by
        rw [tokRun, show tokStep b (.word ds) '.' = (.free, [.word ds, .sym '.']) from rfl]
        simp only
        rw [lexes_digits hf hfn]
        rfl
      unfold Lexes
      rw [tokRun_append, hr]
      simp only
      rw [this]
      refine ⟨_, rfl, nofun, ?_⟩
      simp

theorem lexes_elem {k : ElemKind} (hk : k ≠ .string) (v : Val) :
    ∃ o, Lexes b (sprintElem k v) o ∧ ElemTokens k v o := by
  unfold sprintElem
  split
  · exact absurd rfl hk
  · exact lexes_formatInt _
  · exact ⟨_, lexes_formatNat _, intTokens_nat _⟩
  · rename_i x; cases x <;> exact ⟨_, ⟨_, rfl, nofun, rfl⟩, rfl⟩
  · refine ⟨_, lexes_nil b, ?_⟩
    unfold ElemTokens
    split <;> first | rfl | exact absurd rfl (by assumption) | (exfalso; simp_all)

theorem lexes_elems {k : ElemKind} (hk : k ≠ .string) (l : List Val) :
    ∃ parts : List (List SqlTok), Lexes b (joinWith s%" " (l.map (sprintElem k))) parts.flatten ∧
      parts.length = l.length ∧
      ∀ (i : Nat) v p, l[i]? = some v → parts[i]? = some p → ElemTokens k v p := by
  induction l with
  | nil => exact ⟨[], lexes_nil b, rfl, by simp⟩
  | cons x l ih =>
    obtain ⟨o, ho, he⟩ := lexes_elem (b := b) hk x
    obtain ⟨parts, hp, hl, hs⟩ := ih
    refine ⟨o :: parts, ?_, by simp [hl], ?_⟩
    · cases l with
      | nil =>
        obtain rfl : parts = [] := List.eq_nil_of_length_eq_zero hl
        simpa [joinWith] using ho
      | cons y l =>
        have hd : Lexes b (' ' :: joinWith s%" " ((y :: l).map (sprintElem k))) parts.flatten := by
          obtain ⟨f, h1, h2, h3⟩ := hp
          exact ⟨f, h1, h2, h3⟩
        have := lexes_before ho rfl hd
        simpa [joinWith] using this
    · intro i v p hv hp
      cases i with
      | zero => simp only [List.getElem?_cons_zero, Option.some.injEq] at hv hp; subst hv hp; exact he
      | succ i => exact hs i v p (by simpa using hv) (by simpa using hp)

omit [GoRuntime] in
theorem tokRun_bracket {m : TokMode} {f : List SqlTok} (h : tokEnd m = some f) (hm : m ≠ .comment) :
    tokRun b m s%"]" = (.free, f ++ [.sym ']']) := by
  cases m with
  | dollar ds =>
    simp only [tokEnd] at h
    split at h
    · cases h
    · next hds =>
      cases h
      simp [tokRun, tokStep, hds, Spec.isDigit, wordStart, tokAfter, tokStart, isBlank]
  | comment => exact absurd rfl hm
  | name => cases h
  | literal => cases h
  | escape => cases h
  | bad => cases h
  | _ => cases h; simp [tokRun, tokStep, wordStart, tokAfter, tokStart, isBlank]

theorem lexes_slice {k : ElemKind} (hk : k ≠ .string) (l : List Val) :
    ∃ o, Lexes b (s%"[" ++ joinWith s%" " (l.map (sprintElem k)) ++ s%"]") o ∧
      SliceTokens k l o := by
  obtain ⟨parts, hp, hl, hs⟩ := lexes_elems (b := b) hk l
  refine ⟨_, ?_, parts, rfl, hl, hs⟩
  rw [List.append_assoc]
  refine lexes_after (o := [.sym '[']) rfl ?_
  obtain ⟨f, h1, h2, h3⟩ := hp
  unfold Lexes
  rw [tokRun_append, tokRun_bracket h1 h2, h3]
  exact ⟨_, rfl, nofun, by simp⟩

theorem lexes_literal (k : Nat) {v : Val} (h : TameVal b v) :
    ∃ o, Lexes b (literal k v) o ∧ LiteralShape b v o := by
  induction v using formatValue.induct with
  | case1 => exact ⟨_, ⟨_, rfl, nofun, rfl⟩, rfl⟩
  | case2 s =>
    refine ⟨_, lexes_formatString h, _, rfl, fun _ => ?_⟩
    have := readEsc_formatString (s := s) (rest := []) (by simp)
    simpa [formatString] using this
  | case3 x =>
    refine ⟨_, ?_, hexEncode x, rfl, unhex_hexEncode x⟩
    have hp : ∀ c ∈ hexEncode x, c ≠ '\'' ∧ c ≠ '\\' := by
      intro c hc
      simp only [hexEncode, List.mem_flatMap] at hc
      obtain ⟨y, -, hc⟩ := hc
      have hy : y.toNat < 256 := y.toNat_lt
      simp only [List.mem_cons, List.not_mem_nil, or_false] at hc
      rcases hc with rfl | rfl
      · exact hexDigit_plain (by omega)
      · exact hexDigit_plain (by omega)
    have e : tokRun b .free (formatBytes x) =
        (.free, [.word s%"decode", .sym '(', .literal (hexEncode x), .sym ',', .literal s%"hex",
          .sym ')']) := by
      unfold formatBytes
      rw [tokRun_append, tokRun_append, show tokRun b .free s%"decode('"
        = (.literal [], [.word s%"decode", .sym '(']) from rfl]
      simp only
      rw [tokRun_plainLiteral hp]
      simp only [List.nil_append]
      rw [show tokRun b (.literal (hexEncode x)) s%"', 'hex')"
        = (.free, [.literal (hexEncode x), .sym ',', .literal s%"hex", .sym ')']) from by
          cases b <;> rfl]
      rfl
    show Lexes b (formatBytes x) _
    unfold Lexes
    rw [e]
    exact ⟨_, rfl, nofun, rfl⟩
  | case4 ns =>
    obtain ⟨t, e, ht⟩ := formatTime_plain ns
    refine ⟨_, ?_, t, rfl⟩
    show Lexes b (formatTime ns) _
    rw [e]
    exact lexes_quoted (by simpa using tokRun_plainLiteral (b := b) ht [])
  | case5 => exact ⟨_, ⟨_, rfl, nofun, rfl⟩, rfl⟩
  | case6 => exact ⟨_, lexes_nil b, trivial⟩
  | case7 _ v ih => exact ih h
  | case8 n =>
    obtain ⟨o, h, ho⟩ := lexes_formatInt (b := b) n
    exact ⟨o, h, ⟨n, ho⟩, fun _ _ => ho⟩
  | case9 _ n =>
    simp only [literal, formatValue]
    obtain ⟨o, h, ho⟩ := lexes_formatInt (b := b) (toInt64Wrap n)
    exact ⟨o, h, ⟨_, ho⟩, fun h1 h2 => by rwa [toInt64Wrap_of_range h1 h2] at ho⟩
  | case10 n => exact ⟨_, lexes_formatNat n, ⟨n, intTokens_nat n⟩, fun _ => intTokens_nat n⟩
  | case11 _ n =>
    simp only [literal, formatValue]
    refine ⟨_, lexes_formatNat _, ⟨_, intTokens_nat _⟩, fun h => ?_⟩
    rw [toUint64Wrap_of_range h]
    exact intTokens_nat n
  | case12 x => cases x <;> exact ⟨_, ⟨_, rfl, nofun, rfl⟩, rfl⟩
  | case13 x => exact lexes_formatFloat _
  | case14 x => exact lexes_formatFloat x
  | case15 k l =>
    cases k with
    | int k => exact lexes_slice (k := .int k) nofun l
    | uint k => exact lexes_slice (k := .uint k) nofun l
    | bool => exact lexes_slice (k := .bool) nofun l
    | _ => obtain ⟨o, h, -⟩ := lexes_closed (closed_formatSlice h); exact ⟨o, h, trivial⟩
  | case16 ty id => obtain ⟨o, h, -⟩ := lexes_closed h; exact ⟨o, h, trivial⟩

end

end Verif
