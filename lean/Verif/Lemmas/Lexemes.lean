import Verif.Spec.Meaning
import Verif.Lemmas.TokenText
import Verif.Lemmas.Argument

/-!
# The tokens of a statement with the arguments in place of the placeholders
-/

set_option linter.unusedSectionVars false

namespace Verif
open Spec

theorem supply_plain (args : List Val) {ts : List SqlTok} (h : params ts = []) (l : List SqlTok) :
    supply args (ts ++ l) = (supply args l).map (ts.map Lexeme.tok ++ ·) := by
  induction ts with
  | nil => simp
  | cons t ts ih =>
    cases t with
    | param ds => cases h
    | _ =>
      have := ih h
      rw [List.cons_append, supply]
      · rw [this]; cases supply args l <;> rfl
      · intro ds; simp

theorem supply_append (args : List Val) (ts l : List SqlTok) :
    supply args (ts ++ l) =
      (supply args ts).bind fun x => (supply args l).map (x ++ ·) := by
  induction ts with
  | nil => simp [supply]
  | cons t ts ih =>
    cases t with
    | param ds =>
      simp only [List.cons_append, supply, ih]
      cases readNat ds with
      | none => rfl
      | some k =>
        cases k with
        | zero => rfl
        | succ k =>
          simp only
          cases args[k]? with
          | none => rfl
          | some v => cases supply args ts <;> cases supply args l <;> rfl
    | _ =>
      simp only [List.cons_append, supply, ih]
      cases supply args ts <;> cases supply args l <;> rfl

section
variable [GoRuntime]

/-- The lexemes of a piece. -/
def pieceLexemes (b : Bool) : Piece → List Lexeme
  | .sql t => ((tokens b t).getD []).map .tok
  | .name s => (nameTokens (splitOn '.' s)).map .tok
  | .raw t => ((tokens b t).getD []).map .tok
  | .note _ => []
  | .val v =>
    match v with
    | .nil => [.tok (.word s%"NULL")]
    | v => [.value v]

/-- The lexemes of pieces. -/
def lexemes (b : Bool) (l : List Piece) : List Lexeme := l.flatMap (pieceLexemes b)

variable {b : Bool}

@[simp] theorem lexemes_nil : lexemes b [] = [] := rfl

theorem lexemes_cons (p : Piece) (l : List Piece) :
    lexemes b (p :: l) = pieceLexemes b p ++ lexemes b l := rfl

theorem lexemes_append (l m : List Piece) : lexemes b (l ++ m) = lexemes b l ++ lexemes b m := by
  simp [lexemes]

theorem supply_pieces {args : List Val} {l : List Piece}
    (hj : Joined l) (ht : ∀ p ∈ l, Tame b p) (k : Nat)
    (hall : ∀ (i : Nat) v, (arguments l)[i]? = some v → args[k + i]? = some v) :
    supply args (pieceTokens b (fun i _ => [.param (numeral i)]) (k + 1) l) = some (lexemes b l) := by
  have none : ∀ {ts : List SqlTok}, params ts = [] → supply args ts = some (ts.map .tok) := by
    intro ts h
    have := supply_plain args h []
    simpa [supply] using this
  induction hj generalizing k with
  | nil => rfl
  | name n =>
    simp only [pieceTokens, List.append_nil]
    rw [none (params_nameTokens _)]
    simp [lexemes, pieceLexemes]
  | raw t =>
    obtain ⟨o, h, hp⟩ := lexes_closed (ht (.raw t) List.mem_cons_self)
    simp only [pieceTokens, h.getD, List.append_nil]
    rw [none hp]
    simp [lexemes, pieceLexemes, h.getD]
  | val v =>
    cases v
    case nil => rfl
    all_goals
      simp only [pieceTokens, List.append_nil]
      have h0 := hall 0 _ rfl
      have hk : readNat (numeral (k + 1)) = some (k + 1) := readNat_formatNat (k + 1)
      simp only [Nat.add_zero] at h0
      simp [supply, hk, h0, lexemes, pieceLexemes]
  | text h =>
    obtain ⟨o, h, hp⟩ := h b
    simp only [pieceTokens, h.getD, List.append_nil]
    rw [none hp]
    simp [lexemes, pieceLexemes, h.getD]
  | @after t l h hl ih =>
    obtain ⟨o, h, hp⟩ := h b
    have e : tokens b t = some o := by rw [tokens, h]; simp [tokEnd]
    rw [pieceTokens, e, Option.getD_some, supply_plain _ hp,
      ih (fun p hp => ht p (List.mem_cons_of_mem _ hp)) k hall, lexemes_cons]
    simp [pieceLexemes, e]
  | @before a l c t ha hc hl iha ihl =>
    rw [pieceTokens_append, supply_append]
    rw [arguments_append] at hall
    rw [iha (fun p hp => ht p (List.mem_append_left _ hp)) k ?_]
    · rw [show k + 1 + (arguments a).length = (k + (arguments a).length) + 1 by omega]
      rw [ihl (fun p hp => ht p (List.mem_append_right _ hp)) (k + (arguments a).length) ?_]
      · rw [lexemes_append]; rfl
      intro i v hv
      have := hall ((arguments a).length + i) v (by
        rw [List.getElem?_append_right (by omega)]; simpa using hv)
      rw [show k + (arguments a).length + i = k + ((arguments a).length + i) by omega, this]
    · intro i v hv
      refine hall i v ?_
      rw [List.getElem?_append_left (List.getElem?_eq_some_iff.1 hv).1]
      exact hv
  | note c ha => exact absurd (ht (.note c) (by simp)) id

/-! ## Lists of pieces -/

/-- Lists of lexemes with a separator between them. -/
def separated (sep : Lexeme) : List (List Lexeme) → List Lexeme
  | [] => []
  | [a] => a
  | a :: b :: l => a ++ sep :: separated sep (b :: l)

theorem lexemes_commaSep (l : List (List Piece)) :
    lexemes b (commaSep l) = separated (.tok (.sym ',')) (l.map (lexemes b)) := by
  induction l with
  | nil => rfl
  | cons x l ih =>
    cases l with
    | nil => rfl
    | cons y l =>
      rw [commaSep, lexemes_append, lexemes_cons, ih]
      rfl

/-- The lexemes of a clause that may be absent. -/
def optLexemes (b : Bool) : Option (List Piece) → List Lexeme
  | none => []
  | some c => lexemes b c

theorem lexemes_spaceTail (l : List (Option (List Piece))) :
    lexemes b (spaceTail l) = l.flatMap (optLexemes b) := by
  induction l with
  | nil => rfl
  | cons c l ih =>
    cases c with
    | none => rw [spaceTail_none, ih]; rfl
    | some c =>
      rw [spaceTail_some, List.cons_append, lexemes_cons, lexemes_append, ih]
      rfl

theorem lexemes_spaced (l : List (Option (List Piece))) :
    lexemes b (spaced l) = l.flatMap (optLexemes b) := by
  induction l with
  | nil => rfl
  | cons c l ih =>
    cases c with
    | none => exact ih
    | some c => rw [spaced_some, lexemes_append, lexemes_spaceTail]; rfl

theorem optLexemes_clause (p : Bool) (c : List Piece) :
    optLexemes b (clause p c) = if p then lexemes b c else [] := by
  cases p <;> rfl

/-! ## Names -/

/-- The lexemes of a quoted name. -/
def quotedLexemes (n : Str) : List Lexeme :=
  separated (.tok (.sym '.')) ((splitOn '.' n).map fun p => [.tok (.name p)])

/-- The lexemes of a name without quotes. -/
def bareLexemes (n : Str) : List Lexeme :=
  separated (.tok (.sym '.')) ((splitOn '.' n).map fun p => [.tok (.word p)])

theorem nameTokens_plain {l : List Str} (h : ∀ p ∈ l, ∀ c ∈ p, ordinary c) :
    (nameTokens l).map Lexeme.tok
      = separated (.tok (.sym '.')) (l.map fun p => [.tok (.name p)]) := by
  induction l with
  | nil => rfl
  | cons p l ih =>
    have hp : p.flatMap quoteRune = p :=
      flatMap_plain fun c hc => ordinary_plain (h p List.mem_cons_self c hc)
    cases l with
    | nil => simp [nameTokens, hp, separated]
    | cons r l =>
      have := ih fun x hx => h x (List.mem_cons_of_mem _ hx)
      rw [nameTokens, hp]
      simp only [List.map_cons] at this ⊢
      rw [this]
      rfl

theorem plainName_parts {n : Str} (h : plainName n = true) :
    ∀ p ∈ splitOn '.' n, ∀ c ∈ p, ordinary c := by
  intro p hp c hc
  simp only [plainName, Bool.and_eq_true, List.all_eq_true, Bool.or_eq_true, decide_eq_true_eq] at h
  rcases h.2 c (mem_splitOn hp c hc) with h | rfl
  · exact h
  · exact absurd hc ((splitOn_join '.' n).2 p hp)

theorem lexemes_name {n : Str} (h : plainName n = true) (l : List Piece) :
    lexemes b (.name n :: l) = quotedLexemes n ++ lexemes b l := by
  rw [lexemes_cons, pieceLexemes, nameTokens_plain (plainName_parts h)]
  rfl

theorem tokStep_wordStart {c : Char} (h : wordStart c = true) :
    tokStep b .free c = (.word [c], []) := by
  have h0 : ∀ x, wordStart x = false → c ≠ x := fun x hx e => by rw [e, hx] at h; cases h
  simp [tokStep, tokAfter, tokStart, h, h0 '"' rfl, h0 '\'' rfl, h0 '$' rfl,
    h0 '-' rfl, h0 '/' rfl]

theorem tokRun_bareWord {w : Str} (h : bareWord w = true) : tokRun b .free w = (.word w, []) := by
  simp only [bareWord, isNameWord, Bool.and_eq_true, List.all_eq_true] at h
  obtain ⟨⟨⟨h1, -⟩, -⟩, h2⟩ := h
  cases w with
  | nil => simp at h1
  | cons c w =>
    rw [tokRun, tokStep_wordStart (h2 c List.mem_cons_self)]
    simp only
    rw [tokRun_word fun x hx => h2 x (List.mem_cons_of_mem _ hx)]
    simp

theorem tokRun_bareParts {l : List Str} (hne : l ≠ []) (h : ∀ w ∈ l, bareWord w = true) :
    ∃ t o, tokRun b .free (List.intercalate ['.'] l) = (.word t, o) ∧
      (o ++ [SqlTok.word t]).map Lexeme.tok = separated (.tok (.sym '.')) (l.map fun p => [.tok (.word p)]) ∧
      params o = [] := by
  induction l with
  | nil => exact absurd rfl hne
  | cons p l ih =>
    cases l with
    | nil =>
      refine ⟨p, [], ?_, rfl, rfl⟩
      simpa [List.intercalate, List.intersperse] using tokRun_bareWord (b := b) (h p (by simp))
    | cons q l =>
      obtain ⟨t, o, h1, h2, h3⟩ := ih (by simp) fun x hx => h x (List.mem_cons_of_mem _ hx)
      have e : List.intercalate ['.'] (p :: q :: l)
          = p ++ s%"." ++ List.intercalate ['.'] (q :: l) := by
        simp [List.intercalate, List.intersperse]
      refine ⟨t, .word p :: .sym '.' :: o, ?_, ?_, h3⟩
      · rw [e, tokRun_append, tokRun_append, tokRun_bareWord (h p (by simp))]
        simp only
        rw [show tokRun b (.word p) s%"." = (.free, [.word p, .sym '.']) from rfl]
        simp only
        rw [h1]
        simp
      · rw [List.map_cons, List.map_cons, separated] at *
        simp only [List.cons_append, List.map_cons, h2]
        rfl

theorem lexes_bareName {n : Str} (h : bareName n = true) :
    ∃ o, Lexes b n o ∧ o.map Lexeme.tok = bareLexemes n ∧ params o = [] := by
  simp only [bareName, List.all_eq_true] at h
  obtain ⟨t, o, h1, h2, h3⟩ := tokRun_bareParts (b := b) (splitOn_ne_nil '.' n) h
  rw [← (splitOn_join '.' n).1] at h1
  refine ⟨o ++ [.word t], ⟨[.word t], ?_, ?_, ?_⟩, h2, ?_⟩
  · rw [h1]; rfl
  · rw [h1]; nofun
  · rw [h1]
  · simp [params_append, h3, params]

theorem pieceLexemes_bareName {n : Str} (h : bareName n = true) :
    pieceLexemes b (.raw n) = bareLexemes n := by
  obtain ⟨o, h1, h2, -⟩ := lexes_bareName (b := b) h
  rw [pieceLexemes, h1.getD, h2]

theorem lexemes_bare {n : Str} (h : bareName n = true) (l : List Piece) :
    lexemes b (.raw n :: l) = bareLexemes n ++ lexemes b l := by
  rw [lexemes_cons, pieceLexemes_bareName h]

theorem wordStart_dot : wordStart '.' = false := by decide

theorem bareName_word {w : Str} (h : bareWord w = true) :
    bareName w = true ∧ bareLexemes w = [.tok (.word w)] := by
  have hs : splitOn '.' w = [w] := splitOn_no_sep fun hd => by
    simp only [bareWord, Bool.and_eq_true, List.all_eq_true] at h
    have := h.2 _ hd
    rw [wordStart_dot] at this
    cases this
  simp [bareName, bareLexemes, hs, h, separated]

end

end Verif
