import Verif.Lemmas.Lexer
import Verif.Model.Transcript

/-!
# The transcript of the lexer and of `ParseJoin`
-/

namespace Verif.Transcript

/-! ## The lexer -/

/-- The lexer in front of this text. -/
def Lexer.at (s : Str) : Lexer := ⟨s.drop 2, s.headD eof, (s.drop 1).headD eof⟩

theorem read_at (s : Str) : (Lexer.at s).read = Lexer.at (s.drop 1) := by
  match s with
  | [] => rfl
  | [_] => rfl
  | [_, _] => rfl
  | _ :: _ :: _ :: _ => rfl

theorem new_at (s : Str) : Lexer.new s = Lexer.at s := by
  match s with
  | [] => rfl
  | [_] => rfl
  | _ :: _ :: _ => rfl

theorem skip_at (n : Nat) (s : Str) (h : s.length ≤ n) :
    (Lexer.at s).skipWhitespace n = Lexer.at (s.dropWhile isWhitespace) := by
  induction n generalizing s with
  | zero =>
    obtain rfl : s = [] := List.length_eq_zero_iff.1 (by omega)
    rfl
  | succ n ih =>
    cases s with
    | nil => rfl
    | cons c s =>
      rw [Lexer.skipWhitespace, List.dropWhile_cons]
      show (if isWhitespace c = true then _ else _) = _
      split
      · rw [read_at]; exact ih s (by simpa using h)
      · rfl

theorem identifier_at (n : Nat) (s b : Str) (h : s.length ≤ n) :
    (Lexer.at s).readIdentifier n b =
      (b ++ s.takeWhile isWordRune, Lexer.at (s.dropWhile isWordRune)) := by
  induction n generalizing s b with
  | zero =>
    obtain rfl : s = [] := List.length_eq_zero_iff.1 (by omega)
    simp [Lexer.readIdentifier]
  | succ n ih =>
    cases s with
    | nil => rw [List.takeWhile_nil, List.append_nil]; rfl
    | cons c s =>
      rw [Lexer.readIdentifier, List.dropWhile_cons, List.takeWhile_cons]
      show (if isWordRune c = true then _ else _) = _
      cases hc : isWordRune c with
      | true =>
        rw [read_at, if_pos rfl, if_pos rfl, if_pos rfl]
        show Lexer.readIdentifier n (Lexer.at s) (b ++ [c]) = _
        rw [ih s _ (by simpa using h)]
        simp
      | false => simp

theorem lookup_ne_eof (e : Str) : lookup e ≠ EOF := by
  unfold lookup
  simp only
  split
  · next h => intro e; rw [e] at h; revert h; decide
  · decide

/-- `Next` is `lexNext`. -/
theorem next_at (n : Nat) (s : Str) (h : s.length ≤ n) :
    match lexNext s with
    | none => ((Lexer.at s).next n).1.type = EOF
    | some (t, rest) => (Lexer.at s).next n = (t, Lexer.at rest) ∧ t.type ≠ EOF := by
  have hl : (s.dropWhile isWhitespace).length ≤ n :=
    Nat.le_trans (List.dropWhile_sublist _).length_le h
  unfold Lexer.next lexNext
  rw [skip_at n s h]
  cases hs : s.dropWhile isWhitespace with
  | nil => rfl
  | cons c rest =>
    rw [hs] at hl
    simp only
    have e0 : (Lexer.at (c :: rest)).e0 = c := rfl
    have hr : (Lexer.at (c :: rest)).read = Lexer.at rest := read_at _
    unfold Lexer.getOperatorToken Lexer.getDelimiterToken Lexer.getDefaultToken Lexer.getIdentifier
      Lexer.getToken
    rw [identifier_at n _ _ hl, e0, hr]
    by_cases h0 : c = '\x00'
    · rw [if_pos h0]
      simp only
      rw [if_pos (show c = eof from h0)]
      rfl
    rw [if_neg h0, if_neg (show ¬ c = eof from h0)]
    by_cases h1 : c = '\n'
    · rw [if_pos h1, if_pos h1]; exact ⟨rfl, (by decide : Token.Semicolon ≠ EOF)⟩
    rw [if_neg h1, if_neg h1]
    by_cases h2 : c = '*'
    · rw [if_pos h2, if_pos h2]; exact ⟨rfl, (by decide : Token.Asterisk ≠ EOF)⟩
    rw [if_neg h2, if_neg h2]
    by_cases h3 : c = '='
    · rw [if_pos h3, if_pos h3]; exact ⟨rfl, (by decide : Token.Equals ≠ EOF)⟩
    rw [if_neg h3, if_neg h3]
    by_cases h4 : c = ';'
    · rw [if_pos h4, if_pos h4]; exact ⟨rfl, (by decide : Token.Semicolon ≠ EOF)⟩
    rw [if_neg h4, if_neg h4]
    by_cases h5 : c = ','
    · rw [if_pos h5, if_pos h5]; exact ⟨rfl, (by decide : Token.Comma ≠ EOF)⟩
    rw [if_neg h5, if_neg h5]
    by_cases h6 : c = ':'
    · rw [if_pos h6, if_pos h6]; exact ⟨rfl, (by decide : Token.Colon ≠ EOF)⟩
    rw [if_neg h6, if_neg h6]
    by_cases h7 : c = '('
    · rw [if_pos h7, if_pos h7]; exact ⟨rfl, (by decide : Token.LParen ≠ EOF)⟩
    rw [if_neg h7, if_neg h7]
    by_cases h8 : c = ')'
    · rw [if_pos h8, if_pos h8]; exact ⟨rfl, (by decide : Token.RParen ≠ EOF)⟩
    rw [if_neg h8, if_neg h8]
    cases hw : isWordRune c with
    | true =>
      rw [if_pos rfl]
      simp only [show (isLetter c || isDigit c) = true from hw, if_true, List.nil_append]
      exact ⟨trivial, lookup_ne_eof _⟩
    | false =>
      simp only [show (isLetter c || isDigit c) = false from hw, Bool.false_eq_true, if_false]
      exact ⟨rfl, (by decide : Token.Illegal ≠ EOF)⟩

theorem iterator_at (n k : Nat) (s : Str) (list : List Tok) (h : s.length ≤ n) (hk : s.length < k) :
    Lexer.iterator n k (Lexer.at s) list = list ++ lexAll s := by
  induction k generalizing s list with
  | zero => omega
  | succ k ih =>
    have hn := next_at n s h
    rw [Lexer.iterator, lexAll_eq]
    cases hs : lexNext s with
    | none => rw [hs] at hn; rw [if_pos hn]; simp
    | some p =>
      obtain ⟨t, rest⟩ := p
      rw [hs] at hn
      have hl := lexNext_shorter s t rest hs
      rw [hn.1, if_neg hn.2, ih rest _ (by omega) (by omega)]
      simp

theorem tokens_eq (n : Nat) (s : Str) (h : s.length < n) : tokens n s = lexAll s := by
  unfold tokens
  rw [new_at, iterator_at _ _ _ _ (Nat.le_of_lt h) h]
  rfl

/-! ## The parser -/

/-- The tokens that are left. -/
def Iteratee.rest (it : Iteratee) : List Tok := it.list.drop it.cursor

theorem get_rest (it : Iteratee) : it.list[it.cursor]? = it.rest.head? := by
  rw [Iteratee.rest, List.head?_drop]

theorem hasNext_rest (it : Iteratee) : it.HasNext = !it.rest.isEmpty := by
  unfold Iteratee.HasNext Iteratee.rest
  rw [Bool.eq_iff_iff]
  simp

theorem is_rest (it : Iteratee) (t : TokType) :
    it.Is t = match it.rest with
      | [] => false
      | x :: _ => decide (x.type = t) := by
  unfold Iteratee.Is
  rw [hasNext_rest, get_rest]
  cases it.rest <;> rfl

theorem next_rest {it : Iteratee} {t : Tok} {l : List Tok} (h : it.rest = t :: l) :
    ∃ it', it.Next = .ok (t, it') ∧ it'.rest = l ∧ it'.list = it.list := by
  refine ⟨{ it with cursor := it.cursor + 1 }, ?_, ?_, rfl⟩
  · unfold Iteratee.Next
    rw [get_rest, h]; rfl
  · have h' : it.list.drop it.cursor = t :: l := h
    show it.list.drop (it.cursor + 1) = l
    rw [← List.drop_drop, h']
    rfl

theorem next_end {it : Iteratee} (h : it.rest = []) : it.Next = .error .index := by
  unfold Iteratee.Next
  rw [get_rest, h]; rfl

/-- What follows AND or OR. -/
def link (op : Str) (c : Expr) : List Tok → Go (Option (Expr × List Tok))
  | [] => .ok none
  | l :: rest =>
    if l.type ≠ Token.Literal then .ok none
    else
      match rest with
      | [] => .error .index
      | eq :: rest =>
        if eq.type ≠ Token.Equals then .ok none
        else
          match rest with
          | [] => .ok none
          | r :: rest =>
            if r.type ≠ Token.Literal then .ok none
            else
              .ok (some (.infx c (.logical op) (.onClause { name := l.value } { name := r.value }),
                rest))

/-- The same result, with an iterator and with the tokens that are left. -/
def Sim : Go (Option (Expr × Iteratee)) → Go (Option (Expr × List Tok)) → Prop
  | .error p, .error q => p = q
  | .ok none, .ok none => True
  | .ok (some (c, it)), .ok (some (c', l)) => c = c' ∧ it.rest = l
  | _, _ => False

theorem further_link {t : TokType} (op : Str) (c : Expr) {it : Iteratee} {e : Tok} {l : List Tok}
    (h : it.rest = e :: l) (he : e.type = t) : Sim (further t op c it) (link op c l) := by
  unfold further
  rw [if_pos (by rw [is_rest, h]; exact decide_eq_true he)]
  obtain ⟨i1, h1, r1, -⟩ := next_rest h
  simp only [h1, bind, Except.bind]
  rw [is_rest, r1]
  cases l with
  | nil => simp [link, Sim, pure, Except.pure]
  | cons a l =>
    rw [link.eq_def]
    by_cases ha : a.type = Token.Literal
    · simp only [he, ha, ne_eq, not_true_eq_false, decide_true, decide_false, Bool.not_true, Bool.or_self, Bool.false_eq_true, if_false]
      obtain ⟨i2, h2, r2, -⟩ := next_rest r1
      simp only [h2]
      cases l with
      | nil => rw [next_end r2]; rfl
      | cons q l =>
        obtain ⟨i3, h3, r3, -⟩ := next_rest r2
        simp only [h3]
        rw [is_rest, r3]
        by_cases hq : q.type = Token.Equals
        · simp only [hq, not_true_eq_false, decide_false, Bool.false_or, if_false]
          cases l with
          | nil => simp [Sim, pure, Except.pure]
          | cons b l =>
            by_cases hb : b.type = Token.Literal
            · simp only [hb, decide_true, Bool.not_true, Bool.false_eq_true, if_false, not_true_eq_false]
              obtain ⟨i4, h4, r4, -⟩ := next_rest r3
              simp only [h4]
              exact ⟨rfl, r4⟩
            · simp [hb, Sim, pure, Except.pure]
        · simp [hq, Sim, pure, Except.pure]
    · simp [ha, Sim, pure, Except.pure]

theorem further_none {t : TokType} (op : Str) (c : Expr) {it : Iteratee} (h : it.Is t = false) :
    further t op c it = .ok (some (c, it)) := by
  unfold further
  rw [h]; rfl

theorem link_shorter {op : Str} {c c' : Expr} {l l' : List Tok} (h : link op c l = .ok (some (c', l'))) :
    l'.length < l.length := by
  unfold link at h
  repeat' split at h
  all_goals try cases h
  all_goals simp_all
  all_goals omega

/-- A connective in a condition. -/
theorem parseLoop_link (join : Join) {e : Tok} (l : List Tok) (op : Str)
    (h : (e.type = Token.And ∧ op = Types.And) ∨ (e.type = Token.Or ∧ op = Types.Or)) :
    parseLoop true join (e :: l) =
      match link op join.cond l with
      | .error p => .error p
      | .ok none => .ok none
      | .ok (some (c, l')) => parseLoop true { join with cond := c } l' := by
  have hop : (if e.type = Token.And then Types.And else Types.Or) = op := by
    rcases h with ⟨h, rfl⟩ | ⟨h, rfl⟩
    · rw [if_pos h]
    · rw [h]; decide
  have hc : (true && (decide (e.type = Token.And) || decide (e.type = Token.Or))) = true := by
    rcases h with ⟨h, -⟩ | ⟨h, -⟩ <;> simp [h]
  rw [parseLoop.eq_def]
  simp only
  rw [if_pos hc]
  unfold link
  rw [hop]
  cases l with
  | nil => rfl
  | cons a l =>
    simp only
    by_cases ha : a.type = Token.Literal
    · simp only [ha, ne_eq, not_true_eq_false, if_false]
      cases l with
      | nil => rfl
      | cons q l =>
        by_cases hq : q.type = Token.Equals
        · simp only [hq, not_true_eq_false, if_false]
          cases l with
          | nil => rfl
          | cons b l =>
            by_cases hb : b.type = Token.Literal
            · simp only [hb, not_true_eq_false, if_false]
            · simp only [hb, not_false_eq_true, if_true]
        · simp only [hq, not_false_eq_true, if_true]
    · simp only [ha, ne_eq, not_false_eq_true, if_true]

/-- Any other token ends the condition. -/
theorem parseLoop_end (join : Join) (l : List Tok)
    (h : ∀ e l', l = e :: l' → e.type ≠ Token.And ∧ e.type ≠ Token.Or) :
    parseLoop true join l = parseLoop false join l := by
  cases l with
  | nil => rfl
  | cons e l =>
    obtain ⟨h1, h2⟩ := h e l rfl
    rw [parseLoop.eq_def, parseLoop.eq_def]
    simp [h1, h2]

/-- The inner loop and what comes after it. -/
def whole (n k : Nat) (join : Join) (c : Expr) (it : Iteratee) : Go (Option Join) :=
  match inner k c it with
  | .error p => .error p
  | .ok none => .ok none
  | .ok (some (c', it')) => outer n { join with cond := c' } it'

theorem outer_end {it : Iteratee} (n : Nat) (join : Join) (h : it.rest = []) :
    outer n join it = .ok (some join) := by
  cases n with
  | zero => rfl
  | succ n => rw [outer, hasNext_rest, h]; rfl

theorem loops (m : Nat) : ∀ l : List Tok, l.length ≤ m →
    (∀ n join it, it.rest = l → l.length ≤ n → outer n join it = parseLoop false join l) ∧
    (∀ n k join c it, it.rest = l → l.length ≤ n → l.length ≤ k →
      whole n k join c it = parseLoop true { join with cond := c } l) := by
  induction m with
  | zero =>
    intro l hl
    obtain rfl : l = [] := List.length_eq_zero_iff.1 (by omega)
    refine ⟨fun n join it h _ => outer_end n join h, fun n k join c it h _ _ => ?_⟩
    have : inner k c it = .ok (some (c, it)) := by
      cases k with
      | zero => rfl
      | succ k => rw [inner, is_rest, is_rest, h]; rfl
    rw [whole, this]
    exact outer_end n _ h
  | succ m ih =>
    intro l hl
    have A : ∀ n join it, it.rest = l → l.length ≤ n → outer n join it = parseLoop false join l := by
      intro n join it h hn
      cases l with
      | nil => exact outer_end n join h
      | cons e l =>
        cases n with
        | zero => simp at hn
        | succ n =>
          have hl' : l.length ≤ m := by simpa using hl
          have hn' : l.length ≤ n := by simpa using hn
          obtain ⟨i1, h1, r1, l1⟩ := next_rest h
          rw [outer, hasNext_rest, h, parseLoop.eq_def]
          simp only [List.isEmpty_cons, Bool.not_false, Bool.not_true, Bool.false_eq_true, if_false,
            h1, bind, Except.bind, Bool.false_and]
          split
          · exact (ih l hl').1 n join i1 r1 hn'
          iterate 3
            split
            · rw [is_rest, r1]
              cases l with
              | nil => rfl
              | cons j l =>
                obtain ⟨i2, h2, r2, -⟩ := next_rest r1
                simp only [decide_eq_true_eq, h2]
                split
                · exact (ih l (by simp at hl'; omega)).1 n _ i2 r2 (by simp at hn'; omega)
                · rfl
          split
          · rw [is_rest, is_rest, r1]
            cases l with
            | nil => rfl
            | cons j l =>
              obtain ⟨i2, h2, r2, l2⟩ := next_rest r1
              simp only [decide_eq_true_eq, h2]
              split
              · exact (ih l (by simp at hl'; omega)).1 n _ i2 r2 (by simp at hn'; omega)
              split
              · next hj =>
                rw [is_rest, r2]
                cases l with
                | nil => simp [pure, Except.pure]
                | cons b l =>
                  obtain ⟨i3, h3, r3, l3⟩ := next_rest r2
                  by_cases hb : b.type = Token.Literal
                  · simp only [hj, hb, ne_eq, not_true_eq_false, decide_false, decide_true,
                      Bool.not_true, Bool.or_self, Bool.false_eq_true, if_false, h3]
                    rw [← (ih l (by simp at hl'; omega)).2 n n join _ i3 r3
                      (by simp at hn'; omega) (by simp at hn'; omega), whole]
                    cases inner n
                      (.onClause { name := e.value } { name := b.value }) i3 with
                    | error p => rfl
                    | ok o => cases o <;> rfl
                  · simp [hb, pure, Except.pure]
              · rfl
          split
          · exact (ih l hl').1 n join i1 r1 hn'
          · rfl
    refine ⟨A, ?_⟩
    intro n k join c it h hn hk
    by_cases hend : ∀ e l', l = e :: l' → e.type ≠ Token.And ∧ e.type ≠ Token.Or
    · have hi : inner k c it = .ok (some (c, it)) := by
        cases k with
        | zero => rfl
        | succ k =>
          rw [inner, is_rest, is_rest, h]
          cases l with
          | nil => rfl
          | cons e l' =>
            obtain ⟨h1, h2⟩ := hend e l' rfl
            simp [h1, h2]
      rw [whole, hi, parseLoop_end _ _ hend]
      exact A n _ it h hn
    · obtain ⟨e, l', rfl, he⟩ : ∃ e l', l = e :: l' ∧ (e.type = Token.And ∨ e.type = Token.Or) := by
        cases l with
        | nil => exact absurd (fun _ _ h => by cases h) hend
        | cons e l' =>
          refine ⟨e, l', rfl, ?_⟩
          by_cases h1 : e.type = Token.And
          · exact .inl h1
          · by_cases h2 : e.type = Token.Or
            · exact .inr h2
            · exact absurd (fun _ _ h => by cases h; exact ⟨h1, h2⟩) hend
      cases k with
      | zero => simp at hk
      | succ k =>
        have hk' : l'.length ≤ k := by simpa using hk
        have hn' : l'.length ≤ n := Nat.le_of_succ_le hn
        have hl' : l'.length ≤ m := by simpa using hl
        -- the second half of an iteration
        have half : ∀ (c : Expr) (i : Iteratee) (r : List Tok), i.rest = r → r.length ≤ m →
            r.length ≤ n → r.length ≤ k →
            (match further Token.Or Types.Or c i with
              | .error p => .error p
              | .ok none => .ok none
              | .ok (some (c', i')) => whole n k join c' i') =
            parseLoop true { join with cond := c } r := by
          intro c i r hr h1 h2 h3
          by_cases ho : i.Is Token.Or = true
          · rw [is_rest, hr] at ho
            cases r with
            | nil => cases ho
            | cons o r =>
              simp only [decide_eq_true_eq] at ho
              have hs := further_link Types.Or c hr ho
              rw [parseLoop_link _ r Types.Or (.inr ⟨ho, rfl⟩)]
              revert hs
              cases further Token.Or Types.Or c i with
              | error p =>
                cases hk : link Types.Or c r with
                | error q => exact fun e => by rw [show p = q from e]
                | ok o => intro e; cases e
              | ok o =>
                cases hk : link Types.Or c r with
                | error q => cases o <;> exact fun e => e.elim
                | ok o' =>
                  cases o with
                  | none => cases o' with
                    | none => exact fun _ => rfl
                    | some _ => exact fun e => e.elim
                  | some p =>
                    cases o' with
                    | none => exact fun e => e.elim
                    | some q =>
                      obtain ⟨c', i'⟩ := p
                      obtain ⟨c2, r'⟩ := q
                      rintro ⟨rfl, hr'⟩
                      have := link_shorter hk
                      simp only [List.length_cons] at h1 h2 h3
                      exact (ih r' (by omega)).2 n k join _ i' hr' (by omega) (by omega)
          · rw [further_none _ _ (by simpa using ho)]
            exact (ih r h1).2 n k join c i hr h2 h3
        have hcond : (it.Is Token.And || it.Is Token.Or) = true := by
          rw [is_rest, is_rest, h]
          rcases he with he | he <;> simp [he]
        rw [whole, inner, if_pos hcond]
        by_cases ha : e.type = Token.And
        · have hs := further_link Types.And c h ha
          rw [parseLoop_link _ l' Types.And (.inl ⟨ha, rfl⟩)]
          revert hs
          simp only [bind, Except.bind]
          cases further Token.And Types.And c it with
          | error p =>
            cases hk : link Types.And c l' with
            | error q => exact fun e => by rw [show p = q from e]
            | ok o => intro e; cases e
          | ok o =>
            cases hk : link Types.And c l' with
            | error q => cases o <;> exact fun e => e.elim
            | ok o' =>
              cases o with
              | none => cases o' with
                | none => exact fun _ => rfl
                | some _ => exact fun e => e.elim
              | some p =>
                cases o' with
                | none => exact fun e => e.elim
                | some q =>
                  obtain ⟨c', i'⟩ := p
                  obtain ⟨c2, r'⟩ := q
                  rintro ⟨rfl, hr'⟩
                  have := link_shorter hk
                  simp only
                  rw [← half c' i' r' hr' (by omega) (by omega) (by omega)]
                  cases further Token.Or Types.Or c' i' with
                  | error p => rfl
                  | ok o => cases o <;> rfl
        · have ho : e.type = Token.Or := he.resolve_left ha
          have hf : further Token.And Types.And c it = .ok (some (c, it)) :=
            further_none _ _ (by rw [is_rest, h]; simpa using ha)
          simp only [bind, Except.bind, hf]
          have hs := further_link Types.Or c h ho
          rw [parseLoop_link _ l' Types.Or (.inr ⟨ho, rfl⟩)]
          revert hs
          cases further Token.Or Types.Or c it with
          | error p =>
            cases hk : link Types.Or c l' with
            | error q => exact fun e => by rw [show p = q from e]
            | ok o => intro e; cases e
          | ok o =>
            cases hk : link Types.Or c l' with
            | error q => cases o <;> exact fun e => e.elim
            | ok o' =>
              cases o with
              | none => cases o' with
                | none => exact fun _ => rfl
                | some _ => exact fun e => e.elim
              | some p =>
                cases o' with
                | none => exact fun e => e.elim
                | some q =>
                  obtain ⟨c', i'⟩ := p
                  obtain ⟨c2, r'⟩ := q
                  rintro ⟨rfl, hr'⟩
                  have := link_shorter hk
                  exact (ih r' (by omega)).2 n k join _ i' hr' (by omega) (by omega)

theorem lexAll_length (s : Str) : (lexAll s).length ≤ s.length := by
  have : ∀ n (s : Str), s.length ≤ n → (lexAll s).length ≤ s.length := by
    intro n
    induction n with
    | zero =>
      intro s h
      obtain rfl : s = [] := List.length_eq_zero_iff.1 (by omega)
      exact Nat.le_refl _
    | succ n ih =>
      intro s h
      rw [lexAll_eq]
      cases hs : lexNext s with
      | none => simp
      | some p =>
        obtain ⟨t, rest⟩ := p
        have h1 := lexNext_shorter s t rest hs
        have h2 := ih rest (by omega)
        simp only [List.length_cons]
        omega
  exact this _ s (Nat.le_refl _)

theorem parseJoin_eq (n : Nat) (s : Str) (h : s.length < n) : ParseJoin n s = parseJoin s := by
  unfold ParseJoin parseJoin
  rw [tokens_eq n s h]
  exact (loops _ _ (Nat.le_refl _)).1 _ _ _ rfl
    (Nat.le_trans (lexAll_length s) (Nat.le_of_lt h))

end Verif.Transcript
