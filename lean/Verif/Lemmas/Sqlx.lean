import Verif.Spec.Sqlx
import Verif.Lemmas.Utf8Text
import Verif.Lemmas.Keywords

/-!
# Reading the texts of `NamedQuery` with sqlx
-/

set_option linter.unusedSectionVars false
set_option linter.unusedSimpArgs false

namespace Verif
open Spec Spec.Sqlx

/-- `arg_k` -/
def argName (k : Nat) : Bytes := utf8 (s%"arg_" ++ numeral k)

/-- The text is at its end or goes on with a byte that ends a word. -/
def EndsWord (t : Bytes) : Prop :=
  ∀ b, t.head? = some b → b = 0x20 ∨ b = 0x2C ∨ b = 0x3B ∨ b = 0x28 ∨ b = 0x29

/-- Two texts that are the same except that one has `:arg_i` where the other one has `$i`, for `i`
from the first number to the one before the second. -/
inductive Swap : Nat → Nat → Bytes → Bytes → Prop
  | nil (k : Nat) : Swap k k [] []
  | byte {k m : Nat} {t q : Bytes} (b : UInt8) : Swap k m t q → Swap k m (b :: t) (b :: q)
  | hole {k m : Nat} {t q : Bytes} : EndsWord t → Swap (k + 1) m t q →
      Swap k m (0x3A :: (argName k ++ t)) (placeholder k ++ q)

theorem swap_le {k m : Nat} {t q : Bytes} (h : Swap k m t q) : k ≤ m := by
  induction h with
  | nil k => exact Nat.le_refl _
  | byte b _ ih => exact ih
  | hole _ _ ih => omega

theorem swap_bytes {k m : Nat} {t q : Bytes} (u : Bytes) (h : Swap k m t q) :
    Swap k m (u ++ t) (u ++ q) := by
  induction u with
  | nil => exact h
  | cons b u ih => exact .byte b ih

theorem utf8_append (s t : Str) : utf8 (s ++ t) = utf8 s ++ utf8 t := by
  simp [utf8]

theorem utf8_cons (c : Char) (t : Str) : utf8 (c :: t) = String.utf8EncodeChar c ++ utf8 t := rfl

theorem endsWord_delim {c : Char} (h : delim c = true) (t : Str) (T : Bytes) :
    EndsWord (utf8 (c :: t) ++ T) := by
  simp only [delim, Bool.or_eq_true, decide_eq_true_eq] at h
  intro b hb
  rcases h with (((rfl | rfl) | rfl) | rfl) | rfl <;>
  · simp only [utf8_cons, String.utf8EncodeChar] at hb
    simp at hb
    subst hb
    decide

section
variable [GoRuntime]

theorem swap_render {l : List Piece} (hj : Joined l) : ∀ {k m : Nat} {T Q : Bytes}, EndsWord T →
    Swap (k + (arguments l).length) m T Q →
    Swap k m (utf8 (render colon k l) ++ T) (utf8 (render dollar k l) ++ Q) := by
  induction hj with
  | nil => intro k m T Q _ h; simpa [render, arguments, utf8] using h
  | name n => intro k m T Q _ h; simp only [render, List.append_nil]; exact swap_bytes _ h
  | raw t => intro k m T Q _ h; simp only [render, List.append_nil]; exact swap_bytes _ h
  | val v =>
    intro k m T Q hT h
    cases v
    case nil => simp only [render, List.append_nil]; exact swap_bytes _ h
    all_goals
      simp only [render, List.append_nil]
      exact .hole hT h
  | text _ => intro k m T Q _ h; simp only [render, List.append_nil]; exact swap_bytes _ h
  | after _ _ ih =>
    intro k m T Q hT h
    simp only [render, utf8_append, List.append_assoc]
    exact swap_bytes _ (ih hT h)
  | @before a l c t _ hc _ ih1 ih2 =>
    intro k m T Q hT h
    rw [render_append, render_append, utf8_append, utf8_append, List.append_assoc, List.append_assoc]
    rw [arguments_append, List.length_append, ← Nat.add_assoc] at h
    refine ih1 ?_ (ih2 hT h)
    rw [render, utf8_append, List.append_assoc]
    exact endsWord_delim hc t _
  | @note a c _ ih =>
    intro k m T Q hT h
    rw [render_append, render_append, utf8_append, utf8_append, List.append_assoc, List.append_assoc]
    rw [arguments_append, List.length_append, ← Nat.add_assoc] at h
    refine ih ?_ ?_
    · simp only [render, List.append_nil, List.cons_append]
      exact endsWord_delim (c := ';') rfl _ _
    · simp only [render, List.append_nil]
      exact swap_bytes _ h

end

/-! ## The loop of sqlx -/

theorem loop_plain {k : Nat} {b : UInt8} (h : b ≠ 0x3A) (t : Bytes) :
    loop none k (b :: t) = (loop none k t).map fun (q, ns) => (b :: q, ns) := by
  rw [loop, if_neg h]

theorem letter_facts {b : UInt8} (h : letter b = true) :
    b ≠ 0x3A ∧ b ≠ 0x3D ∧ allowed b = true := by
  refine ⟨?_, ?_, by simp [allowed, h]⟩ <;> rintro rfl <;> revert h <;> decide

theorem allowed_facts {b : UInt8} (h : allowed b = true) : b ≠ 0x3A ∧ b ≠ 0x3D := by
  refine ⟨?_, ?_⟩ <;> rintro rfl <;> revert h <;> decide

/-- A word inside of a name is read. -/
theorem loop_word {k : Nat} {w : Bytes} (h : ∀ b ∈ w, allowed b = true) :
    ∀ (name : Bytes) {b : UInt8} {t : Bytes},
    loop (some name) k (w ++ b :: t) = loop (some (name ++ w)) k (b :: t) := by
  induction w with
  | nil => simp
  | cons a w ih =>
    intro name b t
    have ha := h a List.mem_cons_self
    rw [List.cons_append, loop, if_neg (allowed_facts ha).1,
      if_neg (by simp [(allowed_facts ha).2]), if_pos (by simp [ha]),
      ih fun x hx => h x (List.mem_cons_of_mem _ hx)]
    simp

/-- A name is read up to the byte that ends it. -/
theorem loop_hole {k : Nat} {w t : Bytes} {l : UInt8} (h : ∀ b ∈ w, allowed b = true)
    (hl : letter l = true) (ht : EndsWord t) {q : Bytes} {ns : List Bytes}
    (hr : loop none (k + 1) t = some (q, ns)) :
    loop none k (0x3A :: (w ++ [l] ++ t)) = some (placeholder k ++ q, (w ++ [l]) :: ns) := by
  rw [loop, if_pos rfl]
  cases t with
  | nil =>
    rw [List.append_nil, loop_word h, loop, if_neg (letter_facts hl).1,
      if_neg (by simp [(letter_facts hl).2.1]), if_neg (by simp), if_pos List.isEmpty_nil, if_pos hl]
    rw [loop] at hr; cases hr
    simp
  | cons b t =>
    have hb := ht b rfl
    have h1 : b ≠ 0x3A := by rcases hb with rfl | rfl | rfl | rfl | rfl <;> decide
    have h2 : b ≠ 0x3D := by rcases hb with rfl | rfl | rfl | rfl | rfl <;> decide
    have h3 : allowed b = false := by rcases hb with rfl | rfl | rfl | rfl | rfl <;> decide
    have h4 : letter b = false := by rcases hb with rfl | rfl | rfl | rfl | rfl <;> decide
    rw [loop_word (w := w ++ [l]) (by
      intro x hx
      rcases List.mem_append.1 hx with hx | hx
      · exact h x hx
      · rw [List.mem_singleton.1 hx]; exact (letter_facts hl).2.2)]
    rw [loop, if_neg h1, if_neg (by simp [h2]), if_neg (by simp [h3])]
    rw [loop_plain h1] at hr
    cases t with
    | nil =>
      rw [if_pos List.isEmpty_nil, h4]
      rw [loop] at hr; cases hr
      simp
    | cons b' t =>
      rw [if_neg (by simp)]
      cases hl' : loop none (k + 1) (b' :: t) with
      | none => rw [hl'] at hr; cases hr
      | some r => rw [hl'] at hr; cases hr; simp

/-- Every colon is followed by an equals sign. -/
def Assigns (q : Bytes) : Prop := ∀ a b, q = a ++ 0x3A :: b → b.head? = some 0x3D

theorem assigns_tail {q : Bytes} {b : UInt8} (h : Assigns (b :: q)) : Assigns q :=
  fun a c e => h (b :: a) c (by rw [e]; rfl)

theorem assigns_append {p q : Bytes} (h : Assigns (p ++ q)) : Assigns q := by
  induction p with
  | nil => exact h
  | cons b p ih => exact ih (assigns_tail h)

theorem utf8_digit {c : Char} (h : Spec.isDigit c = true) :
    ∃ b, String.utf8EncodeChar c = [b] ∧ letter b = true ∧ b ≠ 0x3A ∧ b ≠ 0x3D := by
  have h' : 48 ≤ c.toNat ∧ c.toNat ≤ 57 := by
    simp only [Spec.isDigit, Bool.and_eq_true, decide_eq_true_eq] at h
    exact h
  have e : String.utf8EncodeChar c = [UInt8.ofNat c.toNat] := by
    rw [← Raw.appendRune_eq, Raw.appendRune_ascii (by omega)]
  have hb : (UInt8.ofNat c.toNat).toNat = c.toNat := Raw.toNat_byte (by omega)
  refine ⟨_, e, ?_, ?_, ?_⟩
  · simp only [letter, hb]
    simp [h'.1, h'.2]
  · intro e; rw [e] at hb; simp at hb; omega
  · intro e; rw [e] at hb; simp at hb; omega

theorem utf8_digits {s : Str} (h : ∀ c ∈ s, Spec.isDigit c = true) :
    ∀ b ∈ utf8 s, letter b = true ∧ b ≠ 0x3A ∧ b ≠ 0x3D := by
  intro b hb
  obtain ⟨c, hc, hb⟩ := List.mem_flatMap.1 hb
  obtain ⟨x, e, hx⟩ := utf8_digit (h c hc)
  rw [e, List.mem_singleton] at hb
  rw [hb]; exact hx

theorem numeral_digits (k : Nat) : ∀ c ∈ numeral k, Spec.isDigit c = true :=
  fun _ hc => digit_of_mem_formatNat hc

theorem argName_split (k : Nat) : ∃ w l, argName k = w ++ [l] ∧ (∀ b ∈ w, allowed b = true) ∧
    letter l = true := by
  have hne : numeral k ≠ [] := formatNat_ne_nil k
  have hd := numeral_digits k
  rcases List.eq_nil_or_concat (numeral k) with h | ⟨u, c, h⟩
  · exact absurd h hne
  · rw [List.concat_eq_append] at h
    obtain ⟨x, e, hx, -⟩ := utf8_digit (hd c (by simp [h]))
    refine ⟨utf8 (s%"arg_" ++ u), x, ?_, ?_, hx⟩
    · rw [argName, h, ← List.append_assoc, utf8_append, utf8_cons, e]; rfl
    · intro b hb
      rw [utf8_append, List.mem_append] at hb
      rcases hb with hb | hb
      · have : ∀ b ∈ utf8 s%"arg_", allowed b = true := by decide
        exact this b hb
      · exact (letter_facts (utf8_digits (fun c hc => hd c (by simp [h, hc])) b hb).1).2.2

theorem swap_head {k m : Nat} {t q : Bytes} (h : Swap k m t q) (hq : q.head? = some 0x3D) :
    t.head? = some 0x3D := by
  cases h with
  | nil k => cases hq
  | byte b _ => exact hq
  | hole _ _ => revert hq; simp [placeholder, utf8_cons, String.utf8EncodeChar]

/-- The names of the parameters from `k` to `m - 1`. -/
def argBytes (k m : Nat) : List Bytes := (List.range' k (m - k)).map argName

/-- Where the colons of the text with `$1`, `$2`, ... are followed by equals signs, sqlx makes this
text of the other one. -/
theorem loop_swap {k m : Nat} {t q : Bytes} (h : Swap k m t q) (hq : Assigns q) :
    loop none k t = some (q, argBytes k m) := by
  induction h with
  | nil k => simp [loop, argBytes]
  | @byte k m t q b hs ih =>
    have ih := ih (assigns_tail hq)
    by_cases hb : b = 0x3A
    · subst hb
      have h1 := hq [] q rfl
      have h2 := swap_head hs h1
      cases t with
      | nil => cases h2
      | cons x t =>
        cases q with
        | nil => cases h1
        | cons y q =>
          cases h1; cases h2
          rw [loop_plain (by decide)] at ih
          rw [loop, if_pos rfl, loop, if_neg (by decide), if_pos (by decide)]
          cases hl : loop none k t with
          | none => rw [hl] at ih; cases ih
          | some r =>
            rw [hl] at ih
            simp only [Option.map_some, Option.some.injEq, Prod.mk.injEq, List.cons.injEq,
              true_and] at ih ⊢
            simp [ih.1, ih.2]
    · rw [loop_plain hb, ih]; rfl
  | @hole k m t q ht hs ih =>
    have ih := ih (assigns_append hq)
    obtain ⟨w, l, e, hw, hl⟩ := argName_split k
    rw [e, loop_hole hw hl ht ih, ← e]
    have := swap_le hs
    rw [argBytes, argBytes, show m - k = (m - (k + 1)) + 1 from by omega, List.range'_succ,
      List.map_cons]

/-! ## What sqlx makes of other texts -/

/-- The number of colons. -/
def colonCount (t : Bytes) : Nat := t.count 0x3A

/-- The number of colons that are followed by an equals sign. -/
def assignCount : Bytes → Nat
  | [] => 0
  | b :: t => (if b = 0x3A ∧ t.head? = some 0x3D then 1 else 0) + assignCount t

theorem assignCount_le (t : Bytes) : assignCount t ≤ colonCount t := by
  induction t with
  | nil => exact Nat.le_refl _
  | cons b t ih =>
    simp only [assignCount, colonCount, List.count_cons] at ih ⊢
    by_cases h : b = 0x3A <;> by_cases h' : t.head? = some 0x3D <;> simp [h, h'] <;> omega

theorem assigns_of_count {t : Bytes} (h : assignCount t = colonCount t) : Assigns t := by
  induction t with
  | nil => intro a b e; simp at e
  | cons b t ih =>
    have hle := assignCount_le t
    simp only [assignCount, colonCount, List.count_cons] at h ih hle
    have ht : assignCount t = t.count 0x3A := by
      by_cases h1 : b = 0x3A <;> by_cases h2 : t.head? = some 0x3D <;> simp [h1, h2] at h <;> omega
    intro a c e
    cases a with
    | nil =>
      simp only [List.nil_append, List.cons.injEq] at e
      obtain ⟨rfl, rfl⟩ := e
      by_cases h2 : t.head? = some 0x3D
      · exact h2
      · simp [h2] at h; omega
    | cons x a =>
      simp only [List.cons_append, List.cons.injEq] at e
      exact ih ht a c e.2

theorem placeholder_count (k : Nat) (q : Bytes) :
    colonCount (placeholder k ++ q) = colonCount q := by
  have : (placeholder k).count 0x3A = 0 := by
    rw [List.count_eq_zero, placeholder, utf8_append, List.mem_append]
    rintro (h | h)
    · revert h; decide
    · exact (utf8_digits (numeral_digits k) _ h).2.1 rfl
  rw [colonCount, List.count_append, this, colonCount]; omega

theorem loop_count : ∀ (t : Bytes) (st : Option Bytes) (k : Nat) (q : Bytes) (ns : List Bytes),
    loop st k t = some (q, ns) →
    let held := if st.isSome then 1 else 0
    let before := if st = some [] then assignCount (0x3A :: t) else assignCount t
    ns.length + colonCount q ≤ colonCount t + held ∧
    (ns.length + colonCount q = colonCount t + held → colonCount q ≤ before) := by
  intro t
  induction t with
  | nil =>
    intro st k q ns h
    rw [loop] at h; cases h
    simp [colonCount]
  | cons b t ih =>
    intro st k q ns h
    cases st with
    | none =>
      rw [loop] at h
      split at h
      · next hb =>
        have := ih _ _ _ _ h
        simp only [Option.isSome_some, if_true, Option.isSome_none, Bool.false_eq_true, if_false,
          reduceCtorEq] at this ⊢
        subst hb
        simpa [colonCount] using this
      · next hb =>
        cases hl : loop none k t with
        | none => rw [hl] at h; cases h
        | some r =>
          rw [hl] at h; cases h
          have := ih _ _ _ _ hl
          simp only [Option.isSome_none, Bool.false_eq_true, if_false, reduceCtorEq, assignCount,
            hb, false_and] at this ⊢
          simpa [colonCount, List.count_cons, hb] using this
    | some name =>
      rw [loop] at h
      split at h
      · next hb =>
        subst hb
        split at h
        · next hn =>
          cases hl : loop none k t with
          | none => rw [hl] at h; cases h
          | some r =>
            rw [hl] at h; cases h
            have := ih _ _ _ _ hl
            simp only [Option.isSome_none, Bool.false_eq_true, if_false, reduceCtorEq,
              Option.isSome_some, if_true, colonCount, List.count_cons] at this ⊢
            simp
            omega
        · cases h
      · next hb =>
        split at h
        · next he =>
          simp only [Bool.and_eq_true, decide_eq_true_eq, List.isEmpty_iff] at he
          obtain ⟨rfl, rfl⟩ := he
          cases hl : loop none k t with
          | none => rw [hl] at h; cases h
          | some r =>
            rw [hl] at h; cases h
            have := ih _ _ _ _ hl
            simp [colonCount, assignCount] at this ⊢
            omega
        · next he =>
          have hbefore : (if some name = some [] then assignCount (0x3A :: b :: t)
              else assignCount (b :: t)) = assignCount t := by
            simp only [Bool.and_eq_true, decide_eq_true_eq, List.isEmpty_iff, not_and] at he
            by_cases hn : name = []
            · have : b ≠ 0x3D := fun e => he e hn
              simp [hn, assignCount, hb, this]
            · simp [hn, assignCount, hb]
          simp only [hbefore]
          split at h
          · have := ih _ _ _ _ h
            simp [colonCount, List.count_cons, hb] at this ⊢
            omega
          · split at h
            · next ht =>
              rw [List.isEmpty_iff] at ht
              subst ht
              split at h
              · cases h
                have := placeholder_count k []
                simp [colonCount, List.count_cons, hb] at this ⊢
                omega
              · cases h
                have := placeholder_count k [b]
                simp [colonCount, List.count_cons, hb] at this ⊢
                omega
            · cases hl : loop none (k + 1) t with
              | none => rw [hl] at h; cases h
              | some r =>
                rw [hl] at h; cases h
                have := ih _ _ _ _ hl
                have hp := placeholder_count k (b :: r.1)
                simp [colonCount, List.count_cons, hb] at this hp ⊢
                omega

theorem assignCount_prefix {w : Bytes} (h : 0x3A ∉ w) (t : Bytes) :
    assignCount (w ++ t) = assignCount t := by
  induction w with
  | nil => rfl
  | cons b w ih =>
    simp only [List.mem_cons, not_or] at h
    rw [List.cons_append, assignCount, if_neg (fun e => h.1 e.1.symm), ih h.2, Nat.zero_add]

theorem argName_colon (k : Nat) : (0x3A : UInt8) ∉ argName k := by
  rw [argName, utf8_append, List.mem_append]
  rintro (h | h)
  · revert h; decide
  · exact (utf8_digits (numeral_digits k) _ h).2.1 rfl

theorem placeholder_colon (k : Nat) : (0x3A : UInt8) ∉ placeholder k := by
  rw [placeholder, utf8_append, List.mem_append]
  rintro (h | h)
  · revert h; decide
  · exact (utf8_digits (numeral_digits k) _ h).2.1 rfl

theorem swap_head' {k m : Nat} {t q : Bytes} (h : Swap k m t q) :
    t.head? = some 0x3D ↔ q.head? = some 0x3D := by
  refine ⟨fun ht => ?_, swap_head h⟩
  cases h with
  | nil k => exact ht
  | byte b _ => exact ht
  | hole _ _ => cases ht

theorem swap_counts {k m : Nat} {t q : Bytes} (h : Swap k m t q) :
    colonCount t = colonCount q + (m - k) ∧ assignCount t = assignCount q := by
  induction h with
  | nil k => simp [colonCount, assignCount]
  | byte b hs ih =>
    have := swap_head' hs
    simp only [colonCount, List.count_cons, assignCount, this] at ih ⊢
    omega
  | @hole k m t q ht hs ih =>
    have hle := swap_le hs
    rw [placeholder_count, assignCount_prefix (placeholder_colon k)]
    have h1 : assignCount (0x3A :: (argName k ++ t)) = assignCount t := by
      rw [assignCount, assignCount_prefix (argName_colon k), if_neg, Nat.zero_add]
      rintro ⟨-, h⟩
      cases h
    have h2 : colonCount (0x3A :: (argName k ++ t)) = colonCount t + 1 := by
      simp [colonCount, List.count_eq_zero.2 (argName_colon k)]
    rw [h1, h2]
    omega

/-- Exactly then. -/
theorem assigns_of_loop {k m : Nat} {t q : Bytes} {ns : List Bytes} (h : Swap k m t q)
    (hl : loop none k t = some (q, ns)) (hn : ns.length = m - k) : Assigns q := by
  obtain ⟨-, h2⟩ := loop_count t none k q ns hl
  obtain ⟨h3, h4⟩ := swap_counts h
  simp only [Option.isSome_none, Bool.false_eq_true, if_false, reduceCtorEq] at h2
  have h5 := h2 (by omega)
  have h6 := assignCount_le q
  exact assigns_of_count (by omega)

/-! ## Bytes and characters -/

theorem assigns_cons {b : UInt8} {t : Bytes} :
    Assigns (b :: t) ↔ (b = 0x3A → t.head? = some 0x3D) ∧ Assigns t := by
  refine ⟨fun h => ⟨fun e => h [] t (by rw [e]; rfl), assigns_tail h⟩, fun ⟨h1, h2⟩ a c e => ?_⟩
  cases a with
  | nil =>
    simp only [List.nil_append, List.cons.injEq] at e
    rw [← e.2]; exact h1 e.1
  | cons x a =>
    simp only [List.cons_append, List.cons.injEq] at e
    exact h2 a c e.2

theorem colonsAssign_cons {c : Char} {t : Str} :
    ColonsAssign (c :: t) ↔ (c = ':' → t.head? = some '=') ∧ ColonsAssign t := by
  refine ⟨fun h => ⟨fun e => h [] t (by rw [e]; rfl), fun a d e => h (c :: a) d (by rw [e]; rfl)⟩,
    fun ⟨h1, h2⟩ a d e => ?_⟩
  cases a with
  | nil =>
    simp only [List.nil_append, List.cons.injEq] at e
    rw [← e.2]; exact h1 e.1
  | cons x a =>
    simp only [List.cons_append, List.cons.injEq] at e
    exact h2 a d e.2

theorem assigns_prefix {w t : Bytes} (h : 0x3A ∉ w) : Assigns (w ++ t) ↔ Assigns t := by
  induction w with
  | nil => rfl
  | cons b w ih =>
    simp only [List.mem_cons, not_or] at h
    rw [List.cons_append, assigns_cons, ih h.2]
    exact ⟨fun x => x.2, fun x => ⟨fun e => absurd e.symm h.1, x⟩⟩

theorem encode_ascii {c : Char} {x : UInt8} (hx : x.toNat < 0x80) (h : x ∈ String.utf8EncodeChar c) :
    c.toNat = x.toNat := by
  rw [← Raw.appendRune_eq] at h
  by_cases hc : c.toNat < 0x80
  · rw [Raw.appendRune_ascii hc, List.mem_singleton] at h
    rw [h, Raw.toNat_byte (by omega)]
  · have := Raw.appendRune_high (by omega) x h
    omega

theorem char_of_toNat {c d : Char} (h : c.toNat = d.toNat) : c = d := by
  rw [← Char.ofNat_toNat c, ← Char.ofNat_toNat d, h]

theorem utf8_head {q : Str} : (utf8 q).head? = some 0x3D ↔ q.head? = some '=' := by
  cases q with
  | nil => simp [utf8]
  | cons c q =>
    constructor
    · intro h
      rw [utf8_cons] at h
      have hne : String.utf8EncodeChar c ≠ [] := by
        rw [← Raw.appendRune_eq]; exact Raw.appendRune_ne_nil c
      cases he : String.utf8EncodeChar c with
      | nil => exact absurd he hne
      | cons x w =>
        rw [he] at h
        simp at h
        have := encode_ascii (c := c) (x := x) (by rw [h]; decide) (by simp [he])
        rw [h] at this
        rw [char_of_toNat (d := '=') this]; rfl
    · intro h
      simp at h
      subst h; rfl

theorem assigns_utf8 {q : Str} : Assigns (utf8 q) ↔ ColonsAssign q := by
  induction q with
  | nil => exact ⟨fun _ a b e => by simp at e, fun _ a b e => by simp [utf8] at e⟩
  | cons c q ih =>
    rw [colonsAssign_cons, utf8_cons, ← ih]
    by_cases hc : c = ':'
    · subst hc
      rw [show String.utf8EncodeChar ':' = [0x3A] from rfl, List.singleton_append, assigns_cons,
        utf8_head]
      simp
    · rw [assigns_prefix]
      · simp [hc]
      · intro h
        exact hc (char_of_toNat (d := ':') (encode_ascii (by decide) h))

/-! ## The map -/

theorem argName_inj {i j : Nat} (h : argName i = argName j) : i = j := by
  have h := (List.append_cancel_left (Raw.ofRunes_inj
    ((Raw.ofRunes_eq _).trans (h.trans (Raw.ofRunes_eq _).symm))))
  exact formatNat_inj h

theorem utf8_inj {s t : Str} (h : utf8 s = utf8 t) : s = t :=
  Raw.ofRunes_inj ((Raw.ofRunes_eq _).trans (h.trans (Raw.ofRunes_eq _).symm))

theorem bindMap_length {m : Option (List (Str × Val))} {ns : List Bytes} {vs : List Val}
    (h : bindMap m ns = some vs) : vs.length = ns.length := by
  induction ns generalizing vs with
  | nil => cases h; rfl
  | cons n ns ih =>
    rw [bindMap] at h
    split at h
    · cases h
    · cases hb : bindMap m ns with
      | none => rw [hb] at h; cases h
      | some ws => rw [hb] at h; cases h; simp [ih hb]

theorem find_key {l : List (Str × Val)} (hn : (l.map (·.1)).Nodup) {kv : Str × Val} (h : kv ∈ l) :
    l.find? (fun x => utf8 x.1 = utf8 kv.1) = some kv := by
  induction l with
  | nil => cases h
  | cons x l ih =>
    simp only [List.map_cons, List.nodup_cons] at hn
    rw [List.find?_cons]
    rcases List.mem_cons.1 h with rfl | h
    · simp
    · have hne : x.1 ≠ kv.1 := fun e => hn.1 (List.mem_map.2 ⟨kv, h, e.symm⟩)
      have : ¬utf8 x.1 = utf8 kv.1 := fun e => hne (utf8_inj e)
      simp only [this, decide_false]
      exact ih hn.2 h

theorem bindMap_keys {m : Option (List (Str × Val))} (hn : ((m.getD []).map (·.1)).Nodup)
    {l : List (Str × Val)} (h : ∀ kv ∈ l, kv ∈ m.getD []) :
    bindMap m (l.map fun kv => utf8 kv.1) = some (l.map (·.2)) := by
  induction l with
  | nil => rfl
  | cons kv l ih =>
    rw [List.map_cons, bindMap, find_key hn (h kv List.mem_cons_self),
      ih fun x hx => h x (List.mem_cons_of_mem _ hx)]
    rfl

theorem bindMap_named (vs : List Val) :
    bindMap (namedArgs vs) (argBytes 1 (1 + vs.length)) = some vs := by
  have hl : (namedArgs vs).getD [] = (argNames vs.length).zip vs := by
    cases vs with
    | nil => rfl
    | cons v vs => rfl
  have hlen : (argNames vs.length).length = vs.length := by simp [argNames]
  have h1 : ((argNames vs.length).zip vs).map (·.1) = argNames vs.length :=
    List.map_fst_zip (by omega)
  have h2 : ((argNames vs.length).zip vs).map (·.2) = vs := List.map_snd_zip (by omega)
  have hnames : argBytes 1 (1 + vs.length) = (argNames vs.length).map utf8 := by
    rw [argBytes, argNames, List.map_map, Nat.add_sub_cancel_left]; rfl
  have hn : (argNames vs.length).Nodup := by
    refine List.Pairwise.map _ ?_ (List.nodup_range' (n := vs.length) 1 (by decide))
    intro i j hne e
    exact hne (formatNat_inj (List.append_cancel_left e))
  have := bindMap_keys (m := namedArgs vs) (l := (argNames vs.length).zip vs)
    (by rw [hl, h1]; exact hn) (fun kv hkv => by rw [hl]; exact hkv)
  rw [h2] at this
  have h3 : ((argNames vs.length).zip vs).map (fun kv => utf8 kv.1)
      = (argNames vs.length).map utf8 := by
    conv => rhs; rw [← h1, List.map_map]
    rfl
  rw [hnames, ← h3]
  exact this

/-- What sqlx sends for the text and the map of NamedQuery is the text and the arguments of Query,
if and only if all colons in the text of Query are followed by equals signs. -/
theorem send_iff [GoRuntime] (s : Stmt) :
    send (render colon 1 (layout s)) (namedArgs (arguments (layout s)))
      = some (utf8 (render dollar 1 (layout s)), arguments (layout s))
    ↔ ColonsAssign (render dollar 1 (layout s)) := by
  have hs : Swap 1 (1 + (arguments (layout s)).length) (utf8 (render colon 1 (layout s)))
      (utf8 (render dollar 1 (layout s))) := by
    have := swap_render (joined_layout s) (k := 1) (T := []) (Q := []) (by intro b hb; cases hb)
      (.nil _)
    simpa using this
  rw [← assigns_utf8]
  constructor
  · intro h
    unfold send compile at h
    split at h
    · cases h
    · next q ns hl =>
      cases hb : bindMap (namedArgs (arguments (layout s))) ns with
      | none => rw [hb] at h; cases h
      | some vs =>
        rw [hb] at h
        simp only [Option.map_some, Option.some.injEq, Prod.mk.injEq] at h
        obtain ⟨rfl, rfl⟩ := h
        refine assigns_of_loop hs hl ?_
        rw [← bindMap_length hb]; omega
  · intro h
    unfold send compile
    rw [loop_swap hs h]
    simp only [bindMap_named, Option.map_some]

/-! ## Texts without colons -/

theorem hexDigit_colon {n : Nat} (h : n < 16) : hexDigit n ≠ ':' := by
  revert n; decide

theorem hexFixed_colon (w n : Nat) : ':' ∉ hexFixed w n := by
  induction w generalizing n with
  | zero => simp [hexFixed]
  | succ w ih =>
    simp only [hexFixed, List.mem_append, List.mem_singleton, not_or]
    exact ⟨ih _, fun e => hexDigit_colon (Nat.mod_lt _ (by decide)) e.symm⟩

section
variable [GoRuntime]

theorem quoteRune_colon {c : Char} (h : c ≠ ':') : ':' ∉ quoteRune c := by
  have h' : ':' ≠ c := Ne.symm h
  unfold quoteRune
  refine ite_ind (P := fun s => ':' ∉ s) (fun _ => ?_) (fun _ => ?_)
  · exact List.not_mem_cons_of_ne_of_not_mem (by decide) (by simpa using h')
  refine ite_ind (P := fun s => ':' ∉ s) (fun _ => ?_) (fun _ => ?_)
  · simpa using h'
  iterate 7 refine ite_ind (P := fun s => ':' ∉ s) (fun _ => (by decide)) (fun _ => ?_)
  refine ite_ind (P := fun s => ':' ∉ s) (fun _ => ?_) (fun _ => ?_)
  · exact fun e => (List.mem_append.1 e).elim (by decide) (hexFixed_colon _ _)
  refine ite_ind (P := fun s => ':' ∉ s) (fun _ => ?_) (fun _ => ?_)
  · exact fun e => (List.mem_append.1 e).elim (by decide) (hexFixed_colon _ _)
  · exact fun e => (List.mem_append.1 e).elim (by decide) (hexFixed_colon _ _)

theorem joinWith_colon {l : List Str} (h : ∀ p ∈ l, ':' ∉ p) : ':' ∉ joinWith s%"." l := by
  induction l with
  | nil => simp [joinWith]
  | cons a l ih =>
    cases l with
    | nil => simpa [joinWith] using h a List.mem_cons_self
    | cons b l =>
      rw [joinWith, List.mem_append, List.mem_append]
      rintro ((e | e) | e)
      · exact h a List.mem_cons_self e
      · revert e; decide
      · exact ih (fun p hp => h p (List.mem_cons_of_mem _ hp)) e

theorem quote_colon {n : Str} (h : ':' ∉ n) : ':' ∉ quote n := by
  refine joinWith_colon ?_
  intro p hp
  obtain ⟨u, hu, rfl⟩ := List.mem_map.1 hp
  rw [goQuote, List.mem_append, List.mem_append]
  rintro ((e | e) | e)
  · revert e; decide
  · obtain ⟨c, hc, he⟩ := List.mem_flatMap.1 e
    exact quoteRune_colon (fun e => h (mem_splitOn hu _ (e ▸ hc))) he
  · revert e; decide

theorem render_colon {l : List Piece} (hf : Fixed l) (h : ∀ p ∈ l, ':' ∉ givenText p) (k : Nat) :
    ':' ∉ render dollar k l := by
  have hdollar : ∀ k v, ':' ∉ dollar k v := by
    intro k v e
    rw [dollar, List.mem_append] at e
    rcases e with e | e
    · revert e; decide
    · have : Spec.isDigit ':' = true := digit_of_mem_formatNat e
      revert this; decide
  induction l generalizing k with
  | nil => simp [render]
  | cons p l ih =>
    have ih := ih (fun t ht => hf t (List.mem_cons_of_mem _ ht))
      (fun q hq => h q (List.mem_cons_of_mem _ hq))
    have hp := h p List.mem_cons_self
    cases p with
    | sql t =>
      have ht := hf t List.mem_cons_self
      rw [render, List.mem_append]
      rintro (e | e)
      · have := List.all_eq_true.1 ht _ e
        revert this; decide
      · exact ih k e
    | name n =>
      rw [render, List.mem_append]
      exact fun e => e.elim (quote_colon hp) (ih k)
    | raw t =>
      rw [render, List.mem_append]
      exact fun e => e.elim hp (ih k)
    | note c =>
      rw [render, List.mem_append, List.mem_append]
      exact fun e => e.elim (fun e => e.elim (by decide) hp) (ih k)
    | val v =>
      cases v
      case nil =>
        rw [render, List.mem_append]
        exact fun e => e.elim (by decide) (ih k)
      all_goals
        rw [render, List.mem_append]
        · exact fun e => e.elim (hdollar _ _) (ih _)
        · intro e; cases e

end

end Verif
