import Verif.Spec.Argument
import Verif.Model.Builder
import Verif.Lemmas.Number
import Verif.Lemmas.Quote
import Verif.Lemmas.Complete

/-!
# Lemmas about arguments of builder methods
-/

set_option linter.unusedSectionVars false

namespace Verif
open Spec

/-! ## Numbers -/

theorem digit_iff (c : Char) : Digit c ↔ '0'.toNat ≤ c.toNat ∧ c.toNat ≤ '9'.toNat := by
  unfold Digit
  rw [Char.le_def, Char.le_def, UInt32.le_iff_toNat_le, UInt32.le_iff_toNat_le]
  rfl

theorem parseDigits_iff (s : Str) : ∀ (acc m : Nat), parseDigits acc s = some m ↔
    (∀ c ∈ s, Digit c) ∧ m = acc * 10 ^ s.length + digitsNumber s := by
  induction s with
  | nil => intro acc m; simp [parseDigits, digitsNumber, eq_comm]
  | cons c s ih =>
    intro acc m
    rw [parseDigits]
    by_cases h : '0'.toNat ≤ c.toNat ∧ c.toNat ≤ '9'.toNat
    · rw [if_pos h, ih]
      have hd := (digit_iff c).2 h
      simp only [List.forall_mem_cons, hd, true_and, List.length_cons, digitsNumber]
      have : (acc * 10 + (c.toNat - '0'.toNat)) * 10 ^ s.length + digitsNumber s =
          acc * 10 ^ (s.length + 1) + ((c.toNat - '0'.toNat) * 10 ^ s.length + digitsNumber s) := by
        rw [Nat.pow_succ, Nat.add_mul, Nat.mul_assoc, Nat.mul_comm 10, Nat.add_assoc]
      rw [this]
    · rw [if_neg h]
      have hd : ¬ Digit c := fun hc => h ((digit_iff c).1 hc)
      simp [hd]

theorem digit_plus : ¬ Digit '+' := by rw [digit_iff]; decide
theorem digit_minus : ¬ Digit '-' := by rw [digit_iff]; decide

theorem decimal_plus (r : Str) (n : Int) :
    Decimal ('+' :: r) n ↔ r ≠ [] ∧ (∀ c ∈ r, Digit c) ∧ n = digitsNumber r := by
  constructor
  · rintro ⟨sign, ds, h, hne, hd, h'⟩
    rcases h' with ⟨rfl | rfl, rfl⟩ | ⟨rfl, rfl⟩
    · cases ds with
      | nil => exact absurd rfl hne
      | cons c ds =>
        simp only [List.nil_append, List.cons.injEq] at h
        obtain ⟨rfl, rfl⟩ := h
        exact absurd (hd _ List.mem_cons_self) digit_plus
    · simp only [List.cons_append, List.nil_append, List.cons.injEq, true_and] at h
      subst h
      exact ⟨hne, hd, rfl⟩
    · simp at h
  · rintro ⟨h1, h2, h3⟩
    exact ⟨s%"+", r, rfl, h1, h2, .inl ⟨.inr rfl, h3⟩⟩

theorem decimal_minus (r : Str) (n : Int) :
    Decimal ('-' :: r) n ↔ r ≠ [] ∧ (∀ c ∈ r, Digit c) ∧ n = -(digitsNumber r : Int) := by
  constructor
  · rintro ⟨sign, ds, h, hne, hd, h'⟩
    rcases h' with ⟨rfl | rfl, rfl⟩ | ⟨rfl, rfl⟩
    · cases ds with
      | nil => exact absurd rfl hne
      | cons c ds =>
        simp only [List.nil_append, List.cons.injEq] at h
        obtain ⟨rfl, rfl⟩ := h
        exact absurd (hd _ List.mem_cons_self) digit_minus
    · simp at h
    · simp only [List.cons_append, List.nil_append, List.cons.injEq, true_and] at h
      subst h
      exact ⟨hne, hd, rfl⟩
  · rintro ⟨h1, h2, h3⟩
    exact ⟨s%"-", r, rfl, h1, h2, .inr ⟨rfl, h3⟩⟩

theorem decimal_other {s : Str} (h1 : ∀ r, s ≠ '+' :: r) (h2 : ∀ r, s ≠ '-' :: r) (n : Int) :
    Decimal s n ↔ s ≠ [] ∧ (∀ c ∈ s, Digit c) ∧ n = digitsNumber s := by
  constructor
  · rintro ⟨sign, ds, h, hne, hd, h'⟩
    rcases h' with ⟨rfl | rfl, rfl⟩ | ⟨rfl, rfl⟩
    · simp only [List.nil_append] at h
      subst h
      exact ⟨hne, hd, rfl⟩
    · exact absurd h (h1 _)
    · exact absurd h (h2 _)
  · rintro ⟨h3, h4, h5⟩
    exact ⟨[], s, rfl, h3, h4, .inl ⟨.inl rfl, h5⟩⟩

theorem parseInt64_iff (s : Str) (n : Int) :
    parseInt64 s = some n ↔ Decimal s n ∧ -(2 ^ 63) ≤ n ∧ n < 2 ^ 63 := by
  have hd : ∀ (ds : Str), ds ≠ [] → ∀ (o : Option Nat), parseDigits 0 ds = o →
      (∀ m, o = some m ↔ (∀ c ∈ ds, Digit c) ∧ m = digitsNumber ds) := by
    intro ds _ o ho m
    rw [← ho, parseDigits_iff]
    simp
  have key : ∀ (neg : Bool) (ds : Str), (match ((neg, ds) : Bool × Str) with
      | (_, []) => none
      | (neg, ds) =>
        match parseDigits 0 ds with
        | none => none
        | some n =>
          if neg then (if n ≤ 2 ^ 63 then some (-(n : Int)) else none)
          else (if n < 2 ^ 63 then some (n : Int) else none)) = some n ↔
      (ds ≠ [] ∧ (∀ c ∈ ds, Digit c) ∧ n = if neg then -(digitsNumber ds : Int) else digitsNumber ds) ∧
        -(2 ^ 63) ≤ n ∧ n < 2 ^ 63 := by
    intro neg ds
    cases ds with
    | nil => simp
    | cons c ds =>
      have h := hd (c :: ds) (by simp) _ rfl
      simp only
      cases hp : parseDigits 0 (c :: ds) with
      | none =>
        simp only [hp] at h
        constructor
        · intro hh; cases hh
        · rintro ⟨⟨_, hc, _⟩, _⟩
          have := (h (digitsNumber (c :: ds))).2 ⟨hc, rfl⟩
          cases this
      | some m =>
        obtain ⟨hc, rfl⟩ := (h m).1 hp
        simp only [ne_eq, reduceCtorEq, not_false_eq_true, true_and]
        cases neg with
        | true =>
          simp only [if_true]
          by_cases hm : digitsNumber (c :: ds) ≤ 2 ^ 63
          · rw [if_pos hm]
            simp only [Option.some.injEq]
            constructor
            · rintro rfl; exact ⟨⟨hc, rfl⟩, by omega, by omega⟩
            · rintro ⟨⟨_, rfl⟩, _⟩; rfl
          · rw [if_neg hm]
            constructor
            · intro hh; cases hh
            · rintro ⟨⟨_, rfl⟩, h1, _⟩; omega
        | false =>
          simp only [Bool.false_eq_true, if_false]
          by_cases hm : digitsNumber (c :: ds) < 2 ^ 63
          · rw [if_pos hm]
            simp only [Option.some.injEq]
            constructor
            · rintro rfl; exact ⟨⟨hc, rfl⟩, by omega, by omega⟩
            · rintro ⟨⟨_, rfl⟩, _⟩; rfl
          · rw [if_neg hm]
            constructor
            · intro hh; cases hh
            · rintro ⟨⟨_, rfl⟩, _, h1⟩; omega
  unfold parseInt64
  split
  · rw [decimal_plus]; exact key false _
  · rw [decimal_minus]; exact key true _
  · next h1 h2 =>
    rw [decimal_other h1 h2]; exact key false _

theorem toInt64_iff (a : Any) (n : Int) (h : GoArg a) :
    toInt64 a = some n ↔ IntArg a n ∧ -(2 ^ 63) ≤ n ∧ n < 2 ^ 63 := by
  unfold toInt64
  split
  case h_10 s => rw [parseInt64_iff]; rfl
  case h_11 =>
    constructor
    · intro hh; cases hh
    · rintro ⟨hi, h1, h2⟩
      unfold IntArg at hi
      split at hi
      · next k m _ _ _ _ _ _ _ _ _ _ => cases k <;> simp_all
      · next k m _ _ _ _ _ _ _ _ _ _ => cases k <;> simp_all
      · simp_all
      · exact hi.elim
  case h_9 m =>
    simp only [GoArg, Val.InRange, UintKind.bits] at h
    split
    · next hm =>
      rw [toInt64Wrap_of_range (by omega) (by omega)]
      simp only [IntArg, Option.some.injEq, ne_eq, reduceCtorEq, not_false_eq_true, true_and]
      constructor
      · rintro rfl; exact ⟨rfl, by omega, by omega⟩
      · rintro ⟨rfl, _⟩; rfl
    · next hm =>
      simp only [IntArg, ne_eq, reduceCtorEq, not_false_eq_true, true_and, false_iff]
      rintro ⟨rfl, _, h1⟩; omega
  case h_1 m =>
    simp only [GoArg, Val.InRange, IntKind.bits] at h
    simp only [IntArg, Option.some.injEq]
    constructor
    · rintro rfl; exact ⟨rfl, by omega, by omega⟩
    · rintro ⟨rfl, _⟩; rfl
  all_goals
    simp only [GoArg, Val.InRange, IntKind.bits, UintKind.bits] at h
    rw [toInt64Wrap_of_range (by omega) (by omega)]
    simp only [IntArg, Option.some.injEq, ne_eq, reduceCtorEq, not_false_eq_true, true_and]
    constructor
    · rintro rfl; exact ⟨rfl, by omega, by omega⟩
    · rintro ⟨rfl, _⟩; rfl

/-! ## Names -/

theorem isSpace_iff (c : Char) : isSpace c = true ↔ White c := by
  have h : ∀ d : Char, c = d ↔ c.toNat = d.toNat := fun d =>
    ⟨fun h => h ▸ rfl, fun h => Char.toNat_inj.1 h⟩
  unfold isSpace White
  simp only [h, Bool.or_eq_true, decide_eq_true_eq, Bool.and_eq_true, List.mem_cons, List.not_mem_nil,
    or_false]
  have e1 : '\t'.toNat = 9 := rfl
  have e2 : '\n'.toNat = 10 := rfl
  have e3 : '\x0b'.toNat = 11 := rfl
  have e4 : '\x0c'.toNat = 12 := rfl
  have e5 : '\r'.toNat = 13 := rfl
  have e6 : ' '.toNat = 32 := rfl
  rw [e1, e2, e3, e4, e5, e6]
  omega

theorem dropWhile_white (s : Str) : ∃ a, s = a ++ s.dropWhile isSpace ∧ (∀ c ∈ a, White c) ∧
    ∀ c, (s.dropWhile isSpace).head? = some c → ¬ White c := by
  induction s with
  | nil => exact ⟨[], rfl, by simp, by simp⟩
  | cons d s ih =>
    by_cases hd : isSpace d = true
    · obtain ⟨a, h1, h2, h3⟩ := ih
      rw [List.dropWhile_cons_of_pos hd]
      refine ⟨d :: a, ?_, ?_, h3⟩
      · rw [List.cons_append, ← h1]
      · intro c hc
        rcases List.mem_cons.1 hc with rfl | hc
        · exact (isSpace_iff _).1 hd
        · exact h2 c hc
    · rw [List.dropWhile_cons_of_neg hd]
      refine ⟨[], rfl, by simp, ?_⟩
      intro c hc
      simp only [List.head?_cons, Option.some.injEq] at hc
      subst hc
      exact fun hw => hd ((isSpace_iff _).2 hw)

theorem trimmed_trimSpace (s : Str) : Trimmed s (trimSpace s) := by
  obtain ⟨a, h1, h2, h3⟩ := dropWhile_white s
  obtain ⟨b, h4, h5, h6⟩ := dropWhile_white (s.dropWhile isSpace).reverse
  have e : s.dropWhile isSpace = trimSpace s ++ b.reverse := by
    have := congrArg List.reverse h4
    rw [List.reverse_reverse, List.reverse_append] at this
    exact this
  refine ⟨a, b.reverse, ?_, h2, ?_, ?_, ?_⟩
  · rw [List.append_assoc, ← e, ← h1]
  · intro c hc; exact h5 c (List.mem_reverse.1 hc)
  · intro c hc
    refine h3 c ?_
    rw [e]
    cases ht : trimSpace s with
    | nil => rw [ht] at hc; cases hc
    | cons x t => rw [ht] at hc; exact hc
  · intro c hc
    refine h6 c ?_
    unfold trimSpace at hc
    rw [List.getLast?_reverse] at hc
    exact hc

/-- Trimming has one result. -/
theorem trimmed_unique {s u v : Str} (hu : Trimmed s u) (hv : Trimmed s v) : u = v := by
  have key : ∀ {s u : Str}, Trimmed s u → u = trimSpace s := by
    rintro s u ⟨a, b, rfl, ha, hb, h1, h2⟩
    have dropAll : ∀ (a s : Str), (∀ c ∈ a, White c) →
        (a ++ s).dropWhile isSpace = s.dropWhile isSpace := by
      intro a
      induction a with
      | nil => intro s _; rfl
      | cons d a ih =>
        intro s h
        rw [List.cons_append, List.dropWhile_cons_of_pos ((isSpace_iff _).2 (h _ List.mem_cons_self))]
        exact ih s (fun c hc => h c (List.mem_cons_of_mem _ hc))
    have dropNone : ∀ (s t : Str), (∀ c, s.head? = some c → ¬ White c) → s ≠ [] →
        (s ++ t).dropWhile isSpace = s ++ t := by
      intro s t h hne
      cases s with
      | nil => exact absurd rfl hne
      | cons c s =>
        rw [List.cons_append, List.dropWhile_cons_of_neg]
        exact fun hc => h c rfl ((isSpace_iff _).1 hc)
    have dropEnd : ∀ (s : Str), (∀ c ∈ s, White c) → s.dropWhile isSpace = [] := by
      intro s h
      have := dropAll s [] h
      simpa using this
    unfold trimSpace
    cases hu : u with
    | nil =>
      simp only [List.append_nil]
      rw [dropEnd (a ++ b) (by
        intro c hc
        rcases List.mem_append.1 hc with hc | hc
        · exact ha c hc
        · exact hb c hc)]
      rfl
    | cons x t =>
      rw [← hu, List.append_assoc, dropAll a _ ha, dropNone u b h1 (by rw [hu]; simp),
        List.reverse_append, dropAll b.reverse _ (fun c hc => hb c (List.mem_reverse.1 hc))]
      have := dropNone u.reverse [] (fun c hc => h2 c (by rwa [List.head?_reverse] at hc))
        (by rw [hu]; simp)
      simp only [List.append_nil] at this
      rw [this, List.reverse_reverse]
  rw [key hu, key hv]

theorem each_map {α β : Type} {R : α → β → Prop} (f : α → β) (h : ∀ a, R a (f a)) (l : List α) :
    Each R l (l.map f) := by
  induction l with
  | nil => exact .nil
  | cons a l ih => exact .cons (h a) ih

theorem each_fun {α β : Type} {R : α → β → Prop} {f : α → β} (h : ∀ a b, R a b → b = f a)
    {l : List α} {m : List β} (he : Each R l m) : m = l.map f := by
  induction he with
  | nil => rfl
  | cons hr _ ih => rw [List.map_cons, ← ih, h _ _ hr]

theorem intercalate_two (sep a b : Str) (l : List Str) :
    List.intercalate sep (a :: b :: l) = a ++ (sep ++ List.intercalate sep (b :: l)) := by
  simp [List.intercalate]

theorem splitOn_join (sep : Char) (s : Str) : s = List.intercalate [sep] (splitOn sep s) ∧
    ∀ p ∈ splitOn sep s, sep ∉ p := by
  induction s with
  | nil => exact ⟨rfl, by simp [splitOn]⟩
  | cons c s ih =>
    rw [splitOn]
    split
    · next h =>
      subst h
      refine ⟨?_, ?_⟩
      · cases hs : splitOn c s with
        | nil => exact absurd hs (splitOn_ne_nil _ _)
        | cons p ps =>
          rw [intercalate_two, ← hs, ← ih.1]
          rfl
      · intro p hp
        rcases List.mem_cons.1 hp with rfl | hp
        · simp
        · exact ih.2 p hp
    · next h =>
      cases hs : splitOn sep s with
      | nil => exact absurd hs (splitOn_ne_nil _ _)
      | cons p ps =>
        rw [hs] at ih
        refine ⟨?_, ?_⟩
        · simp only
          cases ps with
          | nil => rw [ih.1]; simp [List.intercalate]
          | cons q ps =>
            rw [intercalate_two]
            have := ih.1
            rw [intercalate_two] at this
            exact congrArg (c :: ·) this
        · intro q hq
          rcases List.mem_cons.1 hq with rfl | hq
          · intro hm
            rcases List.mem_cons.1 hm with rfl | hm
            · exact h rfl
            · exact ih.2 p List.mem_cons_self hm
          · exact ih.2 q (List.mem_cons_of_mem _ hq)

theorem names_iff (s : Str) (names : List Str) :
    Names s names ↔ names = (splitOn ',' s).map trimSpace ∧ ∀ n ∈ names, n ≠ [] := by
  constructor
  · rintro ⟨parts, hne, rfl, hp, he, hn⟩
    refine ⟨?_, hn⟩
    rw [splitOn_intercalate hne hp]
    exact each_fun (fun a b h => trimmed_unique h (trimmed_trimSpace a)) he
  · rintro ⟨rfl, hn⟩
    refine ⟨splitOn ',' s, splitOn_ne_nil _ _, (splitOn_join ',' s).1, (splitOn_join ',' s).2, ?_, hn⟩
    exact each_map _ trimmed_trimSpace _

theorem columnsOfString_iff (s : Str) (cs : List Column) :
    columnsOfString s = .ok cs ↔ ∃ names, Names s names ∧ cs = names.map fun n => { name := n } := by
  simp only [names_iff]
  unfold columnsOfString
  simp only
  split
  · next h =>
    constructor
    · intro hh; cases hh
    · rintro ⟨names, ⟨rfl, hn⟩, rfl⟩
      simp only [List.any_map, List.any_eq_true, Function.comp] at h
      obtain ⟨p, hp, h⟩ := h
      refine absurd ?_ (hn (trimSpace p) (List.mem_map.2 ⟨p, hp, rfl⟩))
      simpa [Column.isEmpty] using h
  · next h =>
    simp only [Except.ok.injEq]
    constructor
    · rintro rfl
      refine ⟨_, ⟨rfl, ?_⟩, by simp⟩
      intro n hn he
      apply h
      obtain ⟨p, hp, rfl⟩ := List.mem_map.1 hn
      simp only [List.any_map, List.any_eq_true, Function.comp]
      exact ⟨p, hp, by simp [Column.isEmpty, he]⟩
    · rintro ⟨names, ⟨rfl, _⟩, rfl⟩
      simp

/-- Loops that collect lists. -/
theorem collect_iff {α β : Type} {here : α → Go (List β)} {R : α → List β → Prop}
    {loop : List α → Go (List β)} (h0 : loop [] = .ok [])
    (hs : ∀ a l, loop (a :: l) = match here a with
      | .error p => .error p
      | .ok cs =>
        match loop l with
        | .error p => .error p
        | .ok rest => .ok (cs ++ rest))
    (hr : ∀ a cs, here a = .ok cs ↔ R a cs) (l : List α) (res : List β) :
    loop l = .ok res ↔ ∃ ls, Each R l ls ∧ res = ls.flatten := by
  induction l generalizing res with
  | nil =>
    rw [h0]
    constructor
    · intro h; cases h; exact ⟨[], .nil, rfl⟩
    · rintro ⟨ls, he, rfl⟩; cases he; rfl
  | cons a l ih =>
    rw [hs]
    cases hh : here a with
    | error p =>
      constructor
      · intro h; cases h
      · rintro ⟨ls, he, _⟩
        cases he with
        | cons h1 _ => rw [(hr _ _).2 h1] at hh; cases hh
    | ok cs =>
      cases hl : loop l with
      | error p =>
        constructor
        · intro h; cases h
        · rintro ⟨ls, he, _⟩
          cases he with
          | cons _ h2 => rw [(ih _).2 ⟨_, h2, rfl⟩] at hl; cases hl
      | ok rest =>
        simp only
        constructor
        · intro h
          cases h
          obtain ⟨ls, he, rfl⟩ := (ih _).1 hl
          exact ⟨cs :: ls, .cons ((hr _ _).1 hh) he, rfl⟩
        · rintro ⟨ls, he, rfl⟩
          cases he with
          | cons h1 h2 =>
            have e1 := (hr _ _).2 h1
            have e2 := (ih _).2 ⟨_, h2, rfl⟩
            rw [hh] at e1; cases e1
            rw [hl] at e2; cases e2
            simp

/-- Loops that collect elements. -/
theorem collect1_iff {α β : Type} {here : α → Go β} {R : α → β → Prop}
    {loop : List α → Go (List β)} (h0 : loop [] = .ok [])
    (hs : ∀ a l, loop (a :: l) = match here a with
      | .error p => .error p
      | .ok c =>
        match loop l with
        | .error p => .error p
        | .ok rest => .ok (c :: rest))
    (hr : ∀ a c, here a = .ok c ↔ R a c) (l : List α) (res : List β) :
    loop l = .ok res ↔ Each R l res := by
  induction l generalizing res with
  | nil =>
    rw [h0]
    constructor
    · intro h; cases h; exact .nil
    · intro he; cases he; rfl
  | cons a l ih =>
    rw [hs]
    cases hh : here a with
    | error p =>
      constructor
      · intro h; cases h
      · intro he
        cases he with
        | cons h1 _ => rw [(hr _ _).2 h1] at hh; cases hh
    | ok c =>
      cases hl : loop l with
      | error p =>
        constructor
        · intro h; cases h
        · intro he
          cases he with
          | cons _ h2 => rw [(ih _).2 h2] at hl; cases hl
      | ok rest =>
        simp only
        constructor
        · intro h
          cases h
          exact .cons ((hr _ _).1 hh) ((ih _).1 hl)
        · intro he
          cases he with
          | cons h1 h2 =>
            have e1 := (hr _ _).2 h1
            have e2 := (ih _).2 h2
            rw [hh] at e1; cases e1
            rw [hl] at e2; cases e2
            rfl

theorem columnsArg_iff (a : Any) (cs : List Column) :
    columnsOfArg a = .ok cs ↔ ColumnsArg a cs := by
  unfold columnsOfArg ColumnsArg
  split
  · rw [columnsOfString_iff]
  · next c =>
    simp only
    by_cases h : c.name = []
    · simp [Column.isEmpty, h, Go.panic]
    · simp only [Column.isEmpty, h, List.isEmpty_iff, if_false, Except.ok.injEq, ne_eq,
        not_false_eq_true, true_and]
      exact eq_comm
  · next h1 h2 =>
    constructor
    · intro h; cases h
    · intro h
      split at h
      · exact absurd rfl (h1 _)
      · exact absurd rfl (h2 _)
      · exact h.elim

theorem toColumnsLoop_iff (args : List Any) (cs : List Column) :
    toColumnsLoop args = .ok cs ↔ ∃ ls, Each ColumnsArg args ls ∧ cs = ls.flatten :=
  collect_iff (loop := toColumnsLoop) rfl (fun a l => by
    rw [toColumnsLoop]; cases columnsOfArg a <;> cases toColumnsLoop l <;> rfl) columnsArg_iff args cs

theorem selIsEmpty_iff (e : SelExpr) : e.isEmpty = .ok false ↔ selBlank e = false := by
  cases e <;> simp [SelExpr.isEmpty, selBlank, Column.isEmpty]

theorem selectsOfSelExpr_iff (s : SelExpr) (es : List SelExpr) :
    selectsOfSelExpr s = .ok es ↔ selBlank s = false ∧ es = [s] := by
  unfold selectsOfSelExpr
  rw [← selIsEmpty_iff]
  cases s.isEmpty with
  | error p => simp
  | ok b => cases b <;> simp [Go.panic, eq_comm]

theorem selectsOfString_iff (s : Str) (es : List SelExpr) : selectsOfString s = .ok es ↔
    ∃ names, Names s names ∧ es = names.map fun n => .column { name := n } := by
  unfold selectsOfString
  cases h : columnsOfString s with
  | error p =>
    constructor
    · intro hh; cases hh
    · rintro ⟨names, hn, _⟩
      rw [(columnsOfString_iff s _).2 ⟨names, hn, rfl⟩] at h
      cases h
  | ok cs =>
    obtain ⟨names, hn, rfl⟩ := (columnsOfString_iff s cs).1 h
    constructor
    · intro hh; cases hh; exact ⟨names, hn, by simp⟩
    · rintro ⟨names', hn', rfl⟩
      have := (columnsOfString_iff s _).2 ⟨names', hn', rfl⟩
      rw [h] at this
      simp only [Except.ok.injEq] at this
      have e' : names = names' := by
        have := congrArg (List.map Column.name) this
        simpa [Function.comp_def] using this
      simp [e']

theorem selectsArg_iff (a : Any) (es : List SelExpr) :
    selectsOfArg a = .ok es ↔ SelectsArg a es := by
  cases a with
  | val v =>
    cases v with
    | str s => exact selectsOfString_iff s es
    | _ => simp [selectsOfArg, Any.asSelExpr, SelectsArg, Go.panic]
  | selExpr e =>
    cases e with
    | nil => simp [selectsOfArg, Any.asSelExpr, SelectsArg, Go.panic, selBlank]
    | exist e => exact selectsOfSelExpr_iff (.exist e) es
    | notExist e => exact selectsOfSelExpr_iff (.notExist e) es
    | _ => exact selectsOfSelExpr_iff _ _
  | expr e =>
    cases e with
    | raw s =>
      refine (selectsOfSelExpr_iff (.raw s) es).trans ?_
      simp [SelectsArg, selBlank]
    | exist e => refine (selectsOfSelExpr_iff (.exist e) es).trans ?_; simp [SelectsArg, selBlank]
    | notExist e => refine (selectsOfSelExpr_iff (.notExist e) es).trans ?_; simp [SelectsArg, selBlank]
    | _ => simp [selectsOfArg, Any.asSelExpr, SelectsArg, Go.panic]
  | _ => simp [selectsOfArg, Any.asSelExpr, SelectsArg, Go.panic]

theorem toSelectExpressionsLoop_iff (args : List Any) (es : List SelExpr) :
    toSelectExpressionsLoop args = .ok es ↔ ∃ ls, Each SelectsArg args ls ∧ es = ls.flatten :=
  collect_iff (loop := toSelectExpressionsLoop) rfl (fun a l => by
    rw [toSelectExpressionsLoop]; cases selectsOfArg a <;> cases toSelectExpressionsLoop l <;> rfl) selectsArg_iff args es

theorem toTable_iff (a : Any) (t : Table) : toTable a = .ok t ↔ TableArg a t := by
  unfold toTable TableArg
  cases a with
  | val v =>
    cases v with
    | str s =>
      by_cases h : s = []
      · simp [Table.isEmpty, h, Go.panic]
      · simp only [Table.isEmpty, List.isEmpty_iff, h, if_false, Except.ok.injEq, ne_eq,
          not_false_eq_true, true_and]
        exact eq_comm
    | _ => simp [Go.panic]
  | table u =>
    by_cases h : u.name = []
    · simp [Table.isEmpty, h, Go.panic]
    · simp only [Table.isEmpty, List.isEmpty_iff, h, if_false, Except.ok.injEq, ne_eq,
        not_false_eq_true, true_and]
      exact eq_comm
  | _ => simp [Go.panic]

theorem toTables_iff (args : List Any) (ts : List Table) :
    toTables args = .ok ts ↔ Each TableArg args ts :=
  collect1_iff (loop := toTables) rfl (fun a l => by
    rw [toTables]; cases toTable a <;> cases toTables l <;> rfl) toTable_iff args ts

/-- One argument of FROM, with the values of type `stmt.From` included. -/
def FromArg' (a : Any) (i : FromItem) : Prop := FromArg a i ∨ ¬ NotFromClause a ∧ i = .nil

theorem fromArg_iff (a : Any) (i : FromItem) : fromItemOf a = .ok i ↔ FromArg' a i := by
  unfold fromItemOf FromArg' FromArg NotFromClause
  cases a with
  | val v => cases v <;> simp [Go.panic, eq_comm]
  | expr e => cases e <;> simp [Go.panic, eq_comm]
  | selExpr e => cases e <;> simp [Go.panic, eq_comm]
  | _ => simp [Go.panic, eq_comm]

theorem toFromItems_iff (args : List Any) (is : List FromItem) :
    toFromItems args = .ok is ↔ Each FromArg' args is :=
  collect1_iff (loop := toFromItems) rfl (fun a l => by
    rw [toFromItems]; cases fromItemOf a <;> cases toFromItems l <;> rfl) fromArg_iff args is

theorem each_imp {α β : Type} {R S : α → β → Prop} {l : List α} {m : List β}
    (h : ∀ a ∈ l, ∀ b, R a b → S a b) (he : Each R l m) : Each S l m := by
  induction he with
  | nil => exact .nil
  | cons hr _ ih =>
    exact .cons (h _ List.mem_cons_self _ hr) (ih fun a ha => h a (List.mem_cons_of_mem _ ha))

theorem each_nil_iff {α β : Type} {R : α → β → Prop} {l : List α} {m : List β} (he : Each R l m) :
    l = [] ↔ m = [] := by
  cases he <;> simp

theorem each_mem {α β : Type} {R : α → β → Prop} {l : List α} {m : List β} (he : Each R l m)
    {a : α} (ha : a ∈ l) : ∃ b ∈ m, R a b := by
  induction he with
  | nil => cases ha
  | cons hr _ ih =>
    rcases List.mem_cons.1 ha with rfl | ha
    · exact ⟨_, List.mem_cons_self, hr⟩
    · obtain ⟨b, hb, h⟩ := ih ha
      exact ⟨b, List.mem_cons_of_mem _ hb, h⟩

theorem toFrom_iff (args : List Any) (h : ∀ a ∈ args, NotFromClause a) (is : List FromItem) :
    toFrom args = .ok is ↔ args ≠ [] ∧ Each FromArg args is := by
  unfold toFrom
  cases hf : toFromItems args with
  | error p =>
    constructor
    · intro hh; cases hh
    · rintro ⟨_, he⟩
      rw [(toFromItems_iff _ _).2 (each_imp (fun _ _ _ => Or.inl) he)] at hf
      cases hf
  | ok is' =>
    have he := (toFromItems_iff _ _).1 hf
    have he' : Each FromArg args is' := each_imp (fun a ha b hb => by
      rcases hb with hb | ⟨hb, _⟩
      · exact hb
      · exact absurd (h a ha) hb) he
    simp only
    have hn := each_nil_iff he'
    cases hi : is' with
    | nil =>
      simp only [List.isEmpty_nil, if_true, Go.panic]
      constructor
      · intro hh; cases hh
      · rintro ⟨h1, _⟩; exact absurd (hn.2 hi) h1
    | cons i is'' =>
      simp only [List.isEmpty_cons, Bool.false_eq_true, if_false, Except.ok.injEq]
      rw [← hi]
      constructor
      · rintro rfl
        exact ⟨fun hh => (by rw [hn.1 hh] at hi; cases hi), he'⟩
      · rintro ⟨_, h2⟩
        have := (toFromItems_iff _ _).2 (each_imp (fun _ _ _ => Or.inl) h2)
        rw [hf] at this
        cases this
        rfl

end Verif
