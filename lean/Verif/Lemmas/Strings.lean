import Verif.Spec
import Verif.Lemmas.Float
import Verif.Lemmas.Uts35

/-! Helper lemmas: decimal text and the string conversion. -/

namespace Verif.Strings
open Verif Uts35 Spec PluralOperands

/-! ## Digits -/

theorem digitChar_toNat (d : Fin 10) : (digitChar d).toNat = 48 + d.val := by
  revert d; decide

theorem digitVal_digitChar (d : Fin 10) : digitVal (digitChar d) = d.val := by
  revert d; decide

theorem isDigit_digitChar (d : Fin 10) : isDigit (digitChar d) = true := by
  revert d; decide

theorem digitChar_inj {a b : Fin 10} (h : digitChar a = digitChar b) : a = b := by
  have := congrArg Char.toNat h
  rw [digitChar_toNat, digitChar_toNat] at this
  exact Fin.ext (by omega)

theorem digitChar_ne (d : Fin 10) (c : Char) (h : isDigit c = false) : digitChar d ≠ c := by
  rintro rfl
  rw [isDigit_digitChar] at h
  cases h

theorem exists_digit (c : Char) (h : isDigit c = true) : ∃ d, c = digitChar d := by
  simp only [isDigit, Bool.and_eq_true, decide_eq_true_eq] at h
  have h1 : '0'.toNat = 48 := rfl
  have h2 : '9'.toNat = 57 := rfl
  refine ⟨⟨c.toNat - 48, by omega⟩, ?_⟩
  apply Char.toNat_inj.mp
  rw [digitChar_toNat]
  simp only
  omega

theorem all_digits (s : Str) (h : s.all isDigit = true) : ∃ l, s = digitText l := by
  induction s with
  | nil => exact ⟨[], rfl⟩
  | cons c s ih =>
    simp only [List.all_cons, Bool.and_eq_true] at h
    obtain ⟨d, rfl⟩ := exists_digit c h.1
    obtain ⟨l, rfl⟩ := ih h.2
    exact ⟨d :: l, rfl⟩

theorem digitText_all (l : List (Fin 10)) : (digitText l).all isDigit = true := by
  simp [digitText, isDigit_digitChar]

theorem digitText_append (a b : List (Fin 10)) : digitText (a ++ b) = digitText a ++ digitText b := by
  simp [digitText]

theorem digitText_inj {a b : List (Fin 10)} (h : digitText a = digitText b) : a = b :=
  List.map_injective_iff.2 (fun _ _ => digitChar_inj) h

theorem digitText_eq_nil {a : List (Fin 10)} : digitText a = [] ↔ a = [] := by simp [digitText]

theorem digitsNum_append (a b : List (Fin 10)) : digitsNum (a ++ b) = digitsNum a * 10 ^ b.length + digitsNum b := by
  induction a with
  | nil => simp [digitsNum]
  | cons d a ih => simp only [List.cons_append, digitsNum, ih, List.length_append, pow_add]; ring

theorem foldl_digits (l : List (Fin 10)) (a : Nat) :
    (digitText l).foldl (fun a c => a * 10 + digitVal c) a = a * 10 ^ l.length + digitsNum l := by
  induction l generalizing a with
  | nil => simp [digitText, digitsNum]
  | cons d l ih =>
    have : digitText (d :: l) = digitChar d :: digitText l := rfl
    rw [this, List.foldl_cons, ih, digitVal_digitChar]
    simp only [digitsNum, List.length_cons, pow_succ]; ring

theorem digitsVal_digitText (l : List (Fin 10)) : digitsVal (digitText l) = digitsNum l := by
  rw [digitsVal, foldl_digits]; simp

/-- Text that starts with a digit does not start with this character. -/
theorem digitText_cons (d : Fin 10) (l : List (Fin 10)) : digitText (d :: l) = digitChar d :: digitText l := rfl

theorem takeWhile_digits (l : List (Fin 10)) (r : Str) (h : ∀ c t, r = c :: t → isDigit c = false) :
    (digitText l ++ r).takeWhile isDigit = digitText l ∧ (digitText l ++ r).dropWhile isDigit = r := by
  induction l with
  | nil =>
    cases r with
    | nil => exact ⟨rfl, rfl⟩
    | cons c t => simp [digitText, h c t rfl]
  | cons d l ih =>
    simp only [digitText_cons, List.cons_append, List.takeWhile_cons, List.dropWhile_cons, isDigit_digitChar, if_true, ih,
      and_self]

/-- Any text is digits and a rest that does not start with a digit. -/
theorem split_digits (s : Str) : ∃ l r, s = digitText l ++ r ∧ (∀ c t, r = c :: t → isDigit c = false) := by
  induction s with
  | nil => exact ⟨[], [], rfl, by simp⟩
  | cons c s ih =>
    by_cases h : isDigit c = true
    · obtain ⟨l, r, rfl, hr⟩ := ih
      obtain ⟨d, rfl⟩ := exists_digit c h
      exact ⟨d :: l, r, rfl, hr⟩
    · exact ⟨[], c :: s, rfl, by rintro c' t h'; cases h'; simpa using h⟩

/-! ## Unsigned integers -/

theorem parseUnsigned_digits (b : Nat) (l : List (Fin 10)) :
    parseUnsigned b (digitText l) = if l ≠ [] ∧ digitsNum l < 2 ^ b then some (digitsNum l) else none := by
  cases l with
  | nil => rfl
  | cons d l =>
    have hb : stripPlus (digitText (d :: l)) = digitText (d :: l) := by
      rw [digitText_cons, stripPlus, if_neg (digitChar_ne d '+' rfl)]
    unfold parseUnsigned
    simp only [hb, digitText_all, Bool.not_true, Bool.false_eq_true, if_false, digitsVal_digitText]
    rw [if_neg (by simp [digitText_cons])]
    simp

/-- What `u64::from_str` accepts. -/
theorem parseUnsigned_some (b : Nat) (s : Str) (x : Nat) : parseUnsigned b s = some x ↔
    ∃ l, (s = digitText l ∨ s = '+' :: digitText l) ∧ l ≠ [] ∧ digitsNum l = x ∧ x < 2 ^ b := by
  constructor
  · intro h
    unfold parseUnsigned at h
    simp only at h
    split_ifs at h with h1 h2 h3
    simp only [Option.some.injEq] at h
    simp only [Bool.not_eq_true', Bool.not_eq_false] at h2
    obtain ⟨l, hl⟩ := all_digits _ h2
    rw [hl, digitsVal_digitText] at h h3
    refine ⟨l, ?_, ?_, h, h ▸ h3⟩
    · cases s with
      | nil => left; exact hl
      | cons c t =>
        by_cases hc : c = '+'
        · subst hc; right; rw [← hl]; rfl
        · left
          rw [← hl, stripPlus, if_neg hc]
    · rintro rfl
      rw [hl] at h1
      simp [digitText] at h1
  · rintro ⟨l, h1, h2, h3, h4⟩
    rcases h1 with rfl | rfl
    · rw [parseUnsigned_digits, if_pos ⟨h2, h3 ▸ h4⟩, h3]
    · have hb : stripPlus ('+' :: digitText l) = digitText l := rfl
      unfold parseUnsigned
      simp only [hb, digitText_all, Bool.not_true, Bool.false_eq_true, if_false, digitsVal_digitText]
      rw [if_neg (by simpa [digitText_eq_nil] using h2), if_pos (h3 ▸ h4), h3]

/-! ## The point -/

theorem splitPoint_none (s : Str) : splitPoint s = none ↔ '.' ∉ s := by
  induction s with
  | nil => simp [splitPoint]
  | cons c s ih =>
    unfold splitPoint
    by_cases hc : c = '.'
    · subst hc; simp
    · rw [if_neg (by simpa using hc)]
      cases h : splitPoint s with
      | none =>
        simp only [List.mem_cons, not_or, true_iff]
        exact ⟨fun h => hc h.symm, ih.1 h⟩
      | some p =>
        simp only [List.mem_cons, not_or, reduceCtorEq, false_iff, not_and, not_not]
        intro _
        by_contra h'
        rw [ih.2 h'] at h
        cases h

theorem splitPoint_some (s a b : Str) : splitPoint s = some (a, b) ↔ s = a ++ '.' :: b ∧ '.' ∉ a := by
  induction s generalizing a with
  | nil => simp [splitPoint]
  | cons c s ih =>
    unfold splitPoint
    by_cases hc : c = '.'
    · subst hc
      simp only [beq_self_eq_true, if_true, Option.some.injEq, Prod.mk.injEq]
      constructor
      · rintro ⟨rfl, rfl⟩; simp
      · rintro ⟨h1, h2⟩
        cases a with
        | nil => simpa using h1
        | cons x a =>
          simp only [List.cons_append, List.cons.injEq] at h1
          rw [← h1.1] at h2
          simp at h2
    · rw [if_neg (by simpa using hc)]
      cases h : splitPoint s with
      | none =>
        simp only [reduceCtorEq, false_iff, not_and]
        intro h1
        have := (splitPoint_none s).1 h
        cases a with
        | nil => simp only [List.nil_append, List.cons.injEq] at h1; exact absurd h1.1 hc
        | cons x a =>
          simp only [List.cons_append, List.cons.injEq] at h1
          rw [h1.2] at this
          simp at this
      | some p =>
        obtain ⟨a', b'⟩ := p
        simp only [Option.some.injEq, Prod.mk.injEq]
        constructor
        · rintro ⟨rfl, rfl⟩
          obtain ⟨h1, h2⟩ := (ih a').1 h
          refine ⟨by rw [h1]; rfl, ?_⟩
          simp only [List.mem_cons, not_or]
          exact ⟨fun h => hc h.symm, h2⟩
        · rintro ⟨h1, h2⟩
          cases a with
          | nil => simp only [List.nil_append, List.cons.injEq] at h1; exact absurd h1.1 hc
          | cons x a =>
            simp only [List.cons_append, List.cons.injEq] at h1
            obtain ⟨rfl, h1⟩ := h1
            have := (ih a).2 ⟨h1, fun h => h2 (by simp [h])⟩
            rw [h] at this
            simp only [Option.some.injEq, Prod.mk.injEq] at this
            exact ⟨by rw [this.1], this.2⟩

theorem point_notin_digits (l : List (Fin 10)) : '.' ∉ digitText l := by
  intro h
  obtain ⟨d, -, hd⟩ := List.mem_map.1 h
  exact digitChar_ne d '.' rfl hd

/-! ## Trailing zeros -/

theorem all_zero_replicate (l : List (Fin 10)) (h : l.all (· == 0) = true) : l = List.replicate l.length 0 := by
  induction l with
  | nil => rfl
  | cons d l ih =>
    simp only [List.all_cons, Bool.and_eq_true, beq_iff_eq] at h
    rw [List.length_cons, List.replicate_succ, h.1, ← ih h.2]

theorem digitsNum_zeros (k : Nat) : digitsNum (List.replicate k (0 : Fin 10)) = 0 := by
  rw [digitsNum_eq_zero]; simp

/-- The digits without trailing zeros, then the trailing zeros. -/
theorem dropTrailing_spec (l : List (Fin 10)) : ∃ k, l = dropTrailingZeros l ++ List.replicate k 0 ∧
    (∀ x, (dropTrailingZeros l).getLast? = some x → x ≠ 0) := by
  induction l with
  | nil => exact ⟨0, rfl, by simp [dropTrailingZeros]⟩
  | cons d l ih =>
    unfold dropTrailingZeros
    split
    · rename_i h
      exact ⟨(d :: l).length, all_zero_replicate _ h, by simp⟩
    · rename_i h
      obtain ⟨k, h1, h2⟩ := ih
      refine ⟨k, by rw [List.cons_append, ← h1], ?_⟩
      intro x hx
      cases hd : dropTrailingZeros l with
      | nil =>
        rw [hd] at hx
        simp only [List.getLast?_singleton, Option.some.injEq] at hx
        subst hx
        intro h0
        subst h0
        apply h
        rw [hd] at h1
        rw [h1]
        simp
      | cons y m =>
        rw [hd] at hx h2
        rw [List.getLast?_cons_cons] at hx
        exact h2 x hx

theorem dropTrailing_unique (a b : List (Fin 10)) (j k : Nat) (h : a ++ List.replicate j 0 = b ++ List.replicate k 0)
    (ha : ∀ x, a.getLast? = some x → x ≠ 0) (hb : ∀ x, b.getLast? = some x → x ≠ 0) : a = b ∧ j = k := by
  have hr := congrArg List.reverse h
  simp only [List.reverse_append, List.reverse_replicate] at hr
  have ha' : ∀ x, a.reverse.head? = some x → x ≠ 0 := by simpa using ha
  have hb' : ∀ x, b.reverse.head? = some x → x ≠ 0 := by simpa using hb
  have key : ∀ (j k : Nat) (a b : List (Fin 10)), (∀ x, a.head? = some x → x ≠ 0) → (∀ x, b.head? = some x → x ≠ 0) →
      List.replicate j 0 ++ a = List.replicate k 0 ++ b → a = b ∧ j = k := by
    intro j
    induction j with
    | zero =>
      intro k a b ha hb h
      cases k with
      | zero => exact ⟨by simpa using h, rfl⟩
      | succ k =>
        simp only [List.replicate_zero, List.nil_append, List.replicate_succ, List.cons_append] at h
        subst h
        exact absurd rfl (ha 0 rfl)
    | succ j ih =>
      intro k a b ha hb h
      cases k with
      | zero =>
        simp only [List.replicate_zero, List.nil_append, List.replicate_succ, List.cons_append] at h
        subst h
        exact absurd rfl (hb 0 rfl)
      | succ k =>
        simp only [List.replicate_succ, List.cons_append, List.cons.injEq, true_and] at h
        obtain ⟨h1, h2⟩ := ih k a b ha hb h
        exact ⟨h1, by omega⟩
  obtain ⟨h1, h2⟩ := key j k _ _ ha' hb' hr
  exact ⟨List.reverse_injective h1, h2⟩

theorem dropTrailing_append (l : List (Fin 10)) (k : Nat) :
    dropTrailingZeros (l ++ List.replicate k 0) = dropTrailingZeros l := by
  obtain ⟨j, h1, h2⟩ := dropTrailing_spec (l ++ List.replicate k 0)
  obtain ⟨j', h1', h2'⟩ := dropTrailing_spec l
  refine (dropTrailing_unique _ _ j (j' + k) ?_ h2 h2').1
  rw [← h1, List.replicate_add, ← List.append_assoc, ← h1']

theorem trimEndZeros_digits (l : List (Fin 10)) : trimEndZeros (digitText l) = digitText (dropTrailingZeros l) := by
  obtain ⟨k, h1, h2⟩ := dropTrailing_spec l
  have h3 : digitText l = digitText (dropTrailingZeros l) ++ List.replicate k '0' := by
    conv_lhs => rw [h1]
    rw [digitText_append]
    congr 1
    simp only [digitText, List.map_replicate]
    rfl
  rw [h3]
  unfold trimEndZeros
  rw [List.reverse_append, List.reverse_replicate]
  have h4 : ∀ (k : Nat) (s : Str), (List.replicate k '0' ++ s).dropWhile (· == '0') = s.dropWhile (· == '0') := by
    intro k s
    induction k with
    | zero => rfl
    | succ k ih => simpa [List.replicate_succ] using ih
  rw [h4]
  have h5 : (digitText (dropTrailingZeros l)).reverse.dropWhile (· == '0') = (digitText (dropTrailingZeros l)).reverse := by
    cases hr : (dropTrailingZeros l).reverse with
    | nil => rw [List.reverse_eq_nil_iff] at hr; rw [hr]; rfl
    | cons d m =>
      have hlast : (dropTrailingZeros l).getLast? = some d := by
        rw [← List.head?_reverse, hr]; rfl
      have : d ≠ 0 := h2 d hlast
      have h6 : (digitText (dropTrailingZeros l)).reverse = digitChar d :: digitText m := by
        rw [digitText, ← List.map_reverse, hr]; rfl
      rw [h6, List.dropWhile_cons, if_neg]
      intro h
      apply this
      have h7 : digitChar d = '0' := by simpa using h
      exact digitChar_inj (h7.trans rfl)
  rw [h5, List.reverse_reverse]

theorem t_of_unwrap (l : List (Fin 10)) (hl : digitsNum l < 2 ^ 64) :
    (parseUnsigned 64 (digitText (dropTrailingZeros l))).getD 0 = digitsNum (dropTrailingZeros l) := by
  rw [parseUnsigned_digits]
  have hle : digitsNum (dropTrailingZeros l) ≤ digitsNum l := by
    obtain ⟨k, h1, -⟩ := dropTrailing_spec l
    conv_rhs => rw [h1]
    rw [digitsNum_append, digitsNum_zeros, List.length_replicate]
    exact Nat.le_trans (Nat.le_mul_of_pos_right _ (by positivity)) (Nat.le_add_right ..)
  split_ifs with h
  · rfl
  · by_cases h0 : dropTrailingZeros l = []
    · simp [h0, digitsNum]
    · exact absurd ⟨h0, by omega⟩ h

/-! ## Float literals -/

theorem parseDigits_some (d : Str) (x : Nat) : Flt.parseDigits d = some x ↔ ∃ l, l ≠ [] ∧ d = digitText l ∧ digitsNum l = x := by
  unfold Flt.parseDigits
  constructor
  · intro h
    split_ifs at h with h1
    simp only [Bool.or_eq_true, Bool.not_eq_true', not_or, Bool.not_eq_false] at h1
    obtain ⟨l, rfl⟩ := all_digits d h1.2
    refine ⟨l, ?_, rfl, ?_⟩
    · rintro rfl; simp [digitText] at h1
    · rw [digitsVal_digitText] at h; simpa using h
  · rintro ⟨l, h1, rfl, rfl⟩
    rw [if_neg, digitsVal_digitText]
    simp [digitText_all, digitText_eq_nil, h1]

/-- The exponent of a float literal. -/
inductive Exponent : Str → Int → Prop
  | none : Exponent [] 0
  | plain (c : Char) (l : List (Fin 10)) : c = 'e' ∨ c = 'E' → l ≠ [] → Exponent (c :: digitText l) (digitsNum l)
  | plus (c : Char) (l : List (Fin 10)) : c = 'e' ∨ c = 'E' → l ≠ [] → Exponent (c :: '+' :: digitText l) (digitsNum l)
  | minus (c : Char) (l : List (Fin 10)) : c = 'e' ∨ c = 'E' → l ≠ [] → Exponent (c :: '-' :: digitText l) (-(digitsNum l : Int))

theorem parseExp_some (s : Str) (e : Int) : Flt.parseExp s = some e ↔ Exponent s e := by
  constructor
  · intro h
    cases s with
    | nil => simp only [Flt.parseExp, Option.some.injEq] at h; subst h; exact .none
    | cons c t =>
      simp only [Flt.parseExp] at h
      split_ifs at h with h1
      cases t with
      | nil => simp at h
      | cons s d =>
        simp only at h
        split_ifs at h with h2 h3
        · subst h2
          obtain ⟨x, hx, rfl⟩ := Option.map_eq_some_iff.1 h
          obtain ⟨l, hl, rfl, rfl⟩ := (parseDigits_some _ _).1 hx
          exact .plus c l h1 hl
        · subst h3
          obtain ⟨x, hx, rfl⟩ := Option.map_eq_some_iff.1 h
          obtain ⟨l, hl, rfl, rfl⟩ := (parseDigits_some _ _).1 hx
          exact .minus c l h1 hl
        · obtain ⟨x, hx, rfl⟩ := Option.map_eq_some_iff.1 h
          obtain ⟨l, hl, hs, rfl⟩ := (parseDigits_some _ _).1 hx
          rw [hs]
          exact .plain c l h1 hl
  · intro h
    cases h with
    | none => rfl
    | plain c l h1 hl =>
      cases l with
      | nil => contradiction
      | cons d l =>
        simp only [Flt.parseExp, h1, if_true, digitText_cons, digitChar_ne d '+' rfl, digitChar_ne d '-' rfl, if_false]
        rw [← digitText_cons, (parseDigits_some _ _).2 ⟨d :: l, hl, rfl, rfl⟩]; rfl
    | plus c l h1 hl =>
      simp only [Flt.parseExp, h1, if_true]
      rw [(parseDigits_some _ _).2 ⟨l, hl, rfl, rfl⟩]; rfl
    | minus c l h1 hl =>
      simp only [Flt.parseExp, h1, if_true, show ¬ ('-' : Char) = '+' by decide, if_false]
      rw [(parseDigits_some _ _).2 ⟨l, hl, rfl, rfl⟩]; rfl

theorem Exponent.head {s : Str} {e : Int} (h : Exponent s e) : ∀ c t, s = c :: t → isDigit c = false ∧ c ≠ '.' := by
  intro c t hs
  have : ∀ c : Char, c = 'e' ∨ c = 'E' → isDigit c = false ∧ c ≠ '.' := by
    rintro c (rfl | rfl) <;> decide
  cases h <;> cases hs <;> apply this <;> assumption

theorem Exponent.nopoint {s : Str} {e : Int} (h : Exponent s e) : '.' ∉ s := by
  cases h with
  | none => simp
  | plain c l h1 _ =>
    simp only [List.mem_cons, not_or]
    exact ⟨by rcases h1 with rfl | rfl <;> decide, point_notin_digits l⟩
  | plus c l h1 _ =>
    simp only [List.mem_cons, not_or]
    exact ⟨by rcases h1 with rfl | rfl <;> decide, by decide, point_notin_digits l⟩
  | minus c l h1 _ =>
    simp only [List.mem_cons, not_or]
    exact ⟨by rcases h1 with rfl | rfl <;> decide, by decide, point_notin_digits l⟩

/-- Number forms of a float literal. -/
theorem parseNumber_some (s : Str) (m : Nat) (e : Int) : Flt.parseNumber s = some (m, e) ↔
    (∃ ip x ex, ip ≠ [] ∧ Exponent x ex ∧ s = digitText ip ++ x ∧ m = digitsNum ip ∧ e = ex) ∨
    (∃ ip fp x ex, (ip ≠ [] ∨ fp ≠ []) ∧ Exponent x ex ∧ s = digitText ip ++ '.' :: (digitText fp ++ x) ∧
      m = digitsNum (ip ++ fp) ∧ e = ex - fp.length) := by
  constructor
  · intro h
    obtain ⟨ip, r, rfl, hr⟩ := split_digits s
    obtain ⟨h1, h2⟩ := takeWhile_digits ip r hr
    simp only [Flt.parseNumber, h1, h2] at h
    cases r with
    | nil =>
      simp only [Flt.fracPart, List.isEmpty_nil, Bool.and_true, List.append_nil, List.length_nil, Flt.parseExp] at h
      split_ifs at h with h3
      simp only [Option.some.injEq, Prod.mk.injEq, digitsVal_digitText] at h
      left
      exact ⟨ip, [], 0, by rintro rfl; simp [digitText] at h3, .none, rfl, h.1.symm, by rw [← h.2]; simp⟩
    | cons c t =>
      by_cases hc : c = '.'
      · subst hc
        obtain ⟨fp, x, rfl, hx⟩ := split_digits t
        obtain ⟨h3, h4⟩ := takeWhile_digits fp x hx
        simp only [Flt.fracPart, if_true, h3, h4] at h
        split_ifs at h with h5
        cases he : Flt.parseExp x with
        | none => rw [he] at h; simp at h
        | some ex =>
          rw [he] at h
          simp only [Option.some.injEq, Prod.mk.injEq, ← digitText_append, digitsVal_digitText] at h
          right
          refine ⟨ip, fp, x, ex, ?_, (parseExp_some _ _).1 he, rfl, h.1.symm, ?_⟩
          · simp only [Bool.and_eq_true, List.isEmpty_iff, digitText_eq_nil, not_and_or] at h5
            exact h5
          · rw [← h.2]; simp [digitText]
      · simp only [Flt.fracPart, hc, if_false, List.isEmpty_nil, Bool.and_true, List.append_nil, List.length_nil] at h
        split_ifs at h with h3
        cases he : Flt.parseExp (c :: t) with
        | none => rw [he] at h; simp at h
        | some ex =>
          rw [he] at h
          simp only [Option.some.injEq, Prod.mk.injEq, digitsVal_digitText] at h
          left
          refine ⟨ip, c :: t, ex, ?_, (parseExp_some _ _).1 he, rfl, h.1.symm, by rw [← h.2]; simp⟩
          rintro rfl; simp [digitText] at h3
  · rintro (⟨ip, x, ex, h1, h2, rfl, rfl, rfl⟩ | ⟨ip, fp, x, ex, h1, h2, rfl, rfl, rfl⟩)
    · obtain ⟨h3, h4⟩ := takeWhile_digits ip x fun c t h => (h2.head c t h).1
      have h5 : Flt.fracPart x = ([], x) := by
        cases x with
        | nil => rfl
        | cons c t => simp only [Flt.fracPart, (h2.head c t rfl).2, if_false]
      simp only [Flt.parseNumber, h3, h4, h5, (parseExp_some _ _).2 h2]
      rw [if_neg (by simpa [digitText_eq_nil] using h1)]
      simp [digitsVal_digitText]
    · obtain ⟨h3, h4⟩ := takeWhile_digits ip ('.' :: (digitText fp ++ x)) fun c t h => by cases h; rfl
      obtain ⟨h5, h6⟩ := takeWhile_digits fp x fun c t h => (h2.head c t h).1
      simp only [Flt.parseNumber, h3, h4, Flt.fracPart, if_true, h5, h6, (parseExp_some _ _).2 h2]
      rw [if_neg (by simp only [Bool.and_eq_true, List.isEmpty_iff, digitText_eq_nil, not_and_or]; exact h1)]
      simp only [← digitText_append, digitsVal_digitText, Option.some.injEq, Prod.mk.injEq, true_and]
      simp [digitText]

/-- `f64::from_str` on digits, point, digits. -/
theorem fromStr_dec (ip fp : List (Fin 10)) (h : ip ≠ []) :
    Flt.fromStr b64 (decText ip fp) = some (Flt.ofRat b64 false (allDigits (decOf ip fp)) (10 ^ fp.length)) := by
  cases ip with
  | nil => contradiction
  | cons d ip =>
    have h1 := (parseNumber_some (decText (d :: ip) fp) (digitsNum (d :: ip ++ fp)) (0 - fp.length)).2
      (.inr ⟨d :: ip, fp, [], 0, .inl h, .none, by simp [decText], rfl, rfl⟩)
    have h2 : Flt.fromStr b64 (decText (d :: ip) fp) = Flt.parseUnsignedFloat b64 false (decText (d :: ip) fp) := by
      simp only [decText, digitText_cons, List.cons_append, Flt.fromStr, digitChar_ne d '-' rfl, digitChar_ne d '+' rfl, if_false]
    rw [h2]
    simp only [Flt.parseUnsignedFloat, h1, Flt.ofDec]
    have h3 : digitsNum (d :: ip ++ fp) = allDigits (decOf (d :: ip) fp) := by
      rw [digitsNum_append]; rfl
    rw [h3]
    cases fp with
    | nil => simp
    | cons x fp =>
      rw [if_neg (by simp only [List.length_cons]; push_cast; omega)]
      congr

/-- `f64::from_str` on digits. -/
theorem fromStr_int (ip : List (Fin 10)) (h : ip ≠ []) :
    Flt.fromStr b64 (digitText ip) = some (Flt.ofNat b64 (digitsNum ip)) := by
  cases ip with
  | nil => contradiction
  | cons d ip =>
    have h1 := (parseNumber_some (digitText (d :: ip)) (digitsNum (d :: ip)) 0).2
      (.inl ⟨d :: ip, [], 0, h, .none, by simp, rfl, rfl⟩)
    have h2 : Flt.fromStr b64 (digitText (d :: ip)) = Flt.parseUnsignedFloat b64 false (digitText (d :: ip)) := by
      simp only [digitText_cons, Flt.fromStr, digitChar_ne d '-' rfl, digitChar_ne d '+' rfl, if_false]
    rw [h2]
    simp [Flt.parseUnsignedFloat, h1, Flt.ofDec, Flt.ofNat]

/-! ## The conversion on plain decimals -/

theorem absStr_digits (ip : List (Fin 10)) (h : ip ≠ []) (r : Str) : absStr (digitText ip ++ r) = digitText ip ++ r := by
  cases ip with
  | nil => contradiction
  | cons d ip => simp only [digitText_cons, List.cons_append, absStr, digitChar_ne d '-' rfl, if_false]

/-- The operands of a plain decimal with a fraction. -/
def decOperands (ip fp : List (Fin 10)) : PluralOperands :=
  { n := Flt.ofRat b64 false (allDigits (decOf ip fp)) (10 ^ fp.length)
    i := digitsNum ip
    v := fp.length
    w := (dropTrailingZeros fp).length
    f := digitsNum fp
    t := digitsNum (dropTrailingZeros fp) }

theorem tryFromStr_dec (ip fp : List (Fin 10)) (h : ip ≠ []) :
    tryFromStr (decText ip fp) = if digitsNum ip < 2 ^ 64 ∧ fp ≠ [] ∧ digitsNum fp < 2 ^ 64 then .ok (decOperands ip fp)
      else .error .couldNotConvert := by
  have h1 : absStr (decText ip fp) = decText ip fp := absStr_digits ip h _
  have h2 : splitPoint (decText ip fp) = some (digitText ip, digitText fp) :=
    (splitPoint_some _ _ _).2 ⟨rfl, point_notin_digits ip⟩
  simp only [tryFromStr, h1, fromStr_dec ip fp h, h2, parseUnsigned_digits]
  by_cases h3 : digitsNum ip < 2 ^ 64
  · by_cases h4 : fp ≠ [] ∧ digitsNum fp < 2 ^ 64
    · rw [if_pos ⟨h, h3⟩, if_pos h4, if_pos ⟨h3, h4⟩]
      simp only [trimEndZeros_digits, t_of_unwrap fp h4.2, decOperands]
      simp [digitText]
    · rw [if_pos ⟨h, h3⟩, if_neg h4, if_neg (fun h => h4 h.2)]
  · rw [if_neg (c := ip ≠ [] ∧ _) (fun h => h3 h.2), if_neg (c := digitsNum ip < 2 ^ 64 ∧ _) (fun h => h3 h.1)]

theorem tryFromStr_int (ip : List (Fin 10)) (h : ip ≠ []) :
    tryFromStr (digitText ip) =
      .ok ⟨Flt.ofNat b64 (digitsNum ip), (Flt.ofNat b64 (digitsNum ip)).toU64 b64, 0, 0, 0, 0⟩ := by
  have h1 : absStr (digitText ip) = digitText ip := by simpa using absStr_digits ip h []
  have h2 : splitPoint (digitText ip) = none := (splitPoint_none _).2 (point_notin_digits ip)
  simp only [tryFromStr, h1, fromStr_int ip h, h2]

theorem tryFromStr_minus (s : Str) (h : ∀ t, s ≠ '-' :: t) : tryFromStr ('-' :: s) = tryFromStr s := by
  have h1 : absStr ('-' :: s) = s := rfl
  have h2 : absStr s = s := by
    cases s with
    | nil => rfl
    | cons c t =>
      have : c ≠ '-' := by rintro rfl; exact h t rfl
      simp [absStr, this]
  simp only [tryFromStr, h1, h2]

theorem digits_no_minus (ip : List (Fin 10)) (h : ip ≠ []) (r : Str) : ∀ t, digitText ip ++ r ≠ '-' :: t := by
  intro t
  cases ip with
  | nil => contradiction
  | cons d ip =>
    simp only [digitText_cons, List.cons_append]
    intro h
    exact digitChar_ne d '-' rfl (List.cons.inj h).1

/-! ## All accepted texts -/

theorem exponent_iff (x : Str) : (∃ e, Exponent x e) ↔ ExponentText x := by
  constructor
  · rintro ⟨e, h⟩
    cases h with
    | none => exact .inl rfl
    | plain c l h1 h2 => exact .inr ⟨c, [], l, h1, .inl rfl, h2, rfl⟩
    | plus c l h1 h2 => exact .inr ⟨c, ['+'], l, h1, .inr (.inl rfl), h2, rfl⟩
    | minus c l h1 h2 => exact .inr ⟨c, ['-'], l, h1, .inr (.inr rfl), h2, rfl⟩
  · rintro (rfl | ⟨c, sign, l, h1, rfl | rfl | rfl, h3, rfl⟩)
    · exact ⟨_, .none⟩
    · exact ⟨_, .plain c l h1 h3⟩
    · exact ⟨_, .plus c l h1 h3⟩
    · exact ⟨_, .minus c l h1 h3⟩

theorem lowerChar_iff (c l : Char) (hl : 'a'.toNat ≤ l.toNat ∧ l.toNat ≤ 'z'.toNat) :
    (if 'A'.toNat ≤ c.toNat && c.toNat ≤ 'Z'.toNat then Char.ofNat (c.toNat + 32) else c) = l ↔
      c = l ∨ c.toNat + 32 = l.toNat := by
  have h1 : 'a'.toNat = 97 := rfl
  have h2 : 'z'.toNat = 122 := rfl
  have h3 : 'A'.toNat = 65 := rfl
  have h4 : 'Z'.toNat = 90 := rfl
  rw [h1, h2] at hl
  rw [h3, h4]
  by_cases h : 65 ≤ c.toNat ∧ c.toNat ≤ 90
  · have hv : (c.toNat + 32).isValidChar := by left; omega
    rw [if_pos (by simpa using h)]
    have ht : (Char.ofNat (c.toNat + 32)).toNat = c.toNat + 32 := by
      rw [Char.ofNat, dif_pos hv]; rfl
    constructor
    · intro he
      right
      rw [← he, ht]
    · rintro (rfl | he)
      · omega
      · apply Char.toNat_inj.mp
        rw [ht, he]
  · rw [if_neg (by simpa using h)]
    constructor
    · exact .inl
    · rintro (h5 | h5)
      · exact h5
      · omega

theorem lower_iff (s w : Str) (hw : ∀ l ∈ w, 'a'.toNat ≤ l.toNat ∧ l.toNat ≤ 'z'.toNat) : Flt.lower s = w ↔ Spells s w := by
  induction s generalizing w with
  | nil =>
    cases w with
    | nil => exact ⟨fun _ => .nil, fun _ => rfl⟩
    | cons l w => exact ⟨fun h => by simp [Flt.lower] at h, fun h => by cases h⟩
  | cons c s ih =>
    cases w with
    | nil => exact ⟨fun h => by simp [Flt.lower] at h, fun h => by cases h⟩
    | cons l w =>
      have h1 := ih w fun l hl => hw l (by simp [hl])
      have h2 := lowerChar_iff c l (hw l (by simp))
      simp only [Flt.lower, List.map_cons, List.cons.injEq] at h1 ⊢
      rw [h1, h2]
      exact ⟨fun h => .cons h.1 h.2, fun h => by cases h with | cons a b => exact ⟨a, b⟩⟩

theorem lower_inf (s : Str) : (Flt.lower s == c!"inf") = true ↔ Spells s c!"inf" := by
  rw [beq_iff_eq]; exact lower_iff s _ (by decide)
theorem lower_infinity (s : Str) : (Flt.lower s == c!"infinity") = true ↔ Spells s c!"infinity" := by
  rw [beq_iff_eq]; exact lower_iff s _ (by decide)
theorem lower_nan (s : Str) : (Flt.lower s == c!"nan") = true ↔ Spells s c!"nan" := by
  rw [beq_iff_eq]; exact lower_iff s _ (by decide)

/-- A character that is no letter does not occur in a word, nor at its start. -/
theorem spells_notin (s w : Str) (h : Spells s w) (hw : ∀ l ∈ w, 97 ≤ l.toNat) (c : Char) (hc : c.toNat < 65) : c ∉ s := by
  induction h with
  | nil => simp
  | @cons a l s w h1 _ ih =>
    simp only [List.mem_cons, not_or]
    refine ⟨?_, ih fun l hl => hw l (by simp [hl])⟩
    rintro rfl
    have := hw l (by simp)
    rcases h1 with rfl | h1 <;> omega

theorem words_notin (s : Str) (h : Spells s c!"inf" ∨ Spells s c!"infinity" ∨ Spells s c!"nan") (c : Char) (hc : c.toNat < 65) :
    c ∉ s := by
  rcases h with h | h | h <;> exact spells_notin _ _ h (by decide) c hc

theorem words_no_number (s : Str) (h : Spells s c!"inf" ∨ Spells s c!"infinity" ∨ Spells s c!"nan") :
    Flt.parseNumber s = none := by
  cases hp : Flt.parseNumber s with
  | none => rfl
  | some p =>
    exfalso
    obtain ⟨m, e⟩ := p
    have hd : ∀ d : Fin 10, digitChar d ∉ s := fun d => words_notin s h _ (by rw [digitChar_toNat]; omega)
    have hp' : '.' ∉ s := words_notin s h _ (by decide)
    rcases (parseNumber_some _ _ _).1 hp with ⟨ip, x, ex, h1, h2, rfl, -, -⟩ | ⟨ip, fp, x, ex, h1, h2, rfl, -, -⟩
    · cases ip with
      | nil => contradiction
      | cons d ip => exact hd d (by simp [digitText_cons])
    · exact hp' (by simp)

/-- `f64::from_str` without sign and point. -/
theorem parseFloat_pointFree (neg : Bool) (s : Str) (hp : '.' ∉ s) :
    (∃ x, Flt.parseUnsignedFloat b64 neg s = some x) ↔ UnsignedPointFree s := by
  unfold Flt.parseUnsignedFloat UnsignedPointFree
  constructor
  · rintro ⟨x, h⟩
    cases hn : Flt.parseNumber s with
    | some p =>
      obtain ⟨m, e⟩ := p
      rcases (parseNumber_some _ _ _).1 hn with ⟨ip, x, ex, h1, h2, rfl, -, -⟩ | ⟨ip, fp, x, ex, h1, h2, rfl, -, -⟩
      · exact .inl ⟨ip, x, h1, (exponent_iff _).1 ⟨_, h2⟩, rfl⟩
      · exact absurd (by simp) hp
    | none =>
      rw [hn] at h
      simp only at h
      right
      split_ifs at h with h1 h2
      · exact .inr (.inr ((lower_nan s).1 h1))
      · rw [Bool.or_eq_true, lower_inf, lower_infinity] at h2
        rcases h2 with h2 | h2
        · exact .inl h2
        · exact .inr (.inl h2)
  · rintro (⟨ip, x, h1, h2, rfl⟩ | h)
    · obtain ⟨e, he⟩ := (exponent_iff _).2 h2
      rw [(parseNumber_some _ _ _).2 (.inl ⟨ip, x, e, h1, he, rfl, rfl, rfl⟩)]
      exact ⟨_, rfl⟩
    · rw [words_no_number s h]
      simp only
      by_cases h1 : (Flt.lower s == c!"nan") = true
      · rw [if_pos h1]; exact ⟨_, rfl⟩
      · rw [if_neg h1, if_pos]
        · exact ⟨_, rfl⟩
        · rw [Bool.or_eq_true, lower_inf, lower_infinity]
          rcases h with h | h | h
          · exact .inl h
          · exact .inr h
          · exact absurd ((lower_nan s).2 h) h1

theorem pointFree_nopoint (s : Str) (h : UnsignedPointFree s) : '.' ∉ s := by
  rcases h with ⟨ip, x, h1, h2, rfl⟩ | h
  · obtain ⟨e, he⟩ := (exponent_iff _).2 h2
    simp only [List.mem_append, not_or]
    exact ⟨point_notin_digits ip, he.nopoint⟩
  · exact words_notin s h _ (by decide)

/-- A literal without sign does not start with one. -/
theorem pointFree_nosign (s : Str) (h : UnsignedPointFree s) (c : Char) (hc : c = '-' ∨ c = '+') (t : Str) : s ≠ c :: t := by
  rintro rfl
  rcases h with ⟨ip, x, h1, h2, h3⟩ | h
  · cases ip with
    | nil => contradiction
    | cons d ip =>
      simp only [digitText_cons, List.cons_append, List.cons.injEq] at h3
      rcases hc with rfl | rfl
      · exact digitChar_ne d '-' rfl h3.1.symm
      · exact digitChar_ne d '+' rfl h3.1.symm
  · refine words_notin _ h c ?_ (by simp)
    rcases hc with rfl | rfl <;> decide

/-- `f64::from_str` without point. -/
theorem fromStr_pointFree (s : Str) (hp : '.' ∉ s) : (∃ x, Flt.fromStr b64 s = some x) ↔ PointFree s := by
  have hU : ∀ s, UnsignedPointFree s → s ≠ [] := by
    rintro s (⟨ip, x, h1, -, h2⟩ | h) rfl
    · cases ip with
      | nil => contradiction
      | cons d ip => simp [digitText_cons] at h2
    · rcases h with h | h | h <;> cases h
  constructor
  · rintro ⟨x, h⟩
    cases s with
    | nil => simp [Flt.fromStr] at h
    | cons c t =>
      have hp' : '.' ∉ t := fun h => hp (by simp [h])
      simp only [Flt.fromStr] at h
      split_ifs at h with h1 h2
      · subst h1
        exact ⟨['-'], t, .inr (.inr rfl), rfl, (parseFloat_pointFree _ _ hp').1 ⟨x, h⟩⟩
      · subst h2
        exact ⟨['+'], t, .inr (.inl rfl), rfl, (parseFloat_pointFree _ _ hp').1 ⟨x, h⟩⟩
      · exact ⟨[], c :: t, .inl rfl, rfl, (parseFloat_pointFree _ _ hp).1 ⟨x, h⟩⟩
  · rintro ⟨sign, body, hs, rfl, hb⟩
    have hb' := pointFree_nopoint body hb
    rcases hs with rfl | rfl | rfl
    · cases body with
      | nil => exact absurd rfl (hU _ hb)
      | cons c t =>
        have h1 : c ≠ '-' := by rintro rfl; exact pointFree_nosign _ hb '-' (.inl rfl) t rfl
        have h2 : c ≠ '+' := by rintro rfl; exact pointFree_nosign _ hb '+' (.inr rfl) t rfl
        simp only [List.nil_append, Flt.fromStr, h1, h2, if_false]
        exact (parseFloat_pointFree false _ hb').2 hb
    · exact (parseFloat_pointFree false _ hb').2 hb
    · exact (parseFloat_pointFree true _ hb').2 hb

theorem fromStr_plus (s : Str) (h : ∀ t, s ≠ '-' :: t ∧ s ≠ '+' :: t) (hne : s ≠ []) :
    Flt.fromStr b64 ('+' :: s) = Flt.fromStr b64 s := by
  cases s with
  | nil => contradiction
  | cons c t =>
    have h1 : c ≠ '-' := by rintro rfl; exact (h t).1 rfl
    have h2 : c ≠ '+' := by rintro rfl; exact (h t).2 rfl
    simp only [Flt.fromStr, h1, h2, if_false, show ¬ ('+' : Char) = '-' by decide, if_true]

theorem fromStr_plus_dec (ip fp : List (Fin 10)) (h : ip ≠ []) :
    Flt.fromStr b64 ('+' :: decText ip fp) = Flt.fromStr b64 (decText ip fp) := by
  refine fromStr_plus _ (fun t => ?_) ?_
  · cases ip with
    | nil => contradiction
    | cons d ip =>
      simp only [decText, digitText_cons, List.cons_append, ne_eq, List.cons.injEq, not_and]
      exact ⟨fun h => absurd h (digitChar_ne d '-' rfl), fun h => absurd h (digitChar_ne d '+' rfl)⟩
  · simp [decText]

theorem dec_unsplit (a b : Str) (x : Flt) (h : Flt.fromStr b64 (a ++ '.' :: b) = some x) (ha : '.' ∉ a) (t : Str) : b ≠ '+' :: t := by
  rintro rfl
  have key : ∀ (neg : Bool) (a : Str), '.' ∉ a → Flt.parseUnsignedFloat b64 neg (a ++ '.' :: '+' :: t) = some x → False := by
    intro neg a ha h
    unfold Flt.parseUnsignedFloat at h
    cases hn : Flt.parseNumber (a ++ '.' :: '+' :: t) with
    | none =>
      rw [hn] at h
      simp only at h
      have hw : Spells (a ++ '.' :: '+' :: t) c!"inf" ∨ Spells (a ++ '.' :: '+' :: t) c!"infinity" ∨
          Spells (a ++ '.' :: '+' :: t) c!"nan" := by
        split_ifs at h with h1 h2
        · exact .inr (.inr ((lower_nan _).1 h1))
        · rw [Bool.or_eq_true, lower_inf, lower_infinity] at h2
          rcases h2 with h2 | h2
          · exact .inl h2
          · exact .inr (.inl h2)
      exact words_notin _ hw '.' (by decide) (by simp)
    | some p =>
      obtain ⟨m, e⟩ := p
      rcases (parseNumber_some _ _ _).1 hn with ⟨ip, x, ex, h1, h2, h3, -, -⟩ | ⟨ip, fp, x, ex, h1, h2, h3, -, -⟩
      · have : '.' ∈ digitText ip ++ x := by rw [← h3]; simp
        rcases List.mem_append.1 this with h | h
        · exact point_notin_digits ip h
        · exact h2.nopoint h
      · have e1 := (splitPoint_some _ a ('+' :: t)).2 ⟨rfl, ha⟩
        have e2 := (splitPoint_some _ _ _).2 ⟨h3, point_notin_digits ip⟩
        rw [e1] at e2
        simp only [Option.some.injEq, Prod.mk.injEq] at e2
        have e3 := e2.2
        cases fp with
        | nil =>
          cases h2 with
          | none => simp [digitText] at e3
          | plain c l hc _ => simp [digitText] at e3; rcases hc with rfl | rfl <;> simp at e3
          | plus c l hc _ => simp [digitText] at e3; rcases hc with rfl | rfl <;> simp at e3
          | minus c l hc _ => simp [digitText] at e3; rcases hc with rfl | rfl <;> simp at e3
        | cons d fp =>
          simp only [digitText_cons, List.cons_append, List.cons.injEq] at e3
          exact digitChar_ne d '+' rfl e3.1.symm
  cases a with
  | nil => exact key false [] (by simp) (by simpa [Flt.fromStr] using h)
  | cons c a =>
    simp only [List.cons_append, Flt.fromStr] at h
    have ha' : '.' ∉ a := fun h => ha (by simp [h])
    split_ifs at h
    · exact key true a ha' h
    · exact key false a ha' h
    · exact key false (c :: a) ha h

/-- Every accepted text is a float literal without point, or digits, point, digits. -/
theorem tryFromStr_ok (s : Str) (po : PluralOperands) (h : tryFromStr s = .ok po) :
    ('.' ∉ absStr s ∧ ∃ x, Flt.fromStr b64 (absStr s) = some x ∧ po = ⟨x, x.toU64 b64, 0, 0, 0, 0⟩) ∨
    ∃ ip fp, ip ≠ [] ∧ fp ≠ [] ∧ digitsNum ip < 2 ^ 64 ∧ digitsNum fp < 2 ^ 64 ∧
      (absStr s = decText ip fp ∨ absStr s = '+' :: decText ip fp) ∧ po = decOperands ip fp := by
  unfold tryFromStr at h
  simp only at h
  generalize absStr s = r at *
  cases hx : Flt.fromStr b64 r with
  | none => rw [hx] at h; cases h
  | some x =>
    rw [hx] at h
    simp only at h
    cases hsp : splitPoint r with
    | none =>
      rw [hsp] at h
      simp only [Except.ok.injEq] at h
      exact .inl ⟨(splitPoint_none r).1 hsp, x, rfl, h.symm⟩
    | some p =>
      obtain ⟨a, b⟩ := p
      obtain ⟨rfl, ha⟩ := (splitPoint_some _ _ _).1 hsp
      rw [hsp] at h
      simp only at h
      cases h1 : parseUnsigned 64 a with
      | none => rw [h1] at h; cases h
      | some i =>
        cases h2 : parseUnsigned 64 b with
        | none => rw [h1, h2] at h; cases h
        | some f =>
          rw [h1, h2] at h
          simp only [Except.ok.injEq] at h
          obtain ⟨ip, hip, hne, rfl, hlt⟩ := (parseUnsigned_some _ _ _).1 h1
          obtain ⟨fp, hfp, hfne, rfl, hflt⟩ := (parseUnsigned_some _ _ _).1 h2
          have hb : b = digitText fp := by
            rcases hfp with h | h
            · exact h
            · exact absurd h (dec_unsplit a b x hx ha _)
          subst hb
          right
          refine ⟨ip, fp, hne, hfne, hlt, hflt, ?_, ?_⟩
          · rcases hip with rfl | rfl
            · exact .inl rfl
            · exact .inr rfl
          · have hn : x = (decOperands ip fp).n := by
              have hx' : Flt.fromStr b64 (decText ip fp) = some x := by
                rcases hip with rfl | rfl
                · exact hx
                · rw [← fromStr_plus_dec ip fp hne]; exact hx
              rw [fromStr_dec ip fp hne] at hx'
              simp only [Option.some.injEq] at hx'
              unfold decOperands
              rw [← hx']
            rw [← h, hn, trimEndZeros_digits, t_of_unwrap fp hflt]
            simp [decOperands, digitText]

theorem tryFromStr_plus_dec (ip fp : List (Fin 10)) (h : ip ≠ []) (h1 : digitsNum ip < 2 ^ 64) (hf : fp ≠ [])
    (h2 : digitsNum fp < 2 ^ 64) : tryFromStr ('+' :: decText ip fp) = .ok (decOperands ip fp) := by
  have e1 : absStr ('+' :: decText ip fp) = '+' :: decText ip fp := rfl
  have e2 : splitPoint ('+' :: decText ip fp) = some ('+' :: digitText ip, digitText fp) :=
    (splitPoint_some _ _ _).2 ⟨rfl, by simp only [List.mem_cons, not_or]; exact ⟨by decide, point_notin_digits ip⟩⟩
  have e3 := (parseUnsigned_some 64 ('+' :: digitText ip) (digitsNum ip)).2 ⟨ip, .inr rfl, h, rfl, h1⟩
  have e4 := (parseUnsigned_some 64 (digitText fp) (digitsNum fp)).2 ⟨fp, .inl rfl, hf, rfl, h2⟩
  simp only [tryFromStr, e1, fromStr_plus_dec ip fp h, fromStr_dec ip fp h, e2, e3, e4, trimEndZeros_digits,
    t_of_unwrap fp h2, decOperands]
  simp [digitText]

end Verif.Strings
