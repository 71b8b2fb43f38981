import Verif.Props.FloatDecimals

/-!
# C67–C69: which error a conversion gives, exponents, and the type of the input
-/

namespace Verif.Props
open Verif Api Uts35 Spec PluralOperands Verif.Strings Verif.Grammar

/-! ## C67 -/

/-- A float literal without sign. -/
def UnsignedLiteral (s : Str) : Prop := UnsignedPointFree s ∨
  ∃ ip fp x, (ip ≠ [] ∨ fp ≠ []) ∧ ExponentText x ∧ s = digitText ip ++ '.' :: (digitText fp ++ x)

/-- A float literal, as `f64::from_str` documents it. -/
def FloatLiteral (s : Str) : Prop := ∃ sign body, (sign = [] ∨ sign = ['+'] ∨ sign = ['-']) ∧ s = sign ++ body ∧ UnsignedLiteral body

theorem parseFloat_iff (neg : Bool) (s : Str) : (∃ x, Flt.parseUnsignedFloat b64 neg s = some x) ↔ UnsignedLiteral s := by
  by_cases hp : '.' ∈ s
  · have hu : ¬ UnsignedPointFree s := fun h => pointFree_nopoint s h hp
    have hw : ¬ (Spells s c!"inf" ∨ Spells s c!"infinity" ∨ Spells s c!"nan") := fun h => words_notin s h '.' (by decide) hp
    simp only [not_or] at hw
    simp only [UnsignedLiteral, hu, false_or]
    unfold Flt.parseUnsignedFloat
    constructor
    · rintro ⟨x, h⟩
      cases hn : Flt.parseNumber s with
      | some p =>
        obtain ⟨m, e⟩ := p
        rcases (parseNumber_some _ _ _).1 hn with ⟨ip, x, ex, h1, h2, rfl, -, -⟩ | ⟨ip, fp, x, ex, h1, h2, rfl, -, -⟩
        · exact absurd (.inl ⟨ip, x, h1, (exponent_iff _).1 ⟨_, h2⟩, rfl⟩) hu
        · exact ⟨ip, fp, x, h1, (exponent_iff _).1 ⟨_, h2⟩, rfl⟩
      | none =>
        rw [hn] at h
        simp only at h
        split_ifs at h with h1 h2
        · exact absurd ((lower_nan s).1 h1) hw.2.2
        · rw [Bool.or_eq_true, lower_inf, lower_infinity] at h2
          exact absurd h2 (by simp [hw])
    · rintro ⟨ip, fp, x, h1, h2, rfl⟩
      obtain ⟨e, he⟩ := (exponent_iff _).2 h2
      rw [(parseNumber_some _ _ _).2 (.inr ⟨ip, fp, x, e, h1, he, rfl, rfl, rfl⟩)]
      exact ⟨_, rfl⟩
  · rw [parseFloat_pointFree neg s hp]
    refine ⟨.inl, ?_⟩
    rintro (h | ⟨ip, fp, x, -, -, rfl⟩)
    · exact h
    · exact absurd (by simp) hp

theorem unsignedLiteral_start (s : Str) (h : UnsignedLiteral s) : s ≠ [] ∧ ∀ t, s ≠ '-' :: t ∧ s ≠ '+' :: t := by
  rcases h with h | ⟨ip, fp, x, h1, h2, rfl⟩
  · refine ⟨?_, fun t => ⟨pointFree_nosign s h '-' (.inl rfl) t, pointFree_nosign s h '+' (.inr rfl) t⟩⟩
    rintro rfl
    rcases h with ⟨ip, x, h1, -, h2⟩ | h
    · cases ip with
      | nil => contradiction
      | cons d ip => simp [digitText_cons] at h2
    · rcases h with h | h | h <;> cases h
  · refine ⟨by simp, fun t => ?_⟩
    cases ip with
    | nil => simp [digitText]
    | cons d ip =>
      simp only [digitText_cons, List.cons_append, ne_eq, List.cons.injEq, not_and]
      exact ⟨fun h => absurd h (digitChar_ne d '-' rfl), fun h => absurd h (digitChar_ne d '+' rfl)⟩

theorem fromStr_iff (s : Str) : (∃ x, Flt.fromStr b64 s = some x) ↔ FloatLiteral s := by
  constructor
  · rintro ⟨x, h⟩
    cases s with
    | nil => simp [Flt.fromStr] at h
    | cons c t =>
      simp only [Flt.fromStr] at h
      split_ifs at h with h1 h2
      · subst h1
        exact ⟨['-'], t, .inr (.inr rfl), rfl, (parseFloat_iff _ _).1 ⟨x, h⟩⟩
      · subst h2
        exact ⟨['+'], t, .inr (.inl rfl), rfl, (parseFloat_iff _ _).1 ⟨x, h⟩⟩
      · exact ⟨[], c :: t, .inl rfl, rfl, (parseFloat_iff _ _).1 ⟨x, h⟩⟩
  · rintro ⟨sign, body, hs, rfl, hb⟩
    obtain ⟨hne, hst⟩ := unsignedLiteral_start body hb
    rcases hs with rfl | rfl | rfl
    · cases body with
      | nil => contradiction
      | cons c t =>
        have h1 : c ≠ '-' := by rintro rfl; exact (hst t).1 rfl
        have h2 : c ≠ '+' := by rintro rfl; exact (hst t).2 rfl
        simp only [List.nil_append, Flt.fromStr, h1, h2, if_false]
        exact (parseFloat_iff false _).2 hb
    · exact (parseFloat_iff false _).2 hb
    · exact (parseFloat_iff true _).2 hb

/-- The text after one leading minus sign, if there is one. -/
def AfterMinus (s r : Str) : Prop := s = '-' :: r ∨ s = r ∧ ∀ t, r ≠ '-' :: t

theorem afterMinus_iff (s r : Str) : AfterMinus s r ↔ absStr s = r := by
  unfold AfterMinus
  cases s with
  | nil =>
    simp only [absStr]
    constructor
    · rintro (h | ⟨h, -⟩)
      · cases h
      · exact h
    · rintro rfl; exact .inr ⟨rfl, by simp⟩
  | cons c t =>
    simp only [absStr]
    by_cases hc : c = '-'
    · subst hc
      simp only [if_true, List.cons.injEq, true_and]
      constructor
      · rintro (h | ⟨rfl, h⟩)
        · exact h
        · exact absurd rfl (h t)
      · exact .inl
    · simp only [List.cons.injEq, hc, false_and, false_or]
      constructor
      · exact fun h => h.1
      · rintro rfl; exact ⟨rfl, by simp [hc]⟩

/-- C67: the error is "Incorrect number passed!" exactly if what follows the optional minus sign is no float literal. -/
theorem C67_incorrect (s r : Str) (h : AfterMinus s r) :
    (∃ e, tryFromStr s = .error e ∧ e.text = c!"Incorrect number passed!") ↔ ¬ FloatLiteral r := by
  have h := (afterMinus_iff s r).1 h
  rw [← fromStr_iff]
  unfold tryFromStr
  simp only [h]
  cases hf : Flt.fromStr b64 r with
  | none => simp [OpsErr.text]
  | some x =>
    simp only [Option.some.injEq, exists_eq', not_true_eq_false, iff_false]
    rintro ⟨e, he, ht⟩
    have : e = .couldNotConvert := by
      split at he
      · split at he
        · cases he; rfl
        · split at he
          · cases he; rfl
          · cases he
      · cases he
    subst this
    revert ht; decide

/-- C67: the error is "Could not convert string to integer!" exactly if it is a float literal with a point, but not digits below
2^64, a point and digits below 2^64. -/
theorem C67_not_integer (s r : Str) (h : AfterMinus s r) :
    (∃ e, tryFromStr s = .error e ∧ e.text = c!"Could not convert string to integer!") ↔
      FloatLiteral r ∧ '.' ∈ r ∧ ¬ WithPoint r := by
  have hacc := C17_accepted_iff s
  have hinc := C67_incorrect s r h
  have huniq : ∀ r', (s = '-' :: r' ∨ s = r' ∧ ∀ t, r' ≠ '-' :: t) ↔ r' = r := fun r' => by
    have := afterMinus_iff s r'
    unfold AfterMinus at this
    rw [this, (afterMinus_iff s r).1 h, eq_comm]
  simp only [huniq, exists_eq_left] at hacc
  have hpf : PointFree r → '.' ∉ r := by
    rintro ⟨sign, body, hs, rfl, hb⟩
    have := pointFree_nopoint body hb
    rcases hs with rfl | rfl | rfl <;> simp [this]
  constructor
  · rintro ⟨e, he, ht⟩
    have hfl : FloatLiteral r := by
      by_contra hn
      obtain ⟨e', he', ht'⟩ := hinc.2 hn
      rw [he] at he'
      cases he'
      rw [ht] at ht'
      revert ht'; decide
    have hno : ¬ (PointFree r ∨ WithPoint r) := fun hx => by
      obtain ⟨po, hpo⟩ := hacc.2 hx
      rw [he] at hpo; cases hpo
    simp only [not_or] at hno
    refine ⟨hfl, ?_, hno.2⟩
    by_contra hp
    exact hno.1 ((fromStr_pointFree r hp).1 ((fromStr_iff r).2 hfl))
  · rintro ⟨hfl, hp, hw⟩
    cases ht : tryFromStr s with
    | ok po =>
      rcases hacc.1 ⟨po, ht⟩ with hx | hx
      · exact absurd hp (hpf hx)
      · exact absurd hx hw
    | error e =>
      refine ⟨e, rfl, ?_⟩
      cases e with
      | couldNotConvert => rfl
      | incorrectNumber => exact absurd hfl (hinc.1 ⟨_, ht, rfl⟩)
      | tooBig =>
        exfalso
        unfold tryFromStr at ht
        simp only at ht
        split at ht
        · cases ht
        · split at ht
          · split at ht
            · cases ht
            · split at ht <;> cases ht
          · cases ht

/-- The hypothesis, and both sides, on "-1.5e3" and "-1.2.3". -/
example : AfterMinus c!"-1.5e3" c!"1.5e3" ∧ AfterMinus c!"-1.2.3" c!"1.2.3" ∧ ¬ WithPoint c!"1.5e3" ∧ ¬ FloatLiteral c!"1.2.3" :=
  ⟨.inl rfl, .inl rfl, ((C67_not_integer c!"-1.5e3" c!"1.5e3" (.inl rfl)).1 ⟨.couldNotConvert, by with_unfolding_all rfl, rfl⟩).2.2,
    (C67_incorrect c!"-1.2.3" c!"1.2.3" (.inl rfl)).1 ⟨.incorrectNumber, by with_unfolding_all rfl, rfl⟩⟩

/-- C67: signed integers: the error is "Number too big", exactly if the integer wraps to the smallest one of the width. -/
theorem C67_too_big (bits : Nat) (hb : 0 < bits) (x : Int) (e : OpsErr) : tryFromSigned bits x = .error e ↔
    e.text = c!"Number too big" ∧ ((2 : Int) ^ bits) ∣ x + (2 : Int) ^ (bits - 1) := by
  have hp : (2 : Int) ^ bits = 2 * (2 : Int) ^ (bits - 1) := by exact_mod_cast pow_pred hb
  have hpos : (0 : Int) < 2 ^ (bits - 1) := by positivity
  have hlo := Int.le_bmod (x := x) (m := 2 ^ bits) (Nat.two_pow_pos _)
  have hhi := Int.bmod_lt (x := x) (m := 2 ^ bits) (Nat.two_pow_pos _)
  push_cast at hlo hhi
  have hdiv : ((2 : Int) ^ bits) ∣ x - Int.bmod x (2 ^ bits) := by
    have := Int.dvd_self_sub_bmod (x := x) (m := 2 ^ bits)
    push_cast at this
    exact this
  rw [C10_signed bits hb x (Int.bmod x (2 ^ bits)) (by omega) (by omega) hdiv]
  have htext : e.text = c!"Number too big" ↔ e = .tooBig := by cases e <;> decide
  rw [htext]
  split_ifs with h
  · rw [h] at hdiv
    simp only [sub_neg_eq_add] at hdiv
    simp [hdiv, eq_comm]
  · simp only [false_iff, not_and]
    intro _ h2
    apply h
    have h3 : ((2 : Int) ^ bits) ∣ Int.bmod x (2 ^ bits) + (2 : Int) ^ (bits - 1) := by
      have := dvd_sub h2 hdiv
      have e1 : x + (2 : Int) ^ (bits - 1) - (x - Int.bmod x (2 ^ bits)) = Int.bmod x (2 ^ bits) + (2 : Int) ^ (bits - 1) := by ring
      rwa [e1] at this
    have h4 := Int.eq_zero_of_dvd_of_nonneg_of_lt (by omega) (by omega) h3
    omega

/-- Each error occurs. -/
example : tryFromStr c!"foo" = .error .incorrectNumber ∧ tryFromStr c!"-1.2.3" = .error .incorrectNumber ∧
    tryFromStr c!"1.5e3" = .error .couldNotConvert ∧ tryFromStr c!".5" = .error .couldNotConvert ∧
    tryFromStr c!"1.99999999999999999999" = .error .couldNotConvert ∧ tryFromStr c!"--1.5" = .error .couldNotConvert := by
  refine ⟨?_, ?_, ?_, ?_, ?_, ?_⟩ <;> with_unfolding_all rfl

/-! ## C68: exponents -/

/-- The exponent that the text of an exponent writes. -/
inductive ExponentOf : Str → Int → Prop
  | none : ExponentOf [] 0
  | plus (c : Char) (sign : Str) (l : List (Fin 10)) : c = 'e' ∨ c = 'E' → sign = [] ∨ sign = ['+'] → l ≠ [] →
      ExponentOf (c :: (sign ++ digitText l)) (digitsNum l)
  | minus (c : Char) (l : List (Fin 10)) : c = 'e' ∨ c = 'E' → l ≠ [] → ExponentOf (c :: '-' :: digitText l) (-(digitsNum l : Int))

theorem exponentOf_exponent {x : Str} {e : Int} (h : ExponentOf x e) : Exponent x e := by
  cases h with
  | none => exact .none
  | plus c sign l h1 h2 h3 =>
    rcases h2 with rfl | rfl
    · exact .plain c l h1 h3
    · exact .plus c l h1 h3
  | minus c l h1 h2 => exact .minus c l h1 h2

theorem tryFromStr_exponent (sign : Str) (hs : sign = [] ∨ sign = ['-']) (ip : List (Fin 10)) (hi : ip ≠ []) (x : Str) (e : Int)
    (hx : ExponentOf x e) : tryFromStr (sign ++ digitText ip ++ x) = .ok ⟨Flt.ofDec b64 false (digitsNum ip) e,
      (Flt.ofDec b64 false (digitsNum ip) e).toU64 b64, 0, 0, 0, 0⟩ := by
  have hx := exponentOf_exponent hx
  rw [List.append_assoc, sign_cases sign hs ip hi x]
  have hl : UnsignedPointFree (digitText ip ++ x) := .inl ⟨ip, x, hi, (exponent_iff _).1 ⟨e, hx⟩, rfl⟩
  refine tryFromStr_unsigned _ hl _ ?_
  unfold Flt.parseUnsignedFloat
  rw [(parseNumber_some _ _ _).2 (.inl ⟨ip, x, e, hi, hx, rfl, rfl, rfl⟩)]

/-- C68: two texts of digits and exponent that write the same number have the same operands. -/
theorem C68_same_number (sign sign' : Str) (hs : sign = [] ∨ sign = ['-']) (hs' : sign' = [] ∨ sign' = ['-'])
    (ip ip' : List (Fin 10)) (hi : ip ≠ []) (hi' : ip' ≠ []) (x x' : Str) (e e' : Int) (hx : ExponentOf x e) (hx' : ExponentOf x' e')
    (h : (digitsNum ip : ℚ) * 10 ^ e = digitsNum ip' * 10 ^ e') :
    tryFromStr (sign ++ digitText ip ++ x) = tryFromStr (sign' ++ digitText ip' ++ x') := by
  have : Flt.ofDec b64 false (digitsNum ip) e = Flt.ofDec b64 false (digitsNum ip') e' := by
    rw [Flt.ofDec_rnd, Flt.ofDec_rnd, h]
  rw [tryFromStr_exponent sign hs ip hi x e hx, tryFromStr_exponent sign' hs' ip' hi' x' e' hx', this]

example : tryFromStr c!"-120e1" = tryFromStr c!"12E+2" :=
  C68_same_number ['-'] [] (.inr rfl) (.inl rfl) [1, 2, 0] [1, 2] (by simp) (by simp) c!"e1" c!"E+2" 1 2
    (.plus 'e' [] [1] (.inl rfl) (.inl rfl) (by simp)) (.plus 'E' ['+'] [2] (.inr rfl) (.inr rfl) (by simp)) (by norm_num [digitsNum])

/-- C68: if the number is an integer up to 2^53, they are the operands of the integer. -/
theorem C68_integer (sign : Str) (hs : sign = [] ∨ sign = ['-']) (ip : List (Fin 10)) (hi : ip ≠ []) (x : Str) (e : Int)
    (hx : ExponentOf x e) (k : Nat) (hk : k ≤ 2 ^ 53) (h : (digitsNum ip : ℚ) * 10 ^ e = k) :
    tryFromStr (sign ++ digitText ip ++ x) = .ok (fromUnsigned k) := by
  obtain ⟨l, hl, rfl⟩ : ∃ l : List (Fin 10), l ≠ [] ∧ digitsNum l = k := ⟨natDigits k, natDigits_ne k, digitsNum_natDigits k⟩
  rw [C68_same_number sign [] hs (.inl rfl) ip l hi hl x [] e 0 hx .none (by simpa using h)]
  simpa using C12_integer [] (.inl rfl) l hl hk

/-- C68: whatever the exponent, no fraction digits are seen, even if the number has some. -/
theorem C68_no_fraction (sign : Str) (hs : sign = [] ∨ sign = ['-']) (ip : List (Fin 10)) (hi : ip ≠ []) (x : Str) (e : Int)
    (hx : ExponentOf x e) : ∃ po, tryFromStr (sign ++ digitText ip ++ x) = .ok po ∧ po.v = 0 ∧ po.w = 0 ∧ po.f = 0 ∧ po.t = 0 :=
  ⟨_, tryFromStr_exponent sign hs ip hi x e hx, rfl, rfl, rfl, rfl⟩

/-- C68: an exponent after a point is an error. -/
theorem C68_point (sign : Str) (hs : sign = [] ∨ sign = ['-']) (ip fp : List (Fin 10)) (x : Str) (e : Int) (hx : ExponentOf x e)
    (hne : x ≠ []) (hd : ip ≠ [] ∨ fp ≠ []) :
    ∃ err, tryFromStr (sign ++ decText ip fp ++ x) = .error err ∧ err.text = c!"Could not convert string to integer!" := by
  have hstart := (unsignedLiteral_start (decText ip fp ++ x) (.inr ⟨ip, fp, x, hd,
    (exponent_iff _).1 ⟨e, exponentOf_exponent hx⟩, by simp [decText]⟩))
  have ham : AfterMinus (sign ++ decText ip fp ++ x) (decText ip fp ++ x) := by
    rcases hs with rfl | rfl
    · exact .inr ⟨by simp, fun t => (hstart.2 t).1⟩
    · exact .inl (by simp)
  refine (C67_not_integer _ _ ham).2 ⟨⟨[], _, .inl rfl, rfl, .inr ⟨ip, fp, x, hd,
    (exponent_iff _).1 ⟨e, exponentOf_exponent hx⟩, by simp [decText]⟩⟩, by simp [decText], ?_⟩
  rintro ⟨sg, ip', fp', hsg, -, -, -, -, heq⟩
  obtain ⟨c, hc, hcx⟩ : ∃ c, c ∈ x ∧ (c = 'e' ∨ c = 'E') := by
    cases hx with
    | none => contradiction
    | plus c sign l h1 h2 h3 => exact ⟨c, by simp, h1⟩
    | minus c l h1 h2 => exact ⟨c, by simp, h1⟩
  have hin : c ∈ sg ++ decText ip' fp' := by rw [← heq]; simp [hc]
  have hnd : ∀ l, c ∉ digitText l := by
    intro l hl
    obtain ⟨d, -, hd⟩ := List.mem_map.1 hl
    rcases hcx with rfl | rfl
    · exact digitChar_ne d 'e' rfl hd
    · exact digitChar_ne d 'E' rfl hd
  simp only [decText, List.mem_append, List.mem_cons, hnd, or_false, false_or] at hin
  rcases hsg with rfl | rfl <;> rcases hcx with rfl | rfl <;> revert hin <;> simp

/-- 1200e-2 is 12; 15e-1 has no fraction digits for the code. -/
example : tryFromStr c!"1200e-2" = .ok (fromUnsigned 12) :=
  C68_integer [] (.inl rfl) [1, 2, 0, 0] (by simp) c!"e-2" (-2) (.minus 'e' [2] (.inl rfl) (by simp)) 12 (by norm_num) (by
    norm_num [digitsNum])
example : ∃ po, tryFromStr c!"15e-1" = .ok po ∧ po.v = 0 ∧ po.w = 0 ∧ po.f = 0 ∧ po.t = 0 :=
  C68_no_fraction [] (.inl rfl) [1, 5] (by simp) c!"e-1" (-1) (.minus 'e' [1] (.inl rfl) (by simp))

/-! ## C69: the type of the input -/

/-- The ways to give the integer `k`, or `-k`, to `select`. -/
inductive Given (k : Nat) : Except OpsErr PluralOperands → Prop
  | unsigned : Given k (.ok (fromUnsigned k))
  | signed (bits : Nat) (x : Int) : x.natAbs = k → 0 < bits → k < 2 ^ (bits - 1) → Given k (tryFromSigned bits x)
  | text (sign : Str) (ip : List (Fin 10)) : sign = [] ∨ sign = ['-'] → ip ≠ [] → digitsNum ip = k →
      Given k (tryFromStr (sign ++ digitText ip))
  | exponent (sign : Str) (ip : List (Fin 10)) (x : Str) (e : Int) : sign = [] ∨ sign = ['-'] → ip ≠ [] → ExponentOf x e →
      (digitsNum ip : ℚ) * 10 ^ e = k → Given k (tryFromStr (sign ++ digitText ip ++ x))
  | f64 (neg : Bool) : Given k (tryFromFloat b64 (.fin neg (k * 2 ^ 1074)))
  | f32 (neg : Bool) : k < 2 ^ 24 → Given k (tryFromFloat b32 (.fin neg (k * 2 ^ 149)))

/-- C69: whatever way an integer below 2^53 is given, its operands are the same. -/
theorem C69_operands (k : Nat) (hk : k < 2 ^ 53) (ops : Except OpsErr PluralOperands) (h : Given k ops) :
    ops = .ok (fromUnsigned k) := by
  cases h with
  | unsigned => rfl
  | signed bits x h1 hb h2 =>
    have h3 : ((k : Nat) : Int) < (2 : Int) ^ (bits - 1) := by exact_mod_cast h2
    rw [C10_fits bits hb x (by omega) (by omega), h1]
  | text sign ip h1 h2 h3 => rw [← h3]; exact C12_integer sign h1 ip h2 (by omega)
  | exponent sign ip x e h1 h2 h3 h4 => exact C68_integer sign h1 ip h2 x e h3 k hk.le h4
  | f64 neg => exact C20_integral neg k hk
  | f32 neg h => exact C53_integral neg k h

/-- Twelve, as an `i16`, as text, with an exponent, and as the `f32` -12. -/
example : tryFromSigned 16 (-12) = .ok (fromUnsigned 12) ∧ tryFromStr c!"-012" = .ok (fromUnsigned 12) ∧
    tryFromStr c!"1200e-2" = .ok (fromUnsigned 12) ∧ tryFromFloat b32 (.fin true (12 * 2 ^ 149)) = .ok (fromUnsigned 12) :=
  ⟨C69_operands 12 (by decide) _ (.signed 16 (-12) rfl (by decide) (by decide)),
    C69_operands 12 (by decide) _ (.text ['-'] [0, 1, 2] (.inr rfl) (by simp) (by decide)),
    C69_operands 12 (by decide) _ (.exponent [] [1, 2, 0, 0] c!"e-2" (-2) (.inl rfl) (by simp) (.minus 'e' [2] (.inl rfl) (by simp))
      (by norm_num [digitsNum])),
    C69_operands 12 (by decide) _ (.f32 true (by decide))⟩

/-- C69: so `select` gives the same category. -/
theorem C69_category (t : PluralRuleType) (id : LangId) (pr : PluralRules) (h : create id t = .ok pr) (k : Nat) (hk : k < 2 ^ 53) :
    ∃ c, ∀ ops, Given k ops → select pr ops = some (.ok c) := by
  obtain ⟨c, hc⟩ := ((C06_select_error_iff id t pr h (.ok (fromUnsigned k) : Except OpsErr PluralOperands)).2).2 ⟨_, rfl⟩
  exact ⟨c, fun ops ho => by rw [C69_operands k hk ops ho]; exact hc⟩

example : ∃ pr c, create { language := some c!"pl", script := none, region := none, variants := none } .CARDINAL = .ok pr ∧
    select pr (tryFromStr c!"-012") = some (.ok c) ∧ select pr (tryFromFloat b64 (.fin false (12 * 2 ^ 1074))) = some (.ok c) := by
  obtain ⟨pr, h⟩ : ∃ pr, create { language := some c!"pl", script := none, region := none, variants := none } .CARDINAL = .ok pr :=
    (C01_create_iff_listed _ _).1.2 (by decide +kernel)
  obtain ⟨c, hc⟩ := C69_category _ _ pr h 12 (by decide)
  exact ⟨pr, c, h, hc _ (.text ['-'] [0, 1, 2] (.inr rfl) (by simp) (by decide)), hc _ (.f64 false)⟩

end Verif.Props
