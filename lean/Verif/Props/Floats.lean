import Verif.Lemmas.FloatText
import Verif.Props.Operands

/-!
# Properties of the conversion of floats: C20, C53, C54

operands.rs:168-186 converts a float through its text.  A finite float of format `F` is `.fin neg m` with value `± m / 2^F.scale`.
-/

namespace Verif.Props
open Verif Spec Uts35 Strings Grammar PluralOperands Flt FloatText

attribute [local irreducible] Flt.ofRat Flt.roundMag

theorem display_sign (F : Fmt) (neg : Bool) (m : Nat) (h : ∀ t, displayMag F m ≠ '-' :: t) :
    tryFromFloat F (.fin neg m) = tryFromStr (displayMag F m) := by
  unfold tryFromFloat display
  cases neg with
  | false => rfl
  | true => exact tryFromStr_minus _ h

theorem decimalText_head (d : Nat) (e : Int) : ∃ a t, decimalText d e = Spec.digitChar a :: t := by
  have key : ∀ (ip : List (Fin 10)) (r : Str), ip ≠ [] → ∃ a t, digitText ip ++ r = Spec.digitChar a :: t := by
    intro ip r h
    cases ip with
    | nil => contradiction
    | cons a ip => exact ⟨a, _, rfl⟩
  rcases le_or_gt 0 e with h | h
  · obtain ⟨k, rfl⟩ := Int.eq_ofNat_of_zero_le h
    rw [decimalText_int]
    have := key (natDigits d ++ List.replicate k 0) [] (by simp [natDigits_ne])
    simpa using this
  · obtain ⟨k, hk⟩ := Int.eq_ofNat_of_zero_le (by omega : 0 ≤ -e)
    obtain rfl : e = -(k : Int) := by omega
    obtain ⟨ip, fp, h1, -, h3, -⟩ := decimalText_frac d k (by omega)
    rw [h3]
    exact key ip _ h1

theorem decimalText_digit (d : Nat) (e : Int) : ∀ t, decimalText d e ≠ '-' :: t := by
  obtain ⟨a, t, h⟩ := decimalText_head d e
  intro t' h'
  rw [h] at h'
  exact digitChar_ne a '-' rfl (List.cons.inj h').1

/-- The conversion of a finite float of any format, in terms of the decimal that is shown. -/
theorem convert_finite (F : Fmt) (hF : 0 < F.prec) (hF' : F.prec ≤ 53) (neg : Bool) (m : Nat) (hm : IsFloat F (.fin neg m)) :
    (2 ^ F.scale ∣ m ∧ ∃ d k : Nat, Reads F m d k ∧ tryFromFloat F (.fin neg m) =
      .ok ⟨Flt.ofDec b64 false d k, (Flt.ofDec b64 false d k).toU64 b64, 0, 0, 0, 0⟩) ∨
    (¬ 2 ^ F.scale ∣ m ∧ ∃ d j : Nat, 0 < j ∧ d < 2 ^ 64 ∧ ¬ 10 ∣ d ∧ Reads F m d (-(j : Int)) ∧ d / 10 ^ j = m / 2 ^ F.scale ∧
      tryFromFloat F (.fin neg m) = .ok ⟨Flt.ofDec b64 false d (-(j : Int)), m / 2 ^ F.scale, j, j, d % 10 ^ j, d % 10 ^ j⟩) := by
  obtain ⟨hr, hlt⟩ := hm
  rcases Nat.eq_zero_or_pos m with rfl | h0
  · left
    refine ⟨dvd_zero _, 0, 0, ?_, ?_⟩
    · rw [reads_iff F 0 _ _ hlt, Nat.cast_zero, zero_mul, rnd_zero F hF]
    · rw [display_sign F neg 0 (by unfold displayMag; simp)]
      exact convert_int 0 0
  · obtain ⟨d, e, h1, h2, h3, -, h5⟩ := shortest_spec F hF hF' m hr h0 hlt
    have h6 := exp_neg_iff F hF m d e hr hlt h2 h5
    have h7 := last_digit F m d e hlt h2 h5
    rw [display_sign F neg m (by rw [h1]; exact decimalText_digit d e), h1]
    rcases le_or_gt 0 e with h | h
    · obtain ⟨k, rfl⟩ := Int.eq_ofNat_of_zero_le h
      exact .inl ⟨h6.1 h, d, k, h2, convert_int d k⟩
    · obtain ⟨j, hj⟩ := Int.eq_ofNat_of_zero_le (by omega : 0 ≤ -e)
      obtain rfl : e = -(j : Int) := by omega
      have hn : ¬ 2 ^ F.scale ∣ m := fun hh => absurd (h6.2 hh) (by omega)
      have h8 := int_part F hF m d j hr hlt h2 hn
      refine .inr ⟨hn, d, j, by omega, by omega, h7, h2, h8, ?_⟩
      rw [convert_frac d j (by omega) (by omega) h7, h8]

theorem toU64_pos (F : Fmt) (m : Nat) : Flt.toU64 F (.fin false m) = min (m / 2 ^ F.scale) (2 ^ 64 - 1) := by
  simp [toU64]

theorem ofDec_int (F : Fmt) (hF : 0 < F.prec) (hF2 : F.prec ≤ F.maxExp) (k : Nat) (hk : k < 2 ^ F.prec) :
    Flt.ofDec F false k 0 = .fin false (k * 2 ^ F.scale) := by
  rw [ofDec_rnd, zpow_zero, mul_one, rnd_int F hF k hk.le, if_neg]
  rw [Nat.not_le, Nat.pow_add]
  exact Nat.mul_lt_mul_of_pos_right (lt_of_lt_of_le hk (Nat.pow_le_pow_right (by omega) hF2)) (Nat.two_pow_pos _)

/-- Integers below `2^prec` keep their operands. -/
theorem convert_integral (F : Fmt) (hF : 0 < F.prec) (hF' : F.prec ≤ 53) (hF2 : F.prec ≤ F.maxExp) (neg : Bool) (k : Nat)
    (hk : k < 2 ^ F.prec) : tryFromFloat F (.fin neg (k * 2 ^ F.scale)) = .ok (fromUnsigned k) := by
  have hm : IsFloat F (.fin neg (k * 2 ^ F.scale)) := by
    refine ⟨⟨k, F.scale, hk, rfl⟩, ?_⟩
    rw [Nat.pow_add]
    refine Nat.mul_lt_mul_of_pos_right (lt_of_lt_of_le hk ?_) (Nat.two_pow_pos _)
    exact Nat.pow_le_pow_right (by omega) hF2
  rcases convert_finite F hF hF' neg _ hm with ⟨-, d, e, h2, h1⟩ | ⟨hn, -⟩
  · rw [reads_iff F _ _ _ hm.2] at h2
    have h3 := reads_int F hF _ (d * 10 ^ e) (Nat.mul_lt_mul_of_pos_right hk (Nat.two_pow_pos _))
      (by push_cast; rw [zpow_natCast] at h2; exact h2)
    have h4 : k = d * 10 ^ e := Nat.eq_of_mul_eq_mul_right (Nat.two_pow_pos _) h3
    rw [h1, ← ofNat_dec, ← h4, fromUnsigned]
    have h5 : Flt.ofNat b64 k = .fin false (k * 2 ^ b64.scale) := by
      have := ofNat_dec k 0
      rw [pow_zero, mul_one] at this
      rw [this]
      exact ofDec_int b64 (by decide) (by decide) k (lt_of_lt_of_le hk (Nat.pow_le_pow_right (by omega) hF'))
    have h7 : Flt.toU64 b64 (.fin false (k * 2 ^ b64.scale)) = k := by
      have hk' : k < 2 ^ 53 := lt_of_lt_of_le hk (Nat.pow_le_pow_right (by omega) hF')
      rw [toU64_pos, Nat.mul_div_cancel _ (Nat.two_pow_pos _)]
      omega
    rw [h5, h7]
  · exact absurd (Dvd.intro_left _ rfl) hn

/-! ## C20: `f64` -/

/-- C20: infinity and NaN. -/
theorem C20_special (neg : Bool) : tryFromFloat b64 (.inf neg) = .ok ⟨.inf false, 2 ^ 64 - 1, 0, 0, 0, 0⟩ ∧
    tryFromFloat b64 .nan = .ok ⟨.nan, 0, 0, 0, 0, 0⟩ := by
  cases neg <;> exact ⟨rfl, rfl⟩

/-- C20: the conversion of an `f64` succeeds. -/
theorem C20_succeeds (x : Flt) (h : IsFloat b64 x) : ∃ po, tryFromFloat b64 x = .ok po := by
  match x, h with
  | .nan, _ => exact ⟨_, (C20_special false).2⟩
  | .inf neg, _ => exact ⟨_, (C20_special neg).1⟩
  | .fin neg m, h =>
    rcases convert_finite b64 (by decide) (by decide) neg m h with ⟨-, d, k, -, h1⟩ | ⟨-, d, j, -, -, -, -, -, h1⟩
    · exact ⟨_, h1⟩
    · exact ⟨_, h1⟩

/-- The negative of the smallest subnormal. -/
example : ∃ po, tryFromFloat b64 (.fin true 1) = .ok po :=
  C20_succeeds _ ⟨⟨1, 0, by decide, rfl⟩, Nat.one_lt_two_pow (by decide)⟩

/-- C20: for a finite `f64`, `n` is the absolute value, `i` the integer part saturated to `u64`, no trailing zeros are visible,
and the fraction is zero exactly for integral values. -/
theorem C20_finite (neg : Bool) (m : Nat) (h : IsFloat b64 (.fin neg m)) (po : PluralOperands)
    (hpo : tryFromFloat b64 (.fin neg m) = .ok po) : po.n = .fin false m ∧ po.i = min (m / 2 ^ 1074) (2 ^ 64 - 1) ∧
      po.v = po.w ∧ po.f = po.t ∧ (po.f = 0 ↔ 2 ^ 1074 ∣ m) ∧ (po.v = 0 ↔ 2 ^ 1074 ∣ m) := by
  rcases convert_finite b64 (by decide) (by decide) neg m h with ⟨hd, d, k, h2, h1⟩ | ⟨hd, d, j, hj, h64, h10, h2, h3, h1⟩
  · rw [h1] at hpo
    cases hpo
    unfold Reads at h2
    have hd' : 2 ^ 1074 ∣ m := hd
    refine ⟨h2, ?_, rfl, rfl, by simp [hd'], by simp [hd']⟩
    simp only [h2]
    exact toU64_pos b64 m
  · rw [h1] at hpo
    cases hpo
    have hd' : ¬ 2 ^ 1074 ∣ m := hd
    refine ⟨h2, ?_, rfl, rfl, ?_, ?_⟩
    · have : m / 2 ^ 1074 ≤ 2 ^ 64 - 1 := by
        have h4 : d / 10 ^ j = m / 2 ^ 1074 := h3
        rw [← h4]
        have := Nat.div_le_self d (10 ^ j)
        omega
      exact (Nat.min_eq_left this).symm
    · simp only [hd', iff_false]
      intro h0
      apply h10
      exact dvd_trans (dvd_pow_self 10 (by omega)) (Nat.dvd_of_mod_eq_zero h0)
    · simp only [hd', iff_false]; omega

/-- Where C20 says something: 0.1 is a float, its text is accepted, and it has a fraction. -/
example : ∃ po, tryFromFloat b64 (.fin true (3602879701896397 * 2 ^ 1019)) = .ok po ∧ po.i = 0 ∧ po.f ≠ 0 := by
  have hf : IsFloat b64 (.fin true (3602879701896397 * 2 ^ 1019)) := ⟨⟨3602879701896397, 1019, by decide, rfl⟩, by decide +kernel⟩
  obtain ⟨po, h⟩ := C20_succeeds _ hf
  obtain ⟨-, h2, -, -, h3, -⟩ := C20_finite true _ hf po h
  exact ⟨po, h, h2.trans (by decide +kernel), fun h0 => absurd (h3.1 h0) (by decide +kernel)⟩

/-- C20: an integral `f64` below 2^53 has the operands of the integer. -/
theorem C20_integral (neg : Bool) (k : Nat) (hk : k < 2 ^ 53) :
    tryFromFloat b64 (.fin neg (k * 2 ^ 1074)) = .ok (fromUnsigned k) :=
  convert_integral b64 (by decide) (by decide) (by decide) neg k hk

/-- The shortest decimal of 0.1 + 0.2. -/
example : display b64 (.fin false (1351079888211149 * 2 ^ 1022)) = c!"0.30000000000000004" := by decide +kernel
/-- The smallest subnormal has 324 fraction digits, and `f = 5`. -/
example : (tryFromFloat b64 (.fin true 1)).toOption.map (fun po => (po.i, po.v, po.f)) = some (0, 324, 5) := by decide +kernel
/-- 2^60 is shown as 1152921504606847000, which still reads as 2^60. -/
example : display b64 (.fin false (2 ^ 1134)) = c!"1152921504606847000" := by decide +kernel
example : (tryFromFloat b64 (.fin false (2 ^ 1134))).toOption.map (fun po => (po.i, po.v, po.f)) = some (2 ^ 60, 0, 0) := by decide +kernel
/-- 1e23 is not exact: the float below it is shown so. -/
example : display b64 (.fin true (5960464477539062 * 2 ^ 1098)) = c!"-100000000000000000000000" := by decide +kernel
example : IsFloat b64 (.fin true 1) := by
  refine ⟨⟨1, 0, by decide, rfl⟩, ?_⟩
  exact Nat.one_lt_two_pow (by decide)

/-! ## C53: `f32` -/

/-- C53: the conversion of an `f32` succeeds. -/
theorem C53_succeeds (x : Flt) (h : IsFloat b32 x) : ∃ po, tryFromFloat b32 x = .ok po := by
  match x, h with
  | .nan, _ => exact ⟨_, (C20_special false).2⟩
  | .inf neg, _ => exact ⟨_, (C20_special neg).1⟩
  | .fin neg m, h =>
    rcases convert_finite b32 (by decide) (by decide) neg m h with ⟨-, d, k, -, h1⟩ | ⟨-, d, j, -, -, -, -, -, h1⟩
    · exact ⟨_, h1⟩
    · exact ⟨_, h1⟩

example : ∃ po, tryFromFloat b32 (.fin true 1) = .ok po :=
  C53_succeeds _ ⟨⟨1, 0, by decide, rfl⟩, Nat.one_lt_two_pow (by decide)⟩

/-- C53: no trailing zeros are visible, the fraction is zero exactly for integral values, `i` is the integer part of a value
that is not integral, and `n` is a decimal that reads as this `f32`, read as `f64`. -/
theorem C53_finite (neg : Bool) (m : Nat) (h : IsFloat b32 (.fin neg m)) (po : PluralOperands)
    (hpo : tryFromFloat b32 (.fin neg m) = .ok po) : po.v = po.w ∧ po.f = po.t ∧ (po.f = 0 ↔ 2 ^ 149 ∣ m) ∧
      (po.v = 0 ↔ 2 ^ 149 ∣ m) ∧ (¬ 2 ^ 149 ∣ m → po.i = m / 2 ^ 149) ∧
      ∃ d e, ofDec b32 false d e = .fin false m ∧ po.n = ofDec b64 false d e := by
  rcases convert_finite b32 (by decide) (by decide) neg m h with ⟨hd, d, k, h2, h1⟩ | ⟨hd, d, j, hj, h64, h10, h2, h3, h1⟩
  · rw [h1] at hpo
    cases hpo
    have hd' : 2 ^ 149 ∣ m := hd
    exact ⟨rfl, rfl, ⟨fun _ => hd', fun _ => rfl⟩, ⟨fun _ => hd', fun _ => rfl⟩, fun hn => absurd hd' hn, d, k, h2, rfl⟩
  · rw [h1] at hpo
    cases hpo
    have hd' : ¬ 2 ^ 149 ∣ m := hd
    refine ⟨rfl, rfl, ?_, ?_, fun _ => rfl, d, _, h2, rfl⟩
    · simp only [hd', iff_false]
      intro h0
      apply h10
      exact dvd_trans (dvd_pow_self 10 (by omega)) (Nat.dvd_of_mod_eq_zero h0)
    · simp only [hd', iff_false]; omega

/-- The `f32` 0.1. -/
example : ∃ po, tryFromFloat b32 (.fin false (13421773 * 2 ^ 122)) = .ok po ∧ po.i = 0 ∧ po.f ≠ 0 := by
  have hf : IsFloat b32 (.fin false (13421773 * 2 ^ 122)) := ⟨⟨13421773, 122, by decide, rfl⟩, by decide +kernel⟩
  obtain ⟨po, h⟩ := C53_succeeds _ hf
  obtain ⟨-, -, h3, -, h4, -⟩ := C53_finite false _ hf po h
  exact ⟨po, h, (h4 (by decide +kernel)).trans (by decide +kernel), fun h0 => absurd (h3.1 h0) (by decide +kernel)⟩

/-- C53: an integral `f32` below 2^24 has the operands of the integer. -/
theorem C53_integral (neg : Bool) (k : Nat) (hk : k < 2 ^ 24) :
    tryFromFloat b32 (.fin neg (k * 2 ^ 149)) = .ok (fromUnsigned k) :=
  convert_integral b32 (by decide) (by decide) (by decide) neg k hk

example : tryFromFloat b32 (.fin true (16777215 * 2 ^ 149)) = .ok (fromUnsigned 16777215) := C53_integral true 16777215 (by decide)

/-- C53: beyond 2^24 the operands can be those of another integer: 2^60 as `f32` is shown as 1152921500000000000, so that `i` is
not 2^60. -/
theorem C53_large_wrong : display b32 (.fin false (2 ^ 60 * 2 ^ 149)) = c!"1152921500000000000" ∧
    IsFloat b32 (.fin false (2 ^ 60 * 2 ^ 149)) ∧
    (tryFromFloat b32 (.fin false (2 ^ 60 * 2 ^ 149))).toOption.map (fun po => (po.i, po.v)) = some (1152921500000000000, 0) := by
  refine ⟨by decide +kernel, ⟨⟨1, 209, by decide, by rw [one_mul, ← Nat.pow_add]⟩, ?_⟩, by decide +kernel⟩
  rw [← Nat.pow_add]
  exact Nat.pow_lt_pow_right (by omega) (by decide)

/-- 0.1 as `f32` has the operands of the text 0.1, although as a number it is 0.100000001490116…. -/
example : display b32 (.fin false (13421773 * 2 ^ 122)) = c!"0.1" := by decide +kernel
example : ofRat b32 false 1 10 = .fin false (13421773 * 2 ^ 122) := by decide +kernel

/-! ## C54: the text of a float -/

theorem display_pos (F : Fmt) (hF : 0 < F.prec) (hF' : F.prec ≤ 53) (m : Nat) (h : IsFloat F (.fin false m)) :
    ∃ d e, displayMag F m = decimalText d e ∧ Reads F m d e := by
  rcases Nat.eq_zero_or_pos m with rfl | h0
  · refine ⟨0, 0, by unfold displayMag; rfl, ?_⟩
    rw [reads_iff F 0 _ _ h.2, Nat.cast_zero, zero_mul, rnd_zero F hF]
  · obtain ⟨d, e, h1, h2, -⟩ := shortest_spec F hF hF' m h.1 h0 h.2
    exact ⟨d, e, h1, h2⟩

theorem fromStr_decimalText (d : Nat) (e : Int) : Flt.fromStr b64 (decimalText d e) = some (ofDec b64 false d e) := by
  rcases le_or_gt 0 e with h | h
  · obtain ⟨k, rfl⟩ := Int.eq_ofNat_of_zero_le h
    rw [decimalText_int, fromStr_int _ (by simp [natDigits_ne]), natDigits_int, ofNat_dec]
  · obtain ⟨j, hj⟩ := Int.eq_ofNat_of_zero_le (by omega : 0 ≤ -e)
    obtain rfl : e = -(j : Int) := by omega
    obtain ⟨ip, fp, h1, h2, h3, h4, h5⟩ := decimalText_frac d j (by omega)
    have hall : allDigits (decOf ip fp) = d := by
      simp only [allDigits, decOf, Dec.i, Dec.v, Dec.f, h2, h4, h5]
      exact Nat.div_add_mod' d (10 ^ j)
    rw [h3, fromStr_dec ip fp h1, hall, h2, ofRat_dec d j (by omega)]

theorem display_fin (F : Fmt) (neg : Bool) (m : Nat) : display F (.fin neg m) = if neg then '-' :: displayMag F m else displayMag F m := by
  unfold display; rfl

theorem fromStr_minus (F : Fmt) (s : Str) : Flt.fromStr F ('-' :: s) = Flt.parseUnsignedFloat F true s := by
  simp [Flt.fromStr]

theorem fromStr_digit (F : Fmt) (a : Fin 10) (t : Str) :
    Flt.fromStr F (Spec.digitChar a :: t) = Flt.parseUnsignedFloat F false (Spec.digitChar a :: t) := by
  simp only [Flt.fromStr, digitChar_ne a '-' rfl, digitChar_ne a '+' rfl, if_false]

/-- C54: the text of every `f64` reads back as the same `f64`. -/
theorem C54_reads_back (x : Flt) (h : IsFloat b64 x) : Flt.fromStr b64 (display b64 x) = some x := by
  match x, h with
  | .nan, _ => rfl
  | .inf true, _ => rfl
  | .inf false, _ => rfl
  | .fin neg m, h =>
    obtain ⟨d, e, h1, h2⟩ := display_pos b64 (by decide) (by decide) m h
    have h3 := fromStr_decimalText d e
    unfold Reads at h2
    rw [h2, ← h1] at h3
    rw [display_fin]
    cases neg with
    | false => rw [if_neg (by simp)]; exact h3
    | true =>
      rw [if_pos rfl, fromStr_minus]
      have h4 : Flt.parseUnsignedFloat b64 false (displayMag b64 m) = some (.fin false m) := by
        obtain ⟨a, t, ht⟩ := decimalText_head d e
        rw [h1, ht, fromStr_digit] at h3
        rw [h1, ht]; exact h3
      exact (parseFloat_neg _ _ h4).1

example : Flt.fromStr b64 (display b64 (.fin true 1)) = some (.fin true 1) :=
  C54_reads_back _ ⟨⟨1, 0, by decide, rfl⟩, Nat.one_lt_two_pow (by decide)⟩

/-- C54: a finite positive float is shown as a decimal without exponent that reads as the float, no decimal that does so has fewer
digits or a larger exponent, and none with the same exponent is nearer to the float. -/
theorem C54_shortest (F : Fmt) (hF : F = b64 ∨ F = b32) (m : Nat) (h0 : 0 < m) (h : IsFloat F (.fin false m)) :
    ∃ d e, display F (.fin false m) = decimalText d e ∧ ofDec F false d e = .fin false m ∧
      ∀ d' e', ofDec F false d' e' = .fin false m → e' ≤ e ∧ (∀ k, d' < 10 ^ k → d < 10 ^ k) ∧
        (e' = e → |(d : ℚ) * 10 ^ e - (m : ℚ) / 2 ^ F.scale| ≤ |(d' : ℚ) * 10 ^ e - (m : ℚ) / 2 ^ F.scale|) := by
  have hp : 0 < F.prec ∧ F.prec ≤ 53 := by rcases hF with rfl | rfl <;> decide
  obtain ⟨d, e, h1, h2, -, h4, h5⟩ := shortest_spec F hp.1 hp.2 m h.1 h0 h.2
  refine ⟨d, e, h1, h2, ?_⟩
  intro d' e' hr
  refine ⟨h5 d' e' hr, fun k hk => fewest F hp.1 m d e h0 h.2 h2 h5 d' e' hr k hk, ?_⟩
  rintro rfl
  exact digitsAt_nearest F hp.1 m e' h.1 h.2 d h4 d' hr

/-- The smallest positive `f32` is shown as 0.000…1, with one digit: every decimal that reads as it has an exponent at most that of
the shown one. -/
example : ∃ d e, display b32 (.fin false 1) = decimalText d e ∧ ofDec b32 false d e = .fin false 1 ∧
    ∀ d' e', ofDec b32 false d' e' = .fin false 1 → e' ≤ e := by
  obtain ⟨d, e, h1, h2, h3⟩ := C54_shortest b32 (.inr rfl) 1 (by decide) ⟨⟨1, 0, by decide, rfl⟩, Nat.one_lt_two_pow (by decide)⟩
  exact ⟨d, e, h1, h2, fun d' e' h => (h3 d' e' h).1⟩

end Verif.Props
