import Verif.Lemmas.Fifteen
import Verif.Props.Categories
import Verif.Props.Floats

/-!
# Properties of floats that are nearest to short decimals: C55
-/

namespace Verif.Props
open Verif Api Uts35 Spec Sem Strings Parser Grammar PluralOperands Flt FloatText

attribute [local irreducible] Flt.ofRat Flt.roundMag

/-! ## C55: decimals of at most 15 digits -/

theorem ofDec_fin (F : Fmt) (hF : F.prec = 53) (hF2 : 53 ≤ F.maxExp) (neg : Bool) (d j : Nat) (hd : d < 10 ^ 15) :
    ∃ m, ofDec F neg d (-(j : Int)) = .fin neg m ∧ Reads F m d (-(j : Int)) ∧ Rep F m ∧ m < 2 ^ (F.maxExp + F.scale) := by
  have h1 : rnd F (d * 10 ^ (-(j : Int))) ≤ rnd F ((10 ^ 15 : Nat) : ℚ) := by
    refine rnd_mono F (by omega) _ _ (mul_nonneg (Nat.cast_nonneg _) (pow_pos_q _).le) ?_
    have h2 : (10 : ℚ) ^ (-(j : Int)) ≤ 1 := by
      rw [zpow_neg, zpow_natCast]
      exact inv_le_one_of_one_le₀ (one_le_pow₀ (by norm_num))
    have h3 : (d : ℚ) ≤ (10 ^ 15 : Nat) := by exact_mod_cast hd.le
    calc (d : ℚ) * 10 ^ (-(j : Int)) ≤ d * 1 := mul_le_mul_of_nonneg_left h2 (by positivity)
      _ ≤ _ := by rw [mul_one]; exact h3
  rw [rnd_int F (by omega) _ (by rw [hF]; norm_num)] at h1
  have h4 : 10 ^ 15 * 2 ^ F.scale < 2 ^ (F.maxExp + F.scale) := by
    rw [Nat.pow_add]
    refine Nat.mul_lt_mul_of_pos_right ?_ (Nat.two_pow_pos _)
    exact lt_of_lt_of_le (by norm_num : 10 ^ 15 < 2 ^ 53) (Nat.pow_le_pow_right (by omega) hF2)
  have h5 : ¬ 2 ^ (F.maxExp + F.scale) ≤ rnd F (d * 10 ^ (-(j : Int))) := by omega
  refine ⟨rnd F (d * 10 ^ (-(j : Int))), ?_, ?_, rnd_rep F (by omega) _, by omega⟩
  · rw [ofDec_rnd, if_neg h5]
  · unfold Reads; rw [ofDec_rnd, if_neg h5]

theorem ofRat_dec' (neg : Bool) (d j : Nat) : Flt.ofRat b64 neg d (10 ^ j) = Flt.ofDec b64 neg d (-(j : Int)) := by
  rcases Nat.eq_zero_or_pos j with rfl | hj
  · simp [Flt.ofDec]
  · have hneg : ¬ (0 : Int) ≤ -(j : Int) := by omega
    simp only [Flt.ofDec, if_neg hneg, neg_neg, Int.toNat_natCast]

/-- C55: the `f64` nearest to a decimal of at most 15 digits has the operands of the decimal's text, without trailing zeros. -/
theorem C55_fifteen_digits (neg : Bool) (ip fp : List (Fin 10)) (hi : ip ≠ []) (hd : allDigits (decOf ip fp) < 10 ^ 15)
    (hv : fp.length ≤ 300) :
    tryFromFloat b64 (.ofRat b64 neg (allDigits (decOf ip fp)) (10 ^ fp.length)) =
      tryFromStr (plainText ip (dropTrailingZeros fp)) := by
  obtain ⟨m, h1, h2, h3, h4⟩ := ofDec_fin b64 rfl (by decide) neg (allDigits (decOf ip fp)) fp.length hd
  rw [ofRat_dec', h1]
  have hint : ∀ k : Nat, allDigits (decOf ip fp) = k * 10 ^ fp.length →
      tryFromStr (plainText ip (dropTrailingZeros fp)) = tryFromStr (digitText (natDigits k)) := by
    intro k hk
    obtain ⟨h6, h7⟩ : digitsNum ip = k ∧ digitsNum fp = 0 := by
      have h8 := digitsNum_lt fp
      have e1 : digitsNum ip * 10 ^ fp.length + digitsNum fp = k * 10 ^ fp.length := hk
      have hp : 0 < 10 ^ fp.length := by positivity
      have e2 := congrArg (· / 10 ^ fp.length) e1
      have e3 := congrArg (· % 10 ^ fp.length) e1
      simp only [Nat.mul_comm _ (10 ^ fp.length), Nat.mul_add_div hp, Nat.mul_add_mod, Nat.div_eq_of_lt h8, Nat.mod_eq_of_lt h8,
        Nat.mul_div_cancel_left _ hp, Nat.mul_mod_right, Nat.add_zero] at e2 e3
      exact ⟨e2, e3⟩
    have h9 : dropTrailingZeros fp = [] := by
      have := (digitsNum_eq_zero fp).1 h7
      have h10 := dropTrailing_append [] fp.length
      rw [List.nil_append] at h10
      rw [all_zero_replicate fp (by simpa using this), h10]; rfl
    rw [h9, plainText, if_pos rfl, tryFromStr_int ip hi, tryFromStr_int _ (natDigits_ne k), digitsNum_natDigits, h6]
  rcases Nat.eq_zero_or_pos m with rfl | h0
  · have hz := reads_zero b64 (by decide) (by decide) _ _ (by have : b64.scale = 1074 := rfl
                                                              omega) h2
    rw [hint 0 (by rw [hz, Nat.zero_mul]), display_sign b64 neg 0 (by unfold displayMag; simp)]
    unfold displayMag
    rw [if_pos rfl, natDigits, if_pos (by omega)]
    rfl
  · obtain ⟨d', e', h5, h6, h7, h8, h9, h10, h11⟩ := shown_is b64 rfl (by decide) m _ _ h0 h3 h4 hd
      (by have : b64.scale = 1074 := rfl
          omega) h2
    rw [display_sign b64 neg m (by rw [h5]; exact decimalText_digit d' e'), h5]
    rcases le_or_gt 0 e' with he | he
    · obtain ⟨k, rfl⟩ := Int.eq_ofNat_of_zero_le he
      rw [hint (d' * 10 ^ k), convert_int, tryFromStr_int _ (natDigits_ne _), digitsNum_natDigits, ofNat_dec]
      rw [zpow_neg, zpow_natCast, zpow_natCast, ← div_eq_mul_inv, div_eq_iff (by positivity)] at h11
      exact_mod_cast h11
    · obtain ⟨j, hj⟩ := Int.eq_ofNat_of_zero_le (by omega : 0 ≤ -e')
      obtain rfl : e' = -(j : Int) := by omega
      have hj0 : 0 < j := by omega
      have h12 : allDigits (decOf ip fp) * 10 ^ j = d' * 10 ^ fp.length := by
        rw [zpow_neg, zpow_natCast, zpow_neg, zpow_natCast, ← div_eq_mul_inv, ← div_eq_mul_inv,
          div_eq_div_iff (by positivity) (by positivity)] at h11
        exact_mod_cast h11
      obtain ⟨p1, p2, p3⟩ := parts ip fp d' j hj0 h8 h12
      have hne : dropTrailingZeros fp ≠ [] := by intro h; rw [h] at p1; simp at p1; omega
      rw [convert_frac d' j hj0 (by omega) h8, plainText, if_neg hne, tryFromStr_dec ip _ hi, if_pos]
      · have hdt : dropTrailingZeros (dropTrailingZeros fp) = dropTrailingZeros fp := by
          apply no_trailing
          rw [p3]
          intro h
          exact h8 ((Nat.dvd_mod_iff (dvd_pow_self 10 (by omega))).1 h)
        have hall : allDigits (decOf ip (dropTrailingZeros fp)) = d' := by
          simp only [allDigits, decOf, Dec.i, Dec.v, Dec.f, p1, p2, p3]
          exact Nat.div_add_mod' d' (10 ^ j)
        rw [← ofRat_dec d' j hj0]
        simp only [decOperands, hdt, p1, p2, p3, hall]
      · have := Nat.div_le_self d' (10 ^ j)
        have := Nat.mod_le d' (10 ^ j)
        exact ⟨by omega, hne, by omega⟩

/-- The `f64` nearest to -1.50 has the operands of the text 1.5. -/
example : tryFromFloat b64 (.ofRat b64 true 150 100) = tryFromStr c!"1.5" :=
  C55_fifteen_digits true [1] [5, 0] (by simp) (by decide) (by decide)

/-- C55: so such a number, given as `f64`, gets the CLDR category of its decimal without trailing zeros. -/
theorem C55_category (t : PluralRuleType) (id : LangId) (pr : PluralRules) (h : create id t = .ok pr)
    (hreg : ∀ x ∈ decimalExceptions t, LangId.parse x.1 ≠ some id) (neg : Bool) (ip fp : List (Fin 10)) (hi : ip ≠ [])
    (hd : allDigits (decOf ip fp) < 10 ^ 15) (hv : fp.length ≤ 300) :
    ∃ c, select pr (tryFromFloat b64 (.ofRat b64 neg (allDigits (decOf ip fp)) (10 ^ fp.length))) = some (.ok c) ∧
      CldrCategory t id (decOf ip (dropTrailingZeros fp)) c := by
  rw [C55_fifteen_digits neg ip fp hi hd hv]
  obtain ⟨k, hk, -⟩ := dropTrailing_spec fp
  have hlen : fp.length = (dropTrailingZeros fp).length + k := by
    conv_lhs => rw [hk, List.length_append, List.length_replicate]
  have hle : allDigits (decOf ip (dropTrailingZeros fp)) ≤ allDigits (decOf ip fp) := by
    have h1 : digitsNum fp = digitsNum (dropTrailingZeros fp) * 10 ^ k := by
      conv_lhs => rw [hk, digitsNum_append, digitsNum_zeros, List.length_replicate, Nat.add_zero]
    simp only [allDigits, decOf, Dec.i, Dec.v, Dec.f]
    rw [h1, hlen, pow_add, ← Nat.mul_assoc, ← Nat.add_mul]
    exact Nat.le_mul_of_pos_right _ (by positivity)
  have := C23_decimals t id pr h hreg [] (.inl rfl) ip (dropTrailingZeros fp) hi (by omega) (by omega)
  simpa using this

/-- 1.5 as a float is OTHER in English, and 1.0 as a float is ONE like the integer, unlike the text "1.0". -/
example : (∀ x ∈ decimalExceptions .CARDINAL, LangId.parse x.1 ≠ LangId.parse c!"en") ∧
    ∃ id pr, LangId.parse c!"en" = some id ∧ create id .CARDINAL = .ok pr ∧
      select pr (tryFromFloat b64 (.ofRat b64 false 15 10)) = some (.ok .OTHER) ∧
      select pr (tryFromFloat b64 (.ofRat b64 false 10 10)) = some (.ok .ONE) ∧
      select pr (tryFromStr c!"1.0") = some (.ok .OTHER) := by
  have h1 := C55_fifteen_digits false [1] [5] (by simp) (by decide) (by decide)
  have h2 := C55_fifteen_digits false [1] [0] (by simp) (by decide) (by decide)
  have e1 : allDigits (decOf [1] [5]) = 15 := rfl
  have e2 : allDigits (decOf [1] [0]) = 10 := rfl
  simp only [e1, e2, List.length_cons, List.length_nil, Nat.zero_add, pow_one] at h1 h2
  refine ⟨by decide +kernel, _, ⟨_, RulesTable.cardinalFn4⟩, rfl, (C02_create_own_rule _ _ _).2 ⟨rfl, by decide +kernel⟩, ?_, ?_, by decide +kernel⟩
  · rw [h1]; decide +kernel
  · rw [h2]; decide +kernel

end Verif.Props
