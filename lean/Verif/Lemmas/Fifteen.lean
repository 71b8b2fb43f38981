import Verif.Lemmas.FloatText

/-! Helper lemmas: decimals of at most 15 digits are the shortest for their float. -/

namespace Verif.FloatText
open Verif Spec Uts35 Strings Grammar PluralOperands Flt

attribute [local irreducible] Flt.ofRat Flt.roundMag

/-- Two numbers that are rounded alike are close. -/
theorem rnd_apart (F : Fmt) (hF : 0 < F.prec) (y y' : ℚ) (h0 : 0 ≤ y) (h0' : 0 ≤ y') (h : rnd F y = rnd F y') :
    |y - y'| * 2 ^ F.scale ≤ max 1 (max y y' * 2 ^ F.scale / 2 ^ (F.prec - 1)) := by
  have h1 := rnd_error F hF y h0
  have h2 := rnd_error F hF y' h0'
  rw [← h] at h2
  have hs : (0 : ℚ) < 2 ^ F.scale := by positivity
  have hP : (0 : ℚ) < 2 ^ (F.prec - 1) := by positivity
  have m1 : y * 2 ^ F.scale / 2 ^ (F.prec - 1) ≤ max y y' * 2 ^ F.scale / 2 ^ (F.prec - 1) :=
    div_le_div_of_nonneg_right (mul_le_mul_of_nonneg_right (le_max_left _ _) hs.le) hP.le
  have m2 : y' * 2 ^ F.scale / 2 ^ (F.prec - 1) ≤ max y y' * 2 ^ F.scale / 2 ^ (F.prec - 1) :=
    div_le_div_of_nonneg_right (mul_le_mul_of_nonneg_right (le_max_right _ _) hs.le) hP.le
  have h3 := le_trans h1 (max_le_max (le_refl (1 : ℚ)) m1)
  have h4 := le_trans h2 (max_le_max (le_refl (1 : ℚ)) m2)
  generalize max (1 : ℚ) (max y y' * 2 ^ F.scale / 2 ^ (F.prec - 1)) = M at *
  have h5 : |y - y'| * 2 ^ F.scale = |y * 2 ^ F.scale - y' * 2 ^ F.scale| := by
    rw [← sub_mul, abs_mul, abs_of_pos hs]
  rw [h5]
  have h6 := abs_sub_le (y * 2 ^ F.scale) (rnd F y) (y' * 2 ^ F.scale)
  rw [abs_sub_comm _ (rnd F y : ℚ)] at h6
  linarith

theorem pow_lt (n s : Nat) (h : 10 * n < 3 * s) : (10 : ℚ) ^ n < 2 ^ s := by
  refine lt_of_pow_lt_pow_left₀ 3 (by positivity) ?_
  rw [← pow_mul, ← pow_mul, Nat.mul_comm n, Nat.mul_comm s, pow_mul]
  calc ((10 : ℚ) ^ 3) ^ n ≤ (2 ^ 10) ^ n := pow_le_pow_left₀ (by norm_num) (by norm_num) _
    _ = 2 ^ (10 * n) := by rw [← pow_mul]
    _ < 2 ^ (3 * s) := pow_lt_pow_right₀ (by norm_num) h

theorem unit_lt (F : Fmt) (e : Int) (he : 10 * -e < 3 * F.scale) (hs0 : 0 < F.scale) : (1 : ℚ) < 10 ^ e * 2 ^ F.scale := by
  have hp := pow_pos_q e
  have hs : (0 : ℚ) < 2 ^ F.scale := by positivity
  have h3 : (10 : ℚ) ^ (-((-e).toNat : Int)) ≤ 10 ^ e := zpow_le_zpow_right₀ (by norm_num) (by omega)
  have h4 := pow_lt (-e).toNat F.scale (by omega)
  rw [zpow_neg, zpow_natCast] at h3
  have h5 : (0 : ℚ) < 10 ^ (-e).toNat := by positivity
  calc (1 : ℚ) = (10 ^ (-e).toNat)⁻¹ * 10 ^ (-e).toNat := (inv_mul_cancel₀ h5.ne').symm
    _ < (10 ^ (-e).toNat)⁻¹ * 2 ^ F.scale := mul_lt_mul_of_pos_left h4 (by positivity)
    _ ≤ 10 ^ e * 2 ^ F.scale := mul_le_mul_of_nonneg_right h3 hs.le

/-- A decimal of at most 15 digits and one with a larger exponent that read as the same float are equal. -/
theorem same_value (F : Fmt) (hF : F.prec = 53) (m d d' : Nat) (e e' : Int) (hlt : m < 2 ^ (F.maxExp + F.scale))
    (hd : d < 10 ^ 15) (he : 10 * -e < 3 * F.scale) (hs0 : 0 < F.scale) (hle : e ≤ e') (h : Reads F m d e) (h' : Reads F m d' e') : (d : ℚ) * 10 ^ e = (d' : ℚ) * 10 ^ e' := by
  rw [reads_iff F m _ _ hlt] at h h'
  have hp := pow_pos_q e
  -- both are multiples of 10^e
  obtain ⟨k, hk⟩ := Int.eq_ofNat_of_zero_le (by omega : 0 ≤ e' - e)
  have e1 : (d' : ℚ) * 10 ^ e' = ((d' * 10 ^ k : Nat) : ℚ) * 10 ^ e := by
    obtain rfl : e' = k + e := by omega
    rw [zpow_add₀ (by norm_num), zpow_natCast]; push_cast; ring
  rw [e1] at h' ⊢
  generalize d' * 10 ^ k = c at *
  by_contra hne
  have hdc : d ≠ c := by rintro rfl; exact hne rfl
  have h1 := rnd_apart F (by omega) ((d : ℚ) * 10 ^ e) ((c : ℚ) * 10 ^ e) (by positivity) (by positivity) (h.trans h'.symm)
  have h2 : (1 : ℚ) ≤ |(d : ℚ) - c| := by
    have : (1 : Int) ≤ |(d : Int) - c| := Int.one_le_abs (by omega)
    exact_mod_cast this
  have hs : (0 : ℚ) < 2 ^ F.scale := by positivity
  have hsc := unit_lt F e he hs0
  rw [← sub_mul, abs_mul, abs_of_pos hp, ← max_mul_of_nonneg _ _ hp.le, mul_assoc, mul_assoc, mul_div_right_comm] at h1
  have hd' : (d : ℚ) ≤ 10 ^ 15 := by exact_mod_cast hd.le
  have hprec : (2 : ℚ) ^ (F.prec - 1) = 2 ^ 52 := by rw [hF]
  rw [hprec] at h1
  generalize (10 : ℚ) ^ e * 2 ^ F.scale = u at *
  rcases le_max_iff.1 h1 with h3 | h3
  · -- the smallest floats are finer than the digits
    nlinarith
  · have h4 : |(d : ℚ) - c| ≤ max (d : ℚ) c / 2 ^ 52 := le_of_mul_le_mul_right h3 (by linarith)
    have h5 : max (d : ℚ) c ≤ 2 * 10 ^ 15 := by
      rcases le_total (d : ℚ) c with h6 | h6
      · rw [max_eq_right h6] at h4 ⊢
        rw [abs_sub_comm, abs_of_nonneg (by linarith)] at h4
        have : (c : ℚ) / 2 ^ 52 ≤ c / 2 := div_le_div_of_nonneg_left (by positivity) (by norm_num) (by norm_num)
        linarith
      · rw [max_eq_left h6]; linarith
    have h7 : max (d : ℚ) c / 2 ^ 52 ≤ 2 * 10 ^ 15 / 2 ^ 52 := div_le_div_of_nonneg_right h5 (by norm_num)
    have h8 : (2 * 10 ^ 15 / 2 ^ 52 : ℚ) < 1 := by norm_num
    linarith

/-- The decimal shown for a float that a decimal of at most 15 digits reads as is this decimal. -/
theorem shown_is (F : Fmt) (hF : F.prec = 53) (hs0 : 0 < F.scale) (m d : Nat) (e : Int) (h0 : 0 < m) (hm : Rep F m)
    (hlt : m < 2 ^ (F.maxExp + F.scale)) (hd : d < 10 ^ 15) (he : 10 * -e < 3 * F.scale) (h : Reads F m d e) :
    ∃ d' e', displayMag F m = decimalText d' e' ∧ Reads F m d' e' ∧ d' ≤ 10 ^ 18 ∧ ¬ 10 ∣ d' ∧ e ≤ e' ∧
      (0 ≤ e' ↔ 2 ^ F.scale ∣ m) ∧ (d : ℚ) * 10 ^ e = (d' : ℚ) * 10 ^ e' := by
  obtain ⟨d', e', h1, h2, h3, -, h5⟩ := shortest_spec F (by omega) (by omega) m hm h0 hlt
  have hle := h5 _ _ h
  exact ⟨d', e', h1, h2, h3, last_digit F m d' e' hlt h2 h5, hle, exp_neg_iff F (by omega) m d' e' hm hlt h2 h5,
    same_value F hF m d d' e e' hlt hd he hs0 hle h h2⟩

/-- The same number in two ways, without trailing zeros. -/
theorem same_digits (a b k l : Nat) (ha : ¬ 10 ∣ a) (hb : ¬ 10 ∣ b) (h : a * 10 ^ k = b * 10 ^ l) : k = l ∧ a = b := by
  induction k generalizing l with
  | zero =>
    cases l with
    | zero => simpa using h
    | succ l => exact absurd ⟨b * 10 ^ l, by rw [pow_zero, mul_one] at h; rw [h, pow_succ]; ring⟩ ha
  | succ k ih =>
    cases l with
    | zero => exact absurd ⟨a * 10 ^ k, by rw [pow_zero, mul_one] at h; rw [← h, pow_succ]; ring⟩ hb
    | succ l =>
      have : a * 10 ^ k = b * 10 ^ l := by
        rw [pow_succ, pow_succ, ← Nat.mul_assoc, ← Nat.mul_assoc] at h
        exact Nat.eq_of_mul_eq_mul_right (by omega) h
      obtain ⟨h1, h2⟩ := ih l this
      exact ⟨by omega, h2⟩

/-- A decimal with fraction digits whose number is `d' * 10^-j` without trailing zeros. -/
theorem parts (ip fp : List (Fin 10)) (d' j : Nat) (hj : 0 < j) (h10 : ¬ 10 ∣ d')
    (h : allDigits (decOf ip fp) * 10 ^ j = d' * 10 ^ fp.length) :
    (dropTrailingZeros fp).length = j ∧ digitsNum ip = d' / 10 ^ j ∧ digitsNum (dropTrailingZeros fp) = d' % 10 ^ j := by
  obtain ⟨k, hk, hlast⟩ := dropTrailing_spec fp
  generalize dropTrailingZeros fp = g at *
  have hlen : fp.length = g.length + k := by rw [hk, List.length_append, List.length_replicate]
  have hall : allDigits (decOf ip fp) = (digitsNum ip * 10 ^ g.length + digitsNum g) * 10 ^ k := by
    simp only [allDigits, decOf, Dec.i, Dec.v, Dec.f]
    conv_lhs => rw [hlen, hk, digitsNum_append, digitsNum_zeros, List.length_replicate, pow_add]
    ring
  rw [hall, hlen, pow_add] at h
  have h2 : (digitsNum ip * 10 ^ g.length + digitsNum g) * 10 ^ j = d' * 10 ^ g.length := by
    have : (digitsNum ip * 10 ^ g.length + digitsNum g) * 10 ^ j * 10 ^ k = d' * 10 ^ g.length * 10 ^ k := by
      rw [Nat.mul_right_comm, h]; ring
    exact Nat.eq_of_mul_eq_mul_right (by positivity) this
  have hg : g ≠ [] := by
    rintro rfl
    simp only [List.length_nil, pow_zero, mul_one, digitsNum, Nat.add_zero] at h2
    apply h10
    rw [← h2]
    exact Dvd.dvd.mul_left (dvd_pow_self 10 (by omega)) _
  have hnd : ¬ 10 ∣ digitsNum ip * 10 ^ g.length + digitsNum g := by
    intro hdv
    have hg' := List.dropLast_append_getLast hg
    have hx := hlast _ (List.getLast?_eq_some_getLast hg)
    have h3 : 10 ∣ digitsNum g := (Nat.dvd_add_right (Dvd.dvd.mul_left (dvd_pow_self 10 (by
      have := List.length_pos_iff.2 hg; omega)) _)).1 hdv
    rw [← hg', digitsNum_append] at h3
    simp only [digitsNum, List.length_cons, List.length_nil, pow_zero, mul_one, Nat.add_zero] at h3
    have h4 : 10 ∣ (g.getLast hg).val := (Nat.dvd_add_right (Dvd.dvd.mul_left (by norm_num) _)).1 h3
    apply hx
    ext
    have := (g.getLast hg).isLt
    simp only [Fin.val_zero]
    omega
  obtain ⟨h5, h6⟩ := same_digits _ _ _ _ hnd h10 h2
  have h7 := digitsNum_lt g
  rw [← h5] at h6 h7
  have hp : 0 < 10 ^ j := by positivity
  refine ⟨h5.symm, ?_, ?_⟩
  · rw [← h6, Nat.mul_comm, Nat.mul_add_div hp, Nat.div_eq_of_lt h7, Nat.add_zero]
  · rw [← h6, Nat.mul_comm, Nat.mul_add_mod, Nat.mod_eq_of_lt h7]

/-- Only zero is rounded to zero. -/
theorem reads_zero (F : Fmt) (hF : 0 < F.prec) (hs0 : 0 < F.scale) (d : Nat) (e : Int) (he : 10 * -e < 3 * F.scale)
    (h : Reads F 0 d e) : d = 0 := by
  rw [reads_iff F 0 _ _ (Nat.two_pow_pos _)] at h
  by_contra hne
  have h1 := unit_lt F e he hs0
  have hd : (1 : ℚ) ≤ d := by exact_mod_cast Nat.one_le_iff_ne_zero.2 hne
  have hs : (0 : ℚ) < 2 ^ F.scale := by positivity
  have h2 : val F 1 ≤ (d : ℚ) * 10 ^ e := by
    unfold val
    rw [div_le_iff₀ hs, Nat.cast_one]
    nlinarith
  have h3 := rnd_mono F hF _ _ (val_nonneg F 1) h2
  rw [h, rnd_val F hF 1 ⟨1, 0, Nat.one_lt_two_pow (by omega), by simp⟩] at h3
  omega

end Verif.FloatText
