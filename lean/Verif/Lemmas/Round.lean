import Verif.Lemmas.Float
import Mathlib.Data.Rat.Floor
import Mathlib.Algebra.Order.Archimedean.Basic
import Mathlib.Tactic.FieldSimp
import Mathlib.Tactic.Positivity
import Mathlib.Tactic.NormNum

/-! Helper lemmas: rounding of rational numbers, in `ℚ`. -/

namespace Verif.Flt
open Verif

/-- The magnitude nearest to a rational. -/
def rnd (F : Fmt) (y : ℚ) : Nat := roundMag F y.num.toNat y.den

theorem rnd_div (F : Fmt) (p q : Nat) (hq : 0 < q) : rnd F ((p : ℚ) / q) = roundMag F p q := by
  have hd : 0 < ((p : ℚ) / q).den := Rat.den_pos _
  have hn : 0 ≤ ((p : ℚ) / q).num := Rat.num_nonneg.2 (by positivity)
  have h1 : ((p : ℚ) / q).num.toNat * q = p * ((p : ℚ) / q).den := by
    have e := Rat.num_div_den ((p : ℚ) / q)
    have hq' : (q : ℚ) ≠ 0 := by positivity
    have hd' : ((((p : ℚ) / q).den : Nat) : ℚ) ≠ 0 := by positivity
    have e2 : (((p : ℚ) / q).num : ℚ) * q = p * (((p : ℚ) / q).den : Nat) := by
      have := e
      generalize ((p : ℚ) / q).num = a at *
      generalize ((p : ℚ) / q).den = b at *
      field_simp at this
      linarith
    have e3 : ((((p : ℚ) / q).num.toNat : Nat) : ℚ) = (((p : ℚ) / q).num : ℚ) := by
      have := Int.toNat_of_nonneg hn
      exact_mod_cast congrArg (fun z : Int => (z : ℚ)) this
    rw [← e3] at e2
    exact_mod_cast e2
  unfold rnd
  rw [← roundMag_scale F _ _ q hq, h1, Nat.mul_comm _ q, roundMag_scale F p q _ hd]

theorem exists_frac (y : ℚ) (h : 0 ≤ y) : ∃ p q : Nat, 0 < q ∧ y = (p : ℚ) / q := by
  refine ⟨y.num.toNat, y.den, y.den_pos, ?_⟩
  have hn : 0 ≤ y.num := Rat.num_nonneg.2 h
  have e3 : ((y.num.toNat : Nat) : ℚ) = (y.num : ℚ) := by
    have := Int.toNat_of_nonneg hn
    exact_mod_cast congrArg (fun z : Int => (z : ℚ)) this
  rw [e3, Rat.num_div_den]

theorem rnd_mono (F : Fmt) (hF : 0 < F.prec) (y y' : ℚ) (h0 : 0 ≤ y) (h : y ≤ y') : rnd F y ≤ rnd F y' := by
  obtain ⟨p, q, hq, rfl⟩ := exists_frac y h0
  obtain ⟨p', q', hq', rfl⟩ := exists_frac y' (le_trans h0 h)
  rw [rnd_div F p q hq, rnd_div F p' q' hq', ← roundMag_scale F p q q' hq', ← roundMag_scale F p' q' q hq, Nat.mul_comm q' q]
  apply roundMag_mono F hF
  rw [div_le_div_iff₀ (by positivity) (by positivity)] at h
  exact_mod_cast h

/-- A magnitude with at most `prec` significant bits. -/
def Rep (F : Fmt) (m : Nat) : Prop := ∃ c e, c < 2 ^ F.prec ∧ m = c * 2 ^ e

theorem rnd_rep (F : Fmt) (hF : 0 < F.prec) (y : ℚ) : Rep F (rnd F y) := roundMag_representable F hF _ _ y.den_pos

theorem rnd_nearest (F : Fmt) (hF : 0 < F.prec) (y : ℚ) (h0 : 0 ≤ y) (m : Nat) (hm : Rep F m) :
    |(rnd F y : ℚ) - y * 2 ^ F.scale| ≤ |(m : ℚ) - y * 2 ^ F.scale| := by
  obtain ⟨p, q, hq, rfl⟩ := exists_frac y h0
  obtain ⟨c, e, hc, rfl⟩ := hm
  rw [rnd_div F p q hq]
  have h := roundMag_nearest F hF p q hq c e hc
  have hq' : (0 : ℚ) < q := by exact_mod_cast hq
  have key : ∀ r : Nat, |(r : ℚ) - (p : ℚ) / q * 2 ^ F.scale| = ((|((r * q : Nat) : Int) - (p * 2 ^ F.scale : Nat)| : Int) : ℚ) / q := by
    intro r
    have : (r : ℚ) - (p : ℚ) / q * 2 ^ F.scale = ((((r * q : Nat) : Int) - (p * 2 ^ F.scale : Nat) : Int) : ℚ) / q := by
      push_cast; field_simp
    rw [this, abs_div, abs_of_pos hq', ← Int.cast_abs]
  rw [key, key]
  exact div_le_div_of_nonneg_right (by exact_mod_cast h) hq'.le

theorem rnd_exact (F : Fmt) (hF : 0 < F.prec) (y : ℚ) (h0 : 0 ≤ y) (m : Nat) (hm : Rep F m) (h : y * 2 ^ F.scale = m) :
    rnd F y = m := by
  have := rnd_nearest F hF y h0 m hm
  rw [h, sub_self, abs_zero] at this
  have := abs_nonpos_iff.1 this
  exact_mod_cast sub_eq_zero.1 this

theorem rnd_zero (F : Fmt) (hF : 0 < F.prec) : rnd F 0 = 0 :=
  rnd_exact F hF 0 (le_refl _) 0 ⟨0, 0, Nat.two_pow_pos _, by simp⟩ (by simp)

/-- Two representable magnitudes are at least a part of `2^prec` apart. -/
theorem rep_spacing (F : Fmt) (m r : Nat) (hm : Rep F m) (hr : Rep F r) (hne : r ≠ m) :
    (m : Int) ≤ |(r : Int) - m| * 2 ^ F.prec := by
  obtain ⟨c', e', hc', rfl⟩ := hr
  obtain ⟨c, e, hc, rfl⟩ := hm
  -- a multiple of a power of two that is not zero
  have base : ∀ e c, c < 2 ^ F.prec → c' * 2 ^ e' ≠ c * 2 ^ e → e ≤ e' →
      ((c * 2 ^ e : Nat) : Int) ≤ |((c' * 2 ^ e' : Nat) : Int) - (c * 2 ^ e : Nat)| * 2 ^ F.prec := by
    intro e c hc hne he
    have e2 : c' * 2 ^ e' = c' * 2 ^ (e' - e) * 2 ^ e := by
      rw [Nat.mul_assoc, ← Nat.pow_add]; congr 2; omega
    rw [e2] at hne ⊢
    generalize c' * 2 ^ (e' - e) = g at *
    have hg : g ≠ c := by rintro rfl; exact hne rfl
    have h1 : (1 : Int) ≤ |(g : Int) - c| := by
      apply Int.one_le_abs
      omega
    have e3 : ((g * 2 ^ e : Nat) : Int) - (c * 2 ^ e : Nat) = ((g : Int) - c) * 2 ^ e := by push_cast; ring
    have hp : (0 : Int) < 2 ^ e := by positivity
    rw [e3, abs_mul, abs_of_pos hp]
    have hc2 : (c : Int) ≤ 2 ^ F.prec := by exact_mod_cast hc.le
    push_cast
    have hP : (0 : Int) < 2 ^ F.prec := by positivity
    nlinarith [mul_le_mul_of_nonneg_right h1 (mul_pos hp hP).le, mul_le_mul_of_nonneg_right hc2 hp.le]
  induction e generalizing c with
  | zero => exact base 0 c hc hne (Nat.zero_le _)
  | succ e ih =>
    rcases Nat.lt_or_ge e e' with he | he
    · exact base (e + 1) c hc hne he
    · rcases Nat.lt_or_ge (2 * c) (2 ^ F.prec) with h2 | h2
      · have e4 : c * 2 ^ (e + 1) = 2 * c * 2 ^ e := by rw [pow_succ]; ring
        rw [e4] at hne ⊢
        exact ih (2 * c) h2 hne
      · have e4 : c * 2 ^ (e + 1) = (2 * c * 2 ^ (e - e')) * 2 ^ e' := by
          have : 2 ^ e = 2 ^ (e - e') * 2 ^ e' := by rw [← Nat.pow_add]; congr 1; omega
          rw [pow_succ, this]; ring
        rw [e4]
        have h3 : 2 ^ F.prec ≤ 2 * c * 2 ^ (e - e') := le_trans h2 (Nat.le_mul_of_pos_right _ (Nat.two_pow_pos _))
        generalize 2 * c * 2 ^ (e - e') = M at *
        have e5 : ((c' * 2 ^ e' : Nat) : Int) - (M * 2 ^ e' : Nat) = -(((M : Int) - c') * 2 ^ e') := by push_cast; ring
        have hp : (0 : Int) < 2 ^ e' := by positivity
        have h4 : (c' : Int) + 1 ≤ 2 ^ F.prec := by exact_mod_cast hc'
        have h5 : (2 : Int) ^ F.prec ≤ M := by exact_mod_cast h3
        rw [e5, abs_neg, abs_of_nonneg (mul_nonneg (by linarith) hp.le)]
        push_cast
        have hP : (1 : Int) ≤ 2 ^ F.prec := by
          have : (0 : Int) < 2 ^ F.prec := by positivity
          linarith
        have h6 : (M : Int) ≤ ((M : Int) - c') * 2 ^ F.prec := by nlinarith
        nlinarith [mul_le_mul_of_nonneg_right h6 hp.le]

/-- A number close enough to a representable one is rounded to it. -/
theorem rnd_close (F : Fmt) (hF : 0 < F.prec) (y : ℚ) (h0 : 0 ≤ y) (m : Nat) (hm : Rep F m)
    (h : |y * 2 ^ F.scale - m| * 2 ^ (F.prec + 1) < m) : rnd F y = m := by
  by_contra hne
  have h1 := rep_spacing F m _ hm (rnd_rep F hF y) hne
  have h2 := rnd_nearest F hF y h0 m hm
  have h3 : (m : ℚ) ≤ |(rnd F y : ℚ) - m| * 2 ^ F.prec := by exact_mod_cast h1
  have h4 : |(rnd F y : ℚ) - m| ≤ 2 * |y * 2 ^ F.scale - m| := by
    have := abs_sub_le (rnd F y : ℚ) (y * 2 ^ F.scale) m
    rw [abs_sub_comm (m : ℚ)] at h2
    linarith
  have hP : (0 : ℚ) < 2 ^ F.prec := by positivity
  rw [pow_succ] at h
  nlinarith [mul_le_mul_of_nonneg_right h4 hP.le]

/-- The error of rounding: half a smallest float, or a part of the number. -/
theorem rnd_error (F : Fmt) (hF : 0 < F.prec) (y : ℚ) (h0 : 0 ≤ y) :
    2 * |(rnd F y : ℚ) - y * 2 ^ F.scale| ≤ max 1 (y * 2 ^ F.scale / 2 ^ (F.prec - 1)) := by
  obtain ⟨p, q, hq, rfl⟩ := exists_frac y h0
  rw [rnd_div F p q hq]
  obtain ⟨h1, h2⟩ := roundMag_error F p q hq
  have hq' : (0 : ℚ) < q := by exact_mod_cast hq
  have h3 : 2 * ((roundMag F p q : ℚ) * q) ≤ 2 * ((p : ℚ) * 2 ^ F.scale) + q * 2 ^ ulpExp F (p * 2 ^ F.scale / q) := by exact_mod_cast h1
  have h4 : 2 * ((p : ℚ) * 2 ^ F.scale) ≤ 2 * ((roundMag F p q : ℚ) * q) + q * 2 ^ ulpExp F (p * 2 ^ F.scale / q) := by exact_mod_cast h2
  have h5 : 2 * |(roundMag F p q : ℚ) - (p : ℚ) / q * 2 ^ F.scale| ≤ 2 ^ ulpExp F (p * 2 ^ F.scale / q) := by
    generalize roundMag F p q = r at *
    generalize (2 : ℚ) ^ ulpExp F (p * 2 ^ F.scale / q) = u at *
    have e : (r : ℚ) - (p : ℚ) / q * 2 ^ F.scale = ((r : ℚ) * q - p * 2 ^ F.scale) / q := by field_simp
    rw [e, abs_div, abs_of_pos hq', ← mul_div_assoc, div_le_iff₀ hq']
    have : |(r : ℚ) * q - p * 2 ^ F.scale| ≤ u * q / 2 := by rw [abs_le]; constructor <;> linarith
    linarith
  refine le_trans h5 ?_
  rcases ulpExp_bound F hF (p * 2 ^ F.scale / q) with ⟨h, -⟩ | ⟨h, -, -⟩
  · rw [h, pow_zero]; exact le_max_left _ _
  · refine le_trans ?_ (le_max_right _ _)
    rw [Nat.le_div_iff_mul_le hq, pow_add] at h
    have h6 : (2 : ℚ) ^ ulpExp F (p * 2 ^ F.scale / q) * 2 ^ (F.prec - 1) * q ≤ p * 2 ^ F.scale := by exact_mod_cast h
    rw [le_div_iff₀ (by positivity), div_mul_eq_mul_div, le_div_iff₀ hq']
    exact h6

theorem ofDec_rnd (F : Fmt) (neg : Bool) (d : Nat) (e : Int) :
    ofDec F neg d e = if 2 ^ (F.maxExp + F.scale) ≤ rnd F (d * 10 ^ e) then inf neg else fin neg (rnd F (d * 10 ^ e)) := by
  unfold ofDec
  split_ifs with h h2 h3
  · unfold ofRat; simp only
    have : rnd F (d * 10 ^ e) = roundMag F (d * 10 ^ e.toNat) 1 := by
      rw [← rnd_div F _ 1 one_pos]
      congr 1
      obtain ⟨k, rfl⟩ := Int.eq_ofNat_of_zero_le h
      push_cast; simp
    rw [← this, if_pos h2]
  · unfold ofRat; simp only
    have : rnd F (d * 10 ^ e) = roundMag F (d * 10 ^ e.toNat) 1 := by
      rw [← rnd_div F _ 1 one_pos]
      congr 1
      obtain ⟨k, rfl⟩ := Int.eq_ofNat_of_zero_le h
      push_cast; simp
    rw [← this, if_neg h2]
  all_goals
    unfold ofRat; simp only
    have : rnd F (d * 10 ^ e) = roundMag F d (10 ^ (-e).toNat) := by
      rw [← rnd_div F _ _ (by positivity)]
      congr 1
      obtain ⟨k, hk⟩ := Int.eq_ofNat_of_zero_le (by omega : 0 ≤ -e)
      obtain rfl : e = -(k : Int) := by omega
      simp [div_eq_mul_inv]
    rw [← this]
  · rw [if_pos h3]
  · rw [if_neg h3]

end Verif.Flt
