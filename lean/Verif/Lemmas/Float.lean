import Verif.F64
import Mathlib.Tactic.Ring
import Mathlib.Tactic.Linarith

/-! Helper lemmas: rounding to a binary format. -/

namespace Verif.Flt
open Verif

theorem rneDiv_bounds (a b : Nat) (hb : 0 < b) :
    2 * (rneDiv a b * b) ≤ 2 * a + b ∧ 2 * a ≤ 2 * (rneDiv a b * b) + b := by
  have h1 : b * (a / b) + a % b = a := Nat.div_add_mod a b
  have h2 : a / b * b = b * (a / b) := Nat.mul_comm ..
  have h3 : (a / b + 1) * b = b * (a / b) + b := by ring
  unfold rneDiv
  simp only
  have h4 : a % b < b := Nat.mod_lt _ hb
  split
  · rw [h2]; omega
  · split
    · rw [h3]; omega
    · split
      · rw [h2]; omega
      · rw [h3]; omega

theorem rneDiv_exact (c b : Nat) (hb : 0 < b) : rneDiv (c * b) b = c := by
  unfold rneDiv
  simp [Nat.mul_div_cancel c hb, hb]

theorem rneDiv_ge (a b : Nat) : a / b ≤ rneDiv a b := by
  unfold rneDiv; simp only; split <;> (try split) <;> (try split) <;> omega

theorem rneDiv_le (a b : Nat) : rneDiv a b ≤ a / b + 1 := by
  unfold rneDiv; simp only; split <;> (try split) <;> (try split) <;> omega

/-- `log2` as a pair of bounds. -/
theorem two_pow_log2_le {y : Nat} (h : y ≠ 0) : 2 ^ y.log2 ≤ y := (Nat.le_log2 h).1 (le_refl _)

theorem lt_two_pow_log2_succ (y : Nat) : y < 2 ^ (y.log2 + 1) := by
  rcases Nat.eq_zero_or_pos y with rfl | h
  · simp
  · exact (Nat.log2_lt (by omega)).1 (Nat.lt_succ_self _)

/-- The last place of a value: nothing below `2^prec`, and otherwise `prec` bits below the first one. -/
theorem ulpExp_bound (F : Fmt) (hF : 0 < F.prec) (y : Nat) :
    ulpExp F y = 0 ∧ y < 2 ^ F.prec ∨ 2 ^ (ulpExp F y + (F.prec - 1)) ≤ y ∧ y < 2 ^ (ulpExp F y + F.prec) ∧ 0 < ulpExp F y := by
  unfold ulpExp
  split
  · exact .inl ⟨rfl, ‹_›⟩
  · rename_i h
    right
    have hy : y ≠ 0 := by rintro rfl; exact h (Nat.two_pow_pos _)
    have hl : F.prec ≤ y.log2 := (Nat.le_log2 hy).2 (by omega)
    have e1 : y.log2 + 1 - F.prec + (F.prec - 1) = y.log2 := by omega
    have e2 : y.log2 + 1 - F.prec + F.prec = y.log2 + 1 := by omega
    rw [e1, e2]
    exact ⟨two_pow_log2_le hy, lt_two_pow_log2_succ y, by omega⟩

/-- The error of rounding is at most half a last place. -/
theorem roundMag_error (F : Fmt) (p q : Nat) (hq0 : 0 < q) :
    2 * (roundMag F p q * q) ≤ 2 * (p * 2 ^ F.scale) + q * 2 ^ ulpExp F (p * 2 ^ F.scale / q) ∧
    2 * (p * 2 ^ F.scale) ≤ 2 * (roundMag F p q * q) + q * 2 ^ ulpExp F (p * 2 ^ F.scale / q) := by
  have h := rneDiv_bounds (p * 2 ^ F.scale) (q * 2 ^ ulpExp F (p * 2 ^ F.scale / q))
    (Nat.mul_pos hq0 (Nat.two_pow_pos _))
  have e : roundMag F p q * q =
      rneDiv (p * 2 ^ F.scale) (q * 2 ^ ulpExp F (p * 2 ^ F.scale / q)) * (q * 2 ^ ulpExp F (p * 2 ^ F.scale / q)) := by
    unfold roundMag; simp only; ring
  rw [e]; exact h

/-- Half a last place is below one unit of the value's scale, for significands of fewer than `prec` bits. -/
theorem half_ulp_lt (F : Fmt) (hF : 0 < F.prec) (p q : Nat) (hp : p < 2 ^ F.prec) (hq : q < 2 * 2 ^ F.scale) :
    q * 2 ^ ulpExp F (p * 2 ^ F.scale / q) < 2 * 2 ^ F.scale := by
  rcases ulpExp_bound F hF (p * 2 ^ F.scale / q) with ⟨h, -⟩ | ⟨h, -, -⟩
  · rw [h]; simpa using hq
  · have h1 : 2 ^ (ulpExp F (p * 2 ^ F.scale / q) + (F.prec - 1)) * q ≤ p * 2 ^ F.scale :=
      le_trans (Nat.mul_le_mul_right q h) (Nat.div_mul_le_self _ _)
    have h2 : p * 2 ^ F.scale < 2 ^ F.prec * 2 ^ F.scale := Nat.mul_lt_mul_of_pos_right hp (Nat.two_pow_pos _)
    have e : 2 ^ F.prec = 2 * 2 ^ (F.prec - 1) := by
      rw [← pow_succ']; congr 1; omega
    rw [Nat.pow_add] at h1
    rw [e] at h2
    have h3 : 2 ^ (F.prec - 1) * (q * 2 ^ ulpExp F (p * 2 ^ F.scale / q)) < 2 ^ (F.prec - 1) * (2 * 2 ^ F.scale) := by
      calc _ = 2 ^ ulpExp F (p * 2 ^ F.scale / q) * 2 ^ (F.prec - 1) * q := by ring
        _ ≤ _ := h1
        _ < _ := h2
        _ = _ := by ring
    exact Nat.lt_of_mul_lt_mul_left h3

/-- Integers of at most `prec` bits are exact. -/
theorem roundMag_int (F : Fmt) (hF : 0 < F.prec) (k q : Nat) (hk : k < 2 ^ F.prec) (hq : 0 < q) :
    roundMag F (k * q) q = k * 2 ^ F.scale := by
  have e : k * q * 2 ^ F.scale / q = k * 2 ^ F.scale := by
    rw [Nat.mul_right_comm, Nat.mul_div_cancel _ hq]
  unfold roundMag
  simp only [e]
  have hu : ulpExp F (k * 2 ^ F.scale) ≤ F.scale := by
    rcases ulpExp_bound F hF (k * 2 ^ F.scale) with ⟨h, -⟩ | ⟨h, -, -⟩
    · omega
    · have h1 : k * 2 ^ F.scale < 2 ^ (F.prec + F.scale) := by
        rw [Nat.pow_add]; exact Nat.mul_lt_mul_of_pos_right hk (Nat.two_pow_pos _)
      have := (Nat.pow_lt_pow_iff_right (by omega : 1 < 2)).1 (lt_of_le_of_lt h h1)
      omega
  generalize ulpExp F (k * 2 ^ F.scale) = u at hu
  have e2 : 2 ^ F.scale = 2 ^ (F.scale - u) * 2 ^ u := by rw [← Nat.pow_add]; congr 1; omega
  have e3 : k * q * 2 ^ F.scale = (k * 2 ^ (F.scale - u)) * (q * 2 ^ u) := by rw [e2]; ring
  rw [e3, rneDiv_exact _ _ (Nat.mul_pos hq (Nat.two_pow_pos _)), e2]
  ring

/-- Rounding a number with a short significand keeps it on its side of every integer. -/
theorem roundMag_cmp (F : Fmt) (hF : 0 < F.prec) (p q k : Nat) (hp : p < 2 ^ F.prec) (hq : q < 2 * 2 ^ F.scale)
    (hq0 : 0 < q) :
    (roundMag F p q < k * 2 ^ F.scale ↔ p < k * q) ∧ (roundMag F p q = k * 2 ^ F.scale ↔ p = k * q) := by
  obtain ⟨h1, h2⟩ := roundMag_error F p q hq0
  have h3 := half_ulp_lt F hF p q hp hq
  have hlt : p < k * q → roundMag F p q < k * 2 ^ F.scale := by
    intro h
    have h4 : (p + 1) * 2 ^ F.scale ≤ k * q * 2 ^ F.scale := Nat.mul_le_mul_right _ h
    have h5 : roundMag F p q * q < k * 2 ^ F.scale * q := by
      have e : k * 2 ^ F.scale * q = k * q * 2 ^ F.scale := by ring
      have e2 : (p + 1) * 2 ^ F.scale = p * 2 ^ F.scale + 2 ^ F.scale := by ring
      rw [e]; omega
    exact Nat.lt_of_mul_lt_mul_right h5
  have hgt : k * q < p → k * 2 ^ F.scale < roundMag F p q := by
    intro h
    have h4 : (k * q + 1) * 2 ^ F.scale ≤ p * 2 ^ F.scale := Nat.mul_le_mul_right _ h
    have h5 : k * 2 ^ F.scale * q < roundMag F p q * q := by
      have e : k * 2 ^ F.scale * q = k * q * 2 ^ F.scale := by ring
      have e2 : (k * q + 1) * 2 ^ F.scale = k * q * 2 ^ F.scale + 2 ^ F.scale := by ring
      rw [e]; omega
    exact Nat.lt_of_mul_lt_mul_right h5
  have heq : p = k * q → roundMag F p q = k * 2 ^ F.scale := by
    intro h
    have hk : k < 2 ^ F.prec := by
      have : k ≤ k * q := Nat.le_mul_of_pos_right k hq0
      omega
    rw [h]; exact roundMag_int F hF k q hk hq0
  rcases Nat.lt_trichotomy p (k * q) with h | h | h
  · have := hlt h; constructor <;> constructor <;> intro <;> omega
  · have := heq h; constructor <;> constructor <;> intro <;> omega
  · have := hgt h; constructor <;> constructor <;> intro <;> omega

/-- Rounding a large number gives a large number. -/
theorem roundMag_large (F : Fmt) (hF : 0 < F.prec) (p q e : Nat) (hq0 : 0 < q)
    (hp : 2 ^ e * q ≤ p) : 2 ^ e * 2 ^ F.scale ≤ roundMag F p q := by
  have hx : 2 ^ (e + F.scale) ≤ p * 2 ^ F.scale / q := by
    rw [Nat.le_div_iff_mul_le hq0, Nat.pow_add]
    calc 2 ^ e * 2 ^ F.scale * q = 2 ^ e * q * 2 ^ F.scale := by ring
      _ ≤ _ := Nat.mul_le_mul_right _ hp
  unfold roundMag
  simp only
  rw [← Nat.pow_add]
  generalize hu : ulpExp F (p * 2 ^ F.scale / q) = u
  have h1 := rneDiv_ge (p * 2 ^ F.scale) (q * 2 ^ u)
  rw [← Nat.div_div_eq_div_mul] at h1
  refine le_trans ?_ (Nat.mul_le_mul_right _ h1)
  by_cases hle : u ≤ e + F.scale
  · have e1 : 2 ^ (e + F.scale) = 2 ^ (e + F.scale - u) * 2 ^ u := by rw [← Nat.pow_add]; congr 1; omega
    rw [e1] at hx ⊢
    exact Nat.mul_le_mul_right _ ((Nat.le_div_iff_mul_le (Nat.two_pow_pos _)).2 hx)
  · have h2 : 1 ≤ p * 2 ^ F.scale / q / 2 ^ u := by
      rw [Nat.le_div_iff_mul_le (Nat.two_pow_pos _)]
      rcases ulpExp_bound F hF (p * 2 ^ F.scale / q) with ⟨h, -⟩ | ⟨h, -, -⟩
      · omega
      · rw [hu] at h
        exact le_trans (by rw [one_mul]; exact Nat.pow_le_pow_right (by omega) (by omega)) h
    calc 2 ^ (e + F.scale) ≤ 1 * 2 ^ u := by rw [one_mul]; exact Nat.pow_le_pow_right (by omega) (by omega)
      _ ≤ _ := Nat.mul_le_mul_right _ h2

/-- Rounding does not look at common factors. -/
theorem roundMag_scale (F : Fmt) (p q c : Nat) (hc : 0 < c) : roundMag F (p * c) (q * c) = roundMag F p q := by
  have e1 : p * c * 2 ^ F.scale / (q * c) = p * 2 ^ F.scale / q := by
    rw [Nat.mul_right_comm, Nat.mul_div_mul_right _ _ hc]
  unfold roundMag
  simp only [e1]
  congr 1
  have e2 : p * c * 2 ^ F.scale = (p * 2 ^ F.scale) * c := by ring
  rw [e2]
  generalize ulpExp F (p * 2 ^ F.scale / q) = u
  have e3 : q * c * 2 ^ u = (q * 2 ^ u) * c := by ring
  rw [e3]
  unfold rneDiv
  simp only [Nat.mul_div_mul_right _ _ hc, Nat.mul_mod_mul_right]
  have h1 : ∀ a b : Nat, 2 * (a * c) < b * c ↔ 2 * a < b := by
    intro a b; rw [← Nat.mul_assoc]; exact Nat.mul_lt_mul_right hc
  have h2 : ∀ a b : Nat, b * c < 2 * (a * c) ↔ b < 2 * a := by
    intro a b; rw [← Nat.mul_assoc]; exact Nat.mul_lt_mul_right hc
  simp only [h1, h2]

/-- Rounding does not go far above the value. -/
theorem roundMag_le_two (F : Fmt) (hF : 0 < F.prec) (p q : Nat) :
    roundMag F p q ≤ 2 * (p * 2 ^ F.scale / q) + 1 := by
  unfold roundMag
  simp only
  have h1 := rneDiv_le (p * 2 ^ F.scale) (q * 2 ^ ulpExp F (p * 2 ^ F.scale / q))
  rw [← Nat.div_div_eq_div_mul] at h1
  generalize p * 2 ^ F.scale / q = y at *
  have h2 := Nat.mul_le_mul_right (2 ^ ulpExp F y) h1
  have h3 := Nat.div_mul_le_self y (2 ^ ulpExp F y)
  rw [Nat.add_mul, Nat.one_mul] at h2
  rcases ulpExp_bound F hF y with ⟨h, -⟩ | ⟨h, -, -⟩
  · rw [h] at h2 h3 ⊢; simp only [pow_zero, Nat.mul_one] at h2 h3 ⊢; omega
  · have : 2 ^ ulpExp F y ≤ y := le_trans (Nat.pow_le_pow_right (by omega) (by omega)) h
    omega

theorem rneDiv_mono (a a' b : Nat) (h : a ≤ a') : rneDiv a b ≤ rneDiv a' b := by
  have h1 := rneDiv_le a b
  have h2 := rneDiv_ge a' b
  have h3 : a / b ≤ a' / b := Nat.div_le_div_right h
  rcases Nat.lt_or_ge (a / b) (a' / b) with h4 | h4
  · omega
  · have h5 : a / b = a' / b := by omega
    have h6 : a % b ≤ a' % b := by
      have e1 := Nat.div_add_mod a b
      have e2 := Nat.div_add_mod a' b
      rw [h5] at e1; omega
    unfold rneDiv
    simp only [h5]
    split_ifs <;> omega

/-- Rounding keeps the order. -/
theorem roundMag_mono (F : Fmt) (hF : 0 < F.prec) (p p' q : Nat) (h : p ≤ p') : roundMag F p q ≤ roundMag F p' q := by
  have hx : p * 2 ^ F.scale ≤ p' * 2 ^ F.scale := Nat.mul_le_mul_right _ h
  have hy : p * 2 ^ F.scale / q ≤ p' * 2 ^ F.scale / q := Nat.div_le_div_right hx
  unfold roundMag
  simp only
  have h1 := rneDiv_le (p * 2 ^ F.scale) (q * 2 ^ ulpExp F (p * 2 ^ F.scale / q))
  have h2 := rneDiv_ge (p' * 2 ^ F.scale) (q * 2 ^ ulpExp F (p' * 2 ^ F.scale / q))
  rw [← Nat.div_div_eq_div_mul] at h1 h2
  rcases Nat.lt_trichotomy (ulpExp F (p * 2 ^ F.scale / q)) (ulpExp F (p' * 2 ^ F.scale / q)) with hu | hu | hu
  · generalize p * 2 ^ F.scale / q = y at *
    generalize p' * 2 ^ F.scale / q = y' at *
    have hy1 : y < 2 ^ (ulpExp F y + F.prec) := by
      rcases ulpExp_bound F hF y with ⟨h, h'⟩ | ⟨-, h', -⟩
      · rw [h, Nat.zero_add]; exact h'
      · exact h'
    have hy2 : 2 ^ (ulpExp F y' + (F.prec - 1)) ≤ y' := by
      rcases ulpExp_bound F hF y' with ⟨h, h'⟩ | ⟨h', -, -⟩
      · omega
      · exact h'
    have h3 : y / 2 ^ ulpExp F y < 2 ^ F.prec := by
      rw [Nat.div_lt_iff_lt_mul (Nat.two_pow_pos _), ← Nat.pow_add, Nat.add_comm]; exact hy1
    have h4 : 2 ^ (F.prec - 1) ≤ y' / 2 ^ ulpExp F y' := by
      rw [Nat.le_div_iff_mul_le (Nat.two_pow_pos _), ← Nat.pow_add, Nat.add_comm]; exact hy2
    calc _ ≤ 2 ^ F.prec * 2 ^ ulpExp F y := Nat.mul_le_mul_right _ (by omega)
      _ = 2 ^ (F.prec + ulpExp F y) := (Nat.pow_add ..).symm
      _ ≤ 2 ^ (F.prec - 1 + ulpExp F y') := Nat.pow_le_pow_right (by omega) (by omega)
      _ = 2 ^ (F.prec - 1) * 2 ^ ulpExp F y' := Nat.pow_add ..
      _ ≤ _ := Nat.mul_le_mul_right _ (by omega)
  · rw [hu]
    exact Nat.mul_le_mul_right _ (rneDiv_mono _ _ _ hx)
  · exfalso
    generalize p * 2 ^ F.scale / q = y at *
    generalize p' * 2 ^ F.scale / q = y' at *
    have hy1 : y' < 2 ^ (ulpExp F y' + F.prec) := by
      rcases ulpExp_bound F hF y' with ⟨h, h'⟩ | ⟨-, h', -⟩
      · rw [h, Nat.zero_add]; exact h'
      · exact h'
    have hy2 : 2 ^ (ulpExp F y + (F.prec - 1)) ≤ y := by
      rcases ulpExp_bound F hF y with ⟨h, h'⟩ | ⟨h', -, -⟩
      · omega
      · exact h'
    have : 2 ^ (ulpExp F y' + F.prec) ≤ 2 ^ (ulpExp F y + (F.prec - 1)) := Nat.pow_le_pow_right (by omega) (by omega)
    omega

/-! ## Rounding is to the nearest -/

theorem rneDiv_nearest (a b k : Nat) (hb : 0 < b) :
    |((rneDiv a b * b : Nat) : Int) - a| ≤ |((k * b : Nat) : Int) - a| := by
  obtain ⟨h1, h2⟩ := rneDiv_bounds a b hb
  rcases Nat.lt_trichotomy (rneDiv a b) k with h | h | h
  · have : (rneDiv a b + 1) * b ≤ k * b := Nat.mul_le_mul_right _ h
    rw [Nat.add_mul, Nat.one_mul] at this
    generalize rneDiv a b * b = x at *
    generalize k * b = y at *
    have : |(x : Int) - a| ≤ (y : Int) - a := by rw [abs_le]; omega
    exact le_trans this (le_abs_self _)
  · rw [h]
  · have : (k + 1) * b ≤ rneDiv a b * b := Nat.mul_le_mul_right _ h
    rw [Nat.add_mul, Nat.one_mul] at this
    generalize rneDiv a b * b = x at *
    generalize k * b = y at *
    have h3 : |(x : Int) - a| ≤ -((y : Int) - a) := by rw [abs_le]; omega
    exact le_trans h3 (neg_le_abs _)

theorem rneDiv_lt_le (a b k : Nat) (hb : 0 < b) (h : a < k * b) : rneDiv a b ≤ k := by
  have h1 := rneDiv_le a b
  have : a / b < k := (Nat.div_lt_iff_lt_mul hb).2 h
  omega

/-- The result of rounding is `c * 2^e` with `c < 2^prec`. -/
theorem roundMag_representable (F : Fmt) (hF : 0 < F.prec) (p q : Nat) (hq : 0 < q) :
    ∃ c e, c < 2 ^ F.prec ∧ roundMag F p q = c * 2 ^ e := by
  unfold roundMag
  simp only
  generalize hu : ulpExp F (p * 2 ^ F.scale / q) = u
  have h1 : p * 2 ^ F.scale < 2 ^ F.prec * (q * 2 ^ u) := by
    have : p * 2 ^ F.scale / q < 2 ^ (u + F.prec) := by
      rcases ulpExp_bound F hF (p * 2 ^ F.scale / q) with ⟨h, h'⟩ | ⟨-, h', -⟩
      · rw [← hu, h, Nat.zero_add]; exact h'
      · rw [hu] at h'; exact h'
    rw [Nat.div_lt_iff_lt_mul hq, Nat.pow_add] at this
    calc _ < _ := this
      _ = _ := by ring
  have h2 := rneDiv_lt_le _ _ _ (Nat.mul_pos hq (Nat.two_pow_pos u)) h1
  rcases Nat.lt_or_ge (rneDiv (p * 2 ^ F.scale) (q * 2 ^ u)) (2 ^ F.prec) with h | h
  · exact ⟨_, _, h, rfl⟩
  · refine ⟨1, F.prec + u, ?_, ?_⟩
    · exact Nat.one_lt_two_pow (by omega)
    · rw [Nat.le_antisymm h2 h, Nat.one_mul, Nat.pow_add]

/-- No representable magnitude is nearer. -/
theorem roundMag_nearest (F : Fmt) (hF : 0 < F.prec) (p q : Nat) (hq : 0 < q) (c e : Nat) (hc : c < 2 ^ F.prec) :
    |((roundMag F p q * q : Nat) : Int) - (p * 2 ^ F.scale : Nat)| ≤ |((c * 2 ^ e * q : Nat) : Int) - (p * 2 ^ F.scale : Nat)| := by
  unfold roundMag
  simp only
  generalize hu : ulpExp F (p * 2 ^ F.scale / q) = u
  have hpos : 0 < q * 2 ^ u := Nat.mul_pos hq (Nat.two_pow_pos u)
  have e1 : rneDiv (p * 2 ^ F.scale) (q * 2 ^ u) * 2 ^ u * q = rneDiv (p * 2 ^ F.scale) (q * 2 ^ u) * (q * 2 ^ u) := by ring
  rw [e1]
  rcases Nat.lt_or_ge e u with he | he
  · -- below the binade of the value: the lower end of the binade is nearer
    rcases ulpExp_bound F hF (p * 2 ^ F.scale / q) with ⟨h, h'⟩ | ⟨h, -, -⟩
    · omega
    · rw [hu] at h
      have h1 := rneDiv_nearest (p * 2 ^ F.scale) (q * 2 ^ u) (2 ^ (F.prec - 1)) hpos
      refine le_trans h1 ?_
      have h2 : 2 ^ (F.prec - 1) * (q * 2 ^ u) ≤ p * 2 ^ F.scale := by
        rw [Nat.le_div_iff_mul_le hq, Nat.pow_add] at h
        calc _ = 2 ^ u * 2 ^ (F.prec - 1) * q := by ring
          _ ≤ _ := h
      have h3 : c * 2 ^ e * q ≤ 2 ^ (F.prec - 1) * (q * 2 ^ u) := by
        calc c * 2 ^ e * q ≤ 2 ^ F.prec * 2 ^ e * q := by
              exact Nat.mul_le_mul_right _ (Nat.mul_le_mul_right _ (le_of_lt hc))
          _ = 2 ^ (F.prec + e) * q := by rw [Nat.pow_add]
          _ ≤ 2 ^ (F.prec - 1 + u) * q := Nat.mul_le_mul_right _ (Nat.pow_le_pow_right (by omega) (by omega))
          _ = _ := by rw [Nat.pow_add]; ring
      generalize 2 ^ (F.prec - 1) * (q * 2 ^ u) = x at *
      generalize c * 2 ^ e * q = y at *
      generalize p * 2 ^ F.scale = z at *
      rw [abs_sub_comm, abs_sub_comm (y : Int), abs_of_nonneg (by omega), abs_of_nonneg (by omega)]
      omega
  · have e2 : c * 2 ^ e * q = (c * 2 ^ (e - u)) * (q * 2 ^ u) := by
      have : 2 ^ e = 2 ^ (e - u) * 2 ^ u := by rw [← Nat.pow_add]; congr 1; omega
      rw [this]; ring
    rw [e2]
    exact rneDiv_nearest _ _ _ hpos

end Verif.Flt
