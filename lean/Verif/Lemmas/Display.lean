import Verif.FloatDisplay
import Verif.Lemmas.Round
import Verif.Lemmas.Print

/-! Helper lemmas: the shortest decimal of a float. -/

namespace Verif.Flt
open Verif

/-- `d * 10^e` reads as the float of magnitude `m`. -/
def Reads (F : Fmt) (m d : Nat) (e : Int) : Prop := ofDec F false d e = fin false m

theorem reads_iff (F : Fmt) (m d : Nat) (e : Int) (hm : m < 2 ^ (F.maxExp + F.scale)) :
    Reads F m d e ↔ rnd F (d * 10 ^ e) = m := by
  unfold Reads
  rw [ofDec_rnd]
  split_ifs with h
  · constructor
    · intro h'; cases h'
    · intro h'; omega
  · simp

/-- The value of a magnitude. -/
def val (F : Fmt) (m : Nat) : ℚ := (m : ℚ) / 2 ^ F.scale

theorem val_nonneg (F : Fmt) (m : Nat) : 0 ≤ val F m := by unfold val; positivity

theorem val_mul (F : Fmt) (m : Nat) : val F m * 2 ^ F.scale = m := by unfold val; field_simp

theorem rnd_val (F : Fmt) (hF : 0 < F.prec) (m : Nat) (hm : Rep F m) : rnd F (val F m) = m :=
  rnd_exact F hF _ (val_nonneg F m) m hm (val_mul F m)

/-- The integer division in `digitsAt` is the floor of the value in units of `10^e`. -/
theorem digitsAt_div (F : Fmt) (m : Nat) (e : Int) :
    let a := if 0 ≤ e then m else m * 10 ^ (-e).toNat
    let b := if 0 ≤ e then 2 ^ F.scale * 10 ^ e.toNat else 2 ^ F.scale
    0 < b ∧ val F m = (a : ℚ) / (b : Nat) * 10 ^ e := by
  simp only
  unfold val
  split_ifs with h
  · obtain ⟨k, rfl⟩ := Int.eq_ofNat_of_zero_le h
    refine ⟨by positivity, ?_⟩
    push_cast
    simp only [Int.toNat_natCast, zpow_natCast]
    field_simp
  · obtain ⟨k, hk⟩ := Int.eq_ofNat_of_zero_le (by omega : 0 ≤ -e)
    obtain rfl : e = -(k : Int) := by omega
    refine ⟨by positivity, ?_⟩
    push_cast
    simp only [neg_neg, Int.toNat_natCast, zpow_neg, zpow_natCast]
    field_simp

theorem pow_pos_q (e : Int) : (0 : ℚ) < 10 ^ e := zpow_pos (by norm_num) e

/-- What `digitsAt` finds. -/
theorem digitsAt_some (F : Fmt) (m : Nat) (e : Int) (d : Nat) (h : digitsAt F m e = some d) :
    Reads F m d e ∧ (d : ℚ) * 10 ^ e ≤ val F m + 10 ^ e ∧ val F m - 10 ^ e ≤ (d : ℚ) * 10 ^ e := by
  obtain ⟨hb, hv⟩ := digitsAt_div F m e
  unfold digitsAt at h
  simp only at h hb hv
  generalize (if 0 ≤ e then m else m * 10 ^ (-e).toNat) = a at *
  generalize (if 0 ≤ e then 2 ^ F.scale * 10 ^ e.toNat else 2 ^ F.scale) = b at *
  have hp := pow_pos_q e
  have hb' : (0 : ℚ) < b := by exact_mod_cast hb
  have h1 : ((a / b : Nat) : ℚ) ≤ (a : ℚ) / b := by
    rw [le_div_iff₀ hb']; exact_mod_cast Nat.div_mul_le_self a b
  have h2 : (a : ℚ) / b < ((a / b : Nat) : ℚ) + 1 := by
    rw [div_lt_iff₀ hb']
    have : a < (a / b + 1) * b := (Nat.div_lt_iff_lt_mul hb).1 (Nat.lt_succ_self _)
    exact_mod_cast this
  rw [hv]
  generalize (a : ℚ) / b = x at *
  generalize a / b = k at *
  split_ifs at h with h3 h4
  · cases h
    refine ⟨?_, ?_, ?_⟩
    · simp only [Bool.and_eq_true, decide_eq_true_eq] at h3; exact h3.1
    · push_cast; nlinarith
    · push_cast; nlinarith
  · cases h
    refine ⟨?_, ?_, ?_⟩
    · simp only [decide_eq_true_eq] at h4; exact h4
    · nlinarith
    · nlinarith

/-- If some digits read back, `digitsAt` finds some. -/
theorem digitsAt_complete (F : Fmt) (hF : 0 < F.prec) (m : Nat) (e : Int) (hm : Rep F m) (hlt : m < 2 ^ (F.maxExp + F.scale))
    (d' : Nat) (h : Reads F m d' e) : ∃ d, digitsAt F m e = some d := by
  obtain ⟨hb, hv⟩ := digitsAt_div F m e
  unfold digitsAt
  simp only at hb hv ⊢
  generalize (if 0 ≤ e then m else m * 10 ^ (-e).toNat) = a at *
  generalize (if 0 ≤ e then 2 ^ F.scale * 10 ^ e.toNat else 2 ^ F.scale) = b at *
  have hp := pow_pos_q e
  have hb' : (0 : ℚ) < b := by exact_mod_cast hb
  have h1 : ((a / b : Nat) : ℚ) ≤ (a : ℚ) / b := by
    rw [le_div_iff₀ hb']; exact_mod_cast Nat.div_mul_le_self a b
  have h2 : (a : ℚ) / b < ((a / b : Nat) : ℚ) + 1 := by
    rw [div_lt_iff₀ hb']
    have : a < (a / b + 1) * b := (Nat.div_lt_iff_lt_mul hb).1 (Nat.lt_succ_self _)
    exact_mod_cast this
  have hx := rnd_val F hF m hm
  rw [hv] at hx
  have key : Reads F m (a / b) e ∨ Reads F m (a / b + 1) e := by
    simp only [reads_iff F m _ e hlt] at h ⊢
    generalize (a : ℚ) / b = x at *
    generalize a / b = k at *
    rcases Nat.lt_or_ge k d' with hd | hd
    · right
      have h3 : ((k + 1 : Nat) : ℚ) ≤ d' := by exact_mod_cast hd
      have h4 : x * 10 ^ e ≤ ((k + 1 : Nat) : ℚ) * 10 ^ e := by push_cast; nlinarith
      have h0 : 0 ≤ x * 10 ^ e := by rw [← hv]; exact val_nonneg F m
      apply Nat.le_antisymm
      · rw [← h]
        exact rnd_mono F hF _ _ (by positivity) (mul_le_mul_of_nonneg_right h3 hp.le)
      · conv_lhs => rw [← hx]
        exact rnd_mono F hF _ _ h0 h4
    · left
      have h3 : (d' : ℚ) ≤ k := by exact_mod_cast hd
      apply Nat.le_antisymm
      · conv_rhs => rw [← hx]
        exact rnd_mono F hF _ _ (by positivity) (by nlinarith)
      · conv_lhs => rw [← h]
        exact rnd_mono F hF _ _ (by positivity) (mul_le_mul_of_nonneg_right h3 hp.le)
  unfold Reads at key
  by_cases hu : ofDec F false (a / b + 1) e = fin false m
  · by_cases hd : ofDec F false (a / b) e = fin false m
    · simp only [hu, hd]
      by_cases h5 : b ≤ 2 * (a % b) <;> simp [h5]
    · simp only [hu, hd]; simp
  · have hd := key.resolve_right hu
    simp only [hu, hd]; simp

/-- Among digits that read back at one exponent, `digitsAt` takes the nearest. -/
theorem digitsAt_nearest (F : Fmt) (hF : 0 < F.prec) (m : Nat) (e : Int) (hm : Rep F m) (hlt : m < 2 ^ (F.maxExp + F.scale))
    (d : Nat) (h : digitsAt F m e = some d) (d' : Nat) (h' : Reads F m d' e) :
    |(d : ℚ) * 10 ^ e - val F m| ≤ |(d' : ℚ) * 10 ^ e - val F m| := by
  obtain ⟨hb, hv⟩ := digitsAt_div F m e
  unfold digitsAt at h
  simp only at h hb hv
  generalize (if 0 ≤ e then m else m * 10 ^ (-e).toNat) = a at *
  generalize (if 0 ≤ e then 2 ^ F.scale * 10 ^ e.toNat else 2 ^ F.scale) = b at *
  have hp := pow_pos_q e
  have hb' : (0 : ℚ) < b := by exact_mod_cast hb
  have hdm : (a : ℚ) / b = (a / b : Nat) + (a % b : Nat) / b := by
    have : (a : ℚ) = b * (a / b : Nat) + (a % b : Nat) := by exact_mod_cast (Nat.div_add_mod a b).symm
    rw [div_eq_iff hb'.ne', add_mul, div_mul_cancel₀ _ hb'.ne']
    linarith
  have hr1 : (0 : ℚ) ≤ (a % b : Nat) / b := by positivity
  have hr2 : ((a % b : Nat) : ℚ) / b < 1 := by rw [div_lt_one hb']; exact_mod_cast Nat.mod_lt a hb
  have hr3 : b ≤ 2 * (a % b) ↔ 1 ≤ 2 * (((a % b : Nat) : ℚ) / b) := by
    rw [← mul_div_assoc, le_div_iff₀ hb', one_mul]
    exact_mod_cast Iff.rfl
  have hx := rnd_val F hF m hm
  have hd0 : d' ≤ a / b → Reads F m (a / b) e := by
    intro hle
    rw [reads_iff F m _ e hlt] at h' ⊢
    have h3 : (d' : ℚ) ≤ (a / b : Nat) := by exact_mod_cast hle
    apply Nat.le_antisymm
    · conv_rhs => rw [← hx]
      refine rnd_mono F hF _ _ (by positivity) ?_
      rw [hv]
      exact mul_le_mul_of_nonneg_right (by linarith) hp.le
    · conv_lhs => rw [← h']
      exact rnd_mono F hF _ _ (by positivity) (mul_le_mul_of_nonneg_right h3 hp.le)
  have hd1 : a / b < d' → Reads F m (a / b + 1) e := by
    intro hgt
    rw [reads_iff F m _ e hlt] at h' ⊢
    have h3 : ((a / b + 1 : Nat) : ℚ) ≤ d' := by exact_mod_cast hgt
    apply Nat.le_antisymm
    · rw [← h']
      exact rnd_mono F hF _ _ (by positivity) (mul_le_mul_of_nonneg_right h3 hp.le)
    · conv_lhs => rw [← hx]
      refine rnd_mono F hF _ _ (val_nonneg F m) ?_
      rw [hv]
      refine mul_le_mul_of_nonneg_right ?_ hp.le
      push_cast; linarith
  unfold Reads at hd0 hd1
  rw [hv, ← sub_mul, ← sub_mul, abs_mul, abs_mul]
  refine mul_le_mul_of_nonneg_right ?_ (abs_nonneg _)
  rw [hdm]
  generalize ((a % b : Nat) : ℚ) / b = r at *
  generalize a / b = k at *
  have hsplit : d' ≤ k ∧ (d' : ℚ) ≤ k ∨ k < d' ∧ (k : ℚ) + 1 ≤ d' := by
    rcases Nat.lt_or_ge k d' with h1 | h1
    · exact .inr ⟨h1, by exact_mod_cast h1⟩
    · exact .inl ⟨h1, by exact_mod_cast h1⟩
  have up : |((k + 1 : Nat) : ℚ) - (k + r)| = 1 - r := by
    rw [abs_of_nonneg (by push_cast; linarith)]; push_cast; ring
  have down : |(k : ℚ) - (k + r)| = r := by
    rw [abs_sub_comm, abs_of_nonneg (by linarith)]; ring
  split_ifs at h with h3 h4
  · cases h
    rw [up]
    simp only [Bool.and_eq_true, Bool.or_eq_true, Bool.not_eq_true', decide_eq_true_eq, decide_eq_false_iff_not] at h3
    rcases hsplit with ⟨h5, h6⟩ | ⟨h5, h6⟩
    · have h7 := hr3.1 (h3.2.resolve_left (fun hn => hn (hd0 h5)))
      rw [abs_sub_comm, abs_of_nonneg (by linarith)]; linarith
    · rw [abs_of_nonneg (by linarith)]; linarith
  · cases h
    rw [down]
    rcases hsplit with ⟨h5, h6⟩ | ⟨h5, h6⟩
    · rw [abs_sub_comm, abs_of_nonneg (by linarith)]; linarith
    · have h7 := hd1 h5
      have h8 : ¬ b ≤ 2 * (a % b) := by
        intro h8
        apply h3
        simp [h7, h8]
      rw [hr3] at h8
      rw [abs_of_nonneg (by linarith)]; linarith

/-- What the search finds: an exponent at which digits read back, and no larger one below the start. -/
theorem shortest_some (F : Fmt) (m : Nat) : ∀ k d e, shortest F m k = some (d, e) →
    digitsAt F m e = some d ∧ -((F.scale + 20 : Nat) : Int) ≤ e ∧
      ∀ e', e < e' → e' < (k : Int) - (F.scale + 20 : Nat) → digitsAt F m e' = none := by
  intro k
  induction k with
  | zero => intro d e h; simp [shortest] at h
  | succ k ih =>
    intro d e h
    unfold shortest at h
    cases hd : digitsAt F m (k - (F.scale + 20 : Nat)) with
    | some d' =>
      rw [hd] at h
      simp only [Option.some.injEq, Prod.mk.injEq] at h
      obtain ⟨rfl, rfl⟩ := h
      refine ⟨hd, by omega, ?_⟩
      intro e' h1 h2
      push_cast at h1 h2; omega
    | none =>
      rw [hd] at h
      obtain ⟨h1, h2, h3⟩ := ih d e h
      refine ⟨h1, h2, ?_⟩
      intro e' h4 h5
      rcases eq_or_ne e' (k - (F.scale + 20 : Nat)) with rfl | hne
      · exact hd
      · apply h3 e' h4
        push_cast at h5 hne ⊢; omega

theorem shortest_complete (F : Fmt) (m : Nat) (e : Int) (d : Nat) (h : digitsAt F m e = some d) (h0 : -((F.scale + 20 : Nat) : Int) ≤ e) :
    ∀ k : Nat, e < (k : Int) - (F.scale + 20 : Nat) → ∃ r, shortest F m k = some r := by
  intro k
  induction k with
  | zero => intro hk; push_cast at *; omega
  | succ k ih =>
    intro hk
    unfold shortest
    cases hd : digitsAt F m (k - (F.scale + 20 : Nat)) with
    | some d' => exact ⟨_, rfl⟩
    | none =>
      apply ih
      rcases eq_or_ne e (k - (F.scale + 20 : Nat)) with rfl | hne
      · rw [h] at hd; cases hd
      · push_cast at hk hne ⊢; omega

theorem rep_pow (F : Fmt) (hF : 0 < F.prec) (k : Nat) : Rep F (2 ^ k) :=
  ⟨1, k, Nat.one_lt_two_pow (by omega), by simp⟩

/-- Integers of at most `prec` bits, and `2^prec`, are representable. -/
theorem rep_int (F : Fmt) (hF : 0 < F.prec) (k : Nat) (hk : k ≤ 2 ^ F.prec) : Rep F (k * 2 ^ F.scale) := by
  rcases Nat.lt_or_ge k (2 ^ F.prec) with h | h
  · exact ⟨k, F.scale, h, rfl⟩
  · rw [Nat.le_antisymm hk h, ← Nat.pow_add]; exact rep_pow F hF _

theorem rnd_int (F : Fmt) (hF : 0 < F.prec) (k : Nat) (hk : k ≤ 2 ^ F.prec) : rnd F k = k * 2 ^ F.scale :=
  rnd_exact F hF _ (by positivity) _ (rep_int F hF k hk) (by push_cast; ring)

/-- No exponent beyond the start of the search can occur. -/
theorem reads_lt (F : Fmt) (hF : 0 < F.prec) (m d : Nat) (e : Int) (h0 : 0 < m) (hlt : m < 2 ^ (F.maxExp + F.scale))
    (h : Reads F m d e) : e < (F.maxExp / 3 + 1 : Nat) := by
  rw [reads_iff F m d e hlt] at h
  by_contra hge
  have hd : 1 ≤ d := by
    rcases Nat.eq_zero_or_pos d with rfl | h1
    · rw [Nat.cast_zero, zero_mul, rnd_zero F hF] at h; omega
    · exact h1
  obtain ⟨k, rfl⟩ := Int.eq_ofNat_of_zero_le (by omega : 0 ≤ e)
  have hk : F.maxExp / 3 + 1 ≤ k := by omega
  have h1 : 2 ^ F.maxExp ≤ d * 10 ^ k := by
    calc 2 ^ F.maxExp ≤ 2 ^ (3 * k) := Nat.pow_le_pow_right (by omega) (by omega)
      _ = 8 ^ k := by rw [Nat.pow_mul]
      _ ≤ 10 ^ k := Nat.pow_le_pow_left (by omega) _
      _ ≤ d * 10 ^ k := Nat.le_mul_of_pos_left _ hd
  have h2 : ((2 ^ F.maxExp : Nat) : ℚ) ≤ (d : ℚ) * 10 ^ ((k : Nat) : Int) := by
    rw [zpow_natCast]; exact_mod_cast h1
  have h3 := rnd_mono F hF _ _ (by positivity) h2
  rw [h, rnd_exact F hF _ (by positivity) (2 ^ (F.maxExp + F.scale)) (rep_pow F hF _) (by push_cast; rw [pow_add])] at h3
  omega

/-- Eighteen digits are enough. -/
theorem reads_eighteen (F : Fmt) (hF : 0 < F.prec) (hF' : F.prec ≤ 53) (m : Nat) (hm : Rep F m) (h0 : 0 < m)
    (hlt : m < 2 ^ (F.maxExp + F.scale)) : ∃ d e, Reads F m d e ∧ -((F.scale + 20 : Nat) : Int) ≤ e ∧ val F m < 10 ^ 18 * 10 ^ e := by
  have hpos : 0 < val F m := by unfold val; positivity
  obtain ⟨n, hn1, hn2⟩ := exists_mem_Ico_zpow hpos (by norm_num : (1 : ℚ) < 10)
  have hp := pow_pos_q (n - 17)
  have e1 : (10 : ℚ) ^ n = 10 ^ 17 * 10 ^ (n - 17) := by
    rw [← zpow_natCast, ← zpow_add₀ (by norm_num)]; congr 1; push_cast; ring
  have e2 : (10 : ℚ) ^ (n + 1) = 10 ^ 18 * 10 ^ (n - 17) := by
    rw [← zpow_natCast, ← zpow_add₀ (by norm_num)]; congr 1; push_cast; ring
  rw [e1] at hn1
  refine ⟨⌊val F m / 10 ^ (n - 17)⌋₊, n - 17, ?_, ?_, ?_⟩
  · rw [reads_iff F m _ _ hlt]
    have h1 := Nat.floor_le (div_nonneg hpos.le hp.le)
    have h2 := Nat.lt_floor_add_one (val F m / 10 ^ (n - 17))
    generalize (⌊val F m / 10 ^ (n - 17)⌋₊ : Nat) = d at *
    rw [le_div_iff₀ hp] at h1
    rw [div_lt_iff₀ hp] at h2
    apply rnd_close F hF _ (by positivity) m hm
    have hs : (0 : ℚ) < 2 ^ F.scale := by positivity
    rw [← val_mul F m, ← sub_mul, abs_mul, abs_of_pos hs, abs_sub_comm, abs_of_nonneg (by linarith)]
    have hP : (2 : ℚ) ^ (F.prec + 1) ≤ 2 ^ 54 := pow_le_pow_right₀ (by norm_num) (by omega)
    have h3 : (val F m - d * 10 ^ (n - 17)) * 2 ^ (F.prec + 1) < val F m := by
      have h4 : (val F m - d * 10 ^ (n - 17)) * 2 ^ (F.prec + 1) ≤ 10 ^ (n - 17) * 2 ^ 54 :=
        mul_le_mul (by linarith) hP (by positivity) hp.le
      have h5 : (10 : ℚ) ^ (n - 17) * 2 ^ 54 < 10 ^ 17 * 10 ^ (n - 17) := by
        rw [mul_comm]; exact mul_lt_mul_of_pos_right (by norm_num) hp
      linarith
    nlinarith
  · by_contra hlt'
    have h1 : n + 1 ≤ -(F.scale : Int) := by push_cast at hlt'; omega
    have h2 : (10 : ℚ) ^ (n + 1) ≤ 10 ^ (-(F.scale : Int)) := zpow_le_zpow_right₀ (by norm_num) h1
    have h3 : (10 : ℚ) ^ (-(F.scale : Int)) ≤ 1 / 2 ^ F.scale := by
      rw [zpow_neg, zpow_natCast, one_div]
      exact inv_anti₀ (by positivity) (pow_le_pow_left₀ (by norm_num) (by norm_num) _)
    have h4 : 1 / 2 ^ F.scale ≤ val F m := by
      unfold val
      exact div_le_div_of_nonneg_right (by exact_mod_cast h0) (by positivity)
    linarith
  · rw [← e2]; exact hn2

/-- The decimal that is shown: it reads back, its exponent is the largest, and it has at most 19 digits. -/
theorem shortest_spec (F : Fmt) (hF : 0 < F.prec) (hF' : F.prec ≤ 53) (m : Nat) (hm : Rep F m) (h0 : 0 < m)
    (hlt : m < 2 ^ (F.maxExp + F.scale)) : ∃ d e, displayMag F m = decimalText d e ∧ Reads F m d e ∧ d ≤ 10 ^ 18 ∧
      digitsAt F m e = some d ∧ ∀ d' e', Reads F m d' e' → e' ≤ e := by
  obtain ⟨d1, e1, hr1, hlo1, hv1⟩ := reads_eighteen F hF hF' m hm h0 hlt
  obtain ⟨d2, hd2⟩ := digitsAt_complete F hF m e1 hm hlt d1 hr1
  have hlt1 := reads_lt F hF m d1 e1 h0 hlt hr1
  obtain ⟨⟨d, e⟩, hs⟩ := shortest_complete F m e1 d2 hd2 hlo1 (F.maxExp / 3 + F.scale + 21) (by push_cast at *; omega)
  obtain ⟨h1, h2, h3⟩ := shortest_some F m _ d e hs
  obtain ⟨h4, h5, h6⟩ := digitsAt_some F m e d h1
  have hmax : ∀ d' e', Reads F m d' e' → e' ≤ e := by
    intro d' e' hr
    by_contra hgt
    obtain ⟨d3, hd3⟩ := digitsAt_complete F hF m e' hm hlt d' hr
    have := h3 e' (by omega) (by have := reads_lt F hF m d' e' h0 hlt hr; push_cast at *; omega)
    rw [this] at hd3; cases hd3
  refine ⟨d, e, ?_, h4, ?_, h1, hmax⟩
  · unfold displayMag; rw [if_neg (by omega), hs]
  · have h7 : (10 : ℚ) ^ e1 ≤ 10 ^ e := zpow_le_zpow_right₀ (by norm_num) (hmax _ _ hr1)
    have hp := pow_pos_q e
    have h8 : (d : ℚ) * 10 ^ e < (10 ^ 18 + 1) * 10 ^ e := by nlinarith
    have h9 : (d : ℚ) < 10 ^ 18 + 1 := lt_of_mul_lt_mul_right h8 hp.le
    have : d < 10 ^ 18 + 1 := by exact_mod_cast h9
    omega

/-- The digits of the decimal with the largest exponent are the fewest. -/
theorem fewest (F : Fmt) (hF : 0 < F.prec) (m d : Nat) (e : Int) (h0 : 0 < m) (hlt : m < 2 ^ (F.maxExp + F.scale))
    (h : Reads F m d e) (hmax : ∀ d' e', Reads F m d' e' → e' ≤ e) (d' : Nat) (e' : Int) (h' : Reads F m d' e') (k : Nat)
    (hk : d' < 10 ^ k) : d < 10 ^ k := by
  by_contra hge
  have hle := hmax _ _ h'
  have hk0 : 0 < k := by
    rcases Nat.eq_zero_or_pos k with rfl | h1
    · exfalso
      obtain rfl : d' = 0 := by simpa using hk
      rw [reads_iff F m _ _ hlt, Nat.cast_zero, zero_mul, rnd_zero F hF] at h'
      omega
    · exact h1
  have : Reads F m 1 (k + e) := by
    rw [reads_iff F m _ _ hlt] at h h' ⊢
    have e1 : ((1 : Nat) : ℚ) * 10 ^ ((k : Int) + e) = 10 ^ k * 10 ^ e := by
      rw [zpow_add₀ (by norm_num), zpow_natCast]; push_cast; ring
    have hp := pow_pos_q e
    have hp' := pow_pos_q e'
    rw [e1]
    apply Nat.le_antisymm
    · rw [← h]
      refine rnd_mono F hF _ _ (by positivity) (mul_le_mul_of_nonneg_right ?_ hp.le)
      exact_mod_cast Nat.le_of_not_lt hge
    · conv_lhs => rw [← h']
      refine rnd_mono F hF _ _ (by positivity) ?_
      have h2 : (d' : ℚ) ≤ 10 ^ k := by exact_mod_cast hk.le
      have h3 : (10 : ℚ) ^ e' ≤ 10 ^ e := zpow_le_zpow_right₀ (by norm_num) hle
      exact mul_le_mul h2 h3 hp'.le (by positivity)
  have := hmax _ _ this
  omega

/-- The last digit is not zero. -/
theorem last_digit (F : Fmt) (m d : Nat) (e : Int) (hlt : m < 2 ^ (F.maxExp + F.scale)) (h : Reads F m d e)
    (hmax : ∀ d' e', Reads F m d' e' → e' ≤ e) : ¬ 10 ∣ d := by
  rintro ⟨k, rfl⟩
  have : Reads F m k (e + 1) := by
    rw [reads_iff F m _ _ hlt] at h ⊢
    rw [← h]; congr 1
    rw [zpow_add₀ (by norm_num)]; push_cast; ring
  have := hmax _ _ this
  omega

/-- A float that is not integral is below `2^prec`. -/
theorem nonint_lt (F : Fmt) (m : Nat) (hm : Rep F m) (h : ¬ 2 ^ F.scale ∣ m) : m < 2 ^ F.prec * 2 ^ F.scale := by
  obtain ⟨c, e, hc, rfl⟩ := hm
  have : e < F.scale := by
    by_contra hge
    exact h (Dvd.dvd.mul_left (pow_dvd_pow 2 (by omega)) c)
  exact Nat.mul_lt_mul_of_lt_of_le hc (Nat.pow_le_pow_right (by omega) this.le) (Nat.two_pow_pos _)

/-- An integral decimal that reads as a float below `2^prec` is equal to it. -/
theorem reads_int (F : Fmt) (hF : 0 < F.prec) (m k : Nat) (hm : m < 2 ^ F.prec * 2 ^ F.scale) (h : rnd F k = m) :
    m = k * 2 ^ F.scale := by
  rcases Nat.le_total k (2 ^ F.prec) with hk | hk
  · rw [← h, rnd_int F hF k hk]
  · have : rnd F ((2 ^ F.prec : Nat) : ℚ) ≤ rnd F k := rnd_mono F hF _ _ (by positivity) (by exact_mod_cast hk)
    rw [rnd_int F hF _ (le_refl _), h] at this
    omega

/-- The exponent is negative exactly for floats that are not integral. -/
theorem exp_neg_iff (F : Fmt) (hF : 0 < F.prec) (m d : Nat) (e : Int) (hm : Rep F m) (hlt : m < 2 ^ (F.maxExp + F.scale))
    (h : Reads F m d e) (hmax : ∀ d' e', Reads F m d' e' → e' ≤ e) : 0 ≤ e ↔ 2 ^ F.scale ∣ m := by
  constructor
  · intro he
    by_contra hn
    obtain ⟨k, rfl⟩ := Int.eq_ofNat_of_zero_le he
    rw [reads_iff F m _ _ hlt] at h
    have := reads_int F hF m (d * 10 ^ k) (nonint_lt F m hm hn) (by push_cast; rw [zpow_natCast] at h; exact h)
    exact hn ⟨_, this.trans (Nat.mul_comm ..)⟩
  · rintro ⟨k, hk⟩
    apply hmax k 0
    rw [reads_iff F m _ _ hlt]
    apply rnd_exact F hF _ (by positivity) m hm
    rw [hk]; push_cast; simp [mul_comm]

/-- The integer part of the decimal is that of the float. -/
theorem int_part (F : Fmt) (hF : 0 < F.prec) (m d j : Nat) (hm : Rep F m) (hlt : m < 2 ^ (F.maxExp + F.scale))
    (h : Reads F m d (-(j : Int))) (hn : ¬ 2 ^ F.scale ∣ m) : d / 10 ^ j = m / 2 ^ F.scale := by
  rw [reads_iff F m _ _ hlt] at h
  have hI : m / 2 ^ F.scale < 2 ^ F.prec := by
    rw [Nat.div_lt_iff_lt_mul (Nat.two_pow_pos _)]; exact nonint_lt F m hm hn
  have h1 := Nat.div_mul_le_self m (2 ^ F.scale)
  have h2 : m < (m / 2 ^ F.scale + 1) * 2 ^ F.scale := (Nat.div_lt_iff_lt_mul (Nat.two_pow_pos _)).1 (Nat.lt_succ_self _)
  have h3 : m / 2 ^ F.scale * 2 ^ F.scale ≠ m := fun h => hn ⟨_, h.symm.trans (Nat.mul_comm ..)⟩
  generalize m / 2 ^ F.scale = I at *
  have hpj : (0 : ℚ) < 10 ^ j := by positivity
  have ey : (d : ℚ) * 10 ^ (-(j : Int)) = d / 10 ^ j := by rw [zpow_neg, zpow_natCast, div_eq_mul_inv]
  rw [ey] at h
  have hy0 : (0 : ℚ) ≤ d / 10 ^ j := by positivity
  apply Nat.le_antisymm
  · by_contra hgt
    have : (I + 1) * 10 ^ j ≤ d := (Nat.le_div_iff_mul_le (by positivity)).1 (by omega)
    have h4 : ((I + 1 : Nat) : ℚ) ≤ d / 10 ^ j := by rw [le_div_iff₀ hpj]; exact_mod_cast this
    have h5 := rnd_mono F hF _ _ (by positivity) h4
    have h6 := rnd_int F hF (I + 1) hI
    rw [h, h6] at h5
    exact absurd h2 (Nat.not_lt.2 h5)
  · by_contra hgt
    have : d < I * 10 ^ j := (Nat.div_lt_iff_lt_mul (by positivity)).1 (by omega)
    have h4 : (d : ℚ) / 10 ^ j ≤ (I : Nat) := by rw [div_le_iff₀ hpj]; exact_mod_cast this.le
    have h5 := rnd_mono F hF _ _ hy0 h4
    have h6 := rnd_int F hF I hI.le
    rw [h, h6] at h5
    omega

end Verif.Flt
