import Verif.Lemmas.Display

/-! Helper lemmas: the text of a float and its operands. -/

namespace Verif.FloatText
open Verif Spec Uts35 Strings Grammar PluralOperands Flt

attribute [local irreducible] Flt.ofRat Flt.roundMag

theorem digitChar_eq (n : Nat) (h : n < 10) : Nat.digitChar n = Spec.digitChar (Fin.ofNat 10 n) := by
  match n, h with
  | 0, _ | 1, _ | 2, _ | 3, _ | 4, _ | 5, _ | 6, _ | 7, _ | 8, _ | 9, _ => rfl

theorem showNat_eq (n : Nat) : showNat n = digitText (natDigits n) := by
  unfold showNat
  induction n using Nat.strong_induction_on with
  | _ n ih =>
    rw [Nat.toDigits_eq_if (by omega)]
    unfold natDigits
    split_ifs with h
    · simp [digitText, digitChar_eq n h]
    · rw [ih (n / 10) (by omega), digitText_append]
      have : (Fin.ofNat 10 (n % 10) : Fin 10) = Fin.ofNat 10 n := by ext; simp
      rw [digitChar_eq (n % 10) (Nat.mod_lt _ (by omega)), this]
      rfl

theorem digitText_replicate (k : Nat) : digitText (List.replicate k (0 : Fin 10)) = List.replicate k '0' := by
  simp only [digitText, List.map_replicate]; rfl

theorem decimalText_int (d k : Nat) : decimalText d (k : Int) = digitText (natDigits d ++ List.replicate k 0) := by
  unfold decimalText
  simp only [Int.natCast_nonneg, if_true, Int.toNat_natCast]
  rw [showNat_eq, digitText_append, digitText_replicate]

theorem natDigits_int (d k : Nat) : digitsNum (natDigits d ++ List.replicate k 0) = d * 10 ^ k := by
  rw [digitsNum_append, digitsNum_natDigits, digitsNum_zeros, List.length_replicate]; omega

theorem decimalText_frac (d j : Nat) (hj : 0 < j) : ∃ ip fp, ip ≠ [] ∧ fp.length = j ∧ decimalText d (-(j : Int)) = decText ip fp ∧
    digitsNum ip = d / 10 ^ j ∧ digitsNum fp = d % 10 ^ j := by
  have hd := digitsNum_natDigits d
  have hl := digitsNum_lt (natDigits d)
  have hneg : ¬ (0 : Int) ≤ -(j : Int) := by omega
  unfold decimalText
  simp only [if_neg hneg, neg_neg, Int.toNat_natCast, showNat_eq]
  have hlen : (digitText (natDigits d)).length = (natDigits d).length := by simp [digitText]
  rw [hlen]
  generalize natDigits d = l at *
  split_ifs with h
  · refine ⟨l.take (l.length - j), l.drop (l.length - j), ?_, ?_, ?_, ?_⟩
    · intro h0
      have := congrArg List.length h0
      rw [List.length_take, List.length_nil] at this; omega
    · rw [List.length_drop]; omega
    · simp only [decText, digitText, List.map_take, List.map_drop]
    · have e : l = l.take (l.length - j) ++ l.drop (l.length - j) := (List.take_append_drop _ _).symm
      have hdl : (l.drop (l.length - j)).length = j := by rw [List.length_drop]; omega
      have h1 := digitsNum_lt (l.drop (l.length - j))
      rw [hdl] at h1
      have h2 : d = digitsNum (l.take (l.length - j)) * 10 ^ j + digitsNum (l.drop (l.length - j)) := by
        rw [← hd]; conv_lhs => rw [e]
        rw [digitsNum_append, hdl]
      generalize digitsNum (l.take (l.length - j)) = a at *
      generalize digitsNum (l.drop (l.length - j)) = b at *
      subst h2
      have hp : 0 < 10 ^ j := by positivity
      constructor
      · rw [Nat.mul_comm, Nat.mul_add_div hp, Nat.div_eq_of_lt h1, Nat.add_zero]
      · rw [Nat.mul_comm, Nat.mul_add_mod, Nat.mod_eq_of_lt h1]
  · refine ⟨[0], List.replicate (j - l.length) 0 ++ l, by simp, ?_, ?_, ?_⟩
    · rw [List.length_append, List.length_replicate]; omega
    · rw [decText, digitText_append, digitText_replicate]; rfl
    · have h3 : d < 10 ^ j := by
        rw [← hd]
        exact lt_of_lt_of_le hl (Nat.pow_le_pow_right (by omega) (by omega))
      rw [digitsNum_append, digitsNum_zeros, hd, Nat.div_eq_of_lt h3, Nat.mod_eq_of_lt h3]
      simp [digitsNum]

theorem no_trailing (fp : List (Fin 10)) (h : ¬ 10 ∣ digitsNum fp) : dropTrailingZeros fp = fp := by
  obtain ⟨k, hk, -⟩ := dropTrailing_spec fp
  rcases Nat.eq_zero_or_pos k with rfl | hpos
  · simpa using hk.symm
  · exfalso
    apply h
    rw [hk, digitsNum_append, digitsNum_zeros, List.length_replicate, Nat.add_zero]
    exact Dvd.dvd.mul_left (dvd_pow_self 10 (by omega)) _

theorem ofNat_dec (d k : Nat) : Flt.ofNat b64 (d * 10 ^ k) = Flt.ofDec b64 false d (k : Int) := by
  simp only [Flt.ofNat, Flt.ofDec, Int.natCast_nonneg, if_true, Int.toNat_natCast]

theorem ofRat_dec (d j : Nat) (hj : 0 < j) : Flt.ofRat b64 false d (10 ^ j) = Flt.ofDec b64 false d (-(j : Int)) := by
  have hneg : ¬ (0 : Int) ≤ -(j : Int) := by omega
  simp only [Flt.ofDec, if_neg hneg, neg_neg, Int.toNat_natCast]

/-- The operands of an integral decimal. -/
theorem convert_int (d k : Nat) : tryFromStr (decimalText d (k : Int)) =
    .ok ⟨Flt.ofDec b64 false d k, (Flt.ofDec b64 false d k).toU64 b64, 0, 0, 0, 0⟩ := by
  rw [decimalText_int, tryFromStr_int _ (by simp [natDigits_ne]), natDigits_int, ofNat_dec]

/-- The operands of a decimal with a fraction. -/
theorem convert_frac (d j : Nat) (hj : 0 < j) (hd : d < 2 ^ 64) (h10 : ¬ 10 ∣ d) : tryFromStr (decimalText d (-(j : Int))) =
    .ok ⟨Flt.ofDec b64 false d (-(j : Int)), d / 10 ^ j, j, j, d % 10 ^ j, d % 10 ^ j⟩ := by
  obtain ⟨ip, fp, h1, h2, h3, h4, h5⟩ := decimalText_frac d j hj
  have hf : fp ≠ [] := by rintro rfl; simp at h2; omega
  have hdt : dropTrailingZeros fp = fp := by
    apply no_trailing
    rw [h5]
    intro h
    apply h10
    exact (Nat.dvd_mod_iff (dvd_pow_self 10 (by omega))).1 h
  rw [h3, tryFromStr_dec ip fp h1, if_pos ⟨by rw [h4]; exact lt_of_le_of_lt (Nat.div_le_self _ _) hd, hf,
    by rw [h5]; exact lt_of_le_of_lt (Nat.mod_le _ _) hd⟩]
  have hall : allDigits (decOf ip fp) = d := by
    simp only [allDigits, decOf, Dec.i, Dec.v, Dec.f, h2, h4, h5]
    exact Nat.div_add_mod' d (10 ^ j)
  rw [← ofRat_dec d j hj]
  simp only [decOperands, hdt, h2, h4, h5, hall]

end Verif.FloatText
