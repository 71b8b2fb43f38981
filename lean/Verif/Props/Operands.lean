import Verif.Lemmas.Strings
import Verif.Lemmas.Ieee
import Verif.Props.Select
import Mathlib.Tactic.IntervalCases

/-!
# C08–C19: operands of integers and strings
-/

namespace Verif.Props
open Verif Api Spec Uts35 PluralOperands Strings Sem

-- Unfolding these in unification would evaluate powers of two with very large exponents.
attribute [local irreducible] Flt.ofRat Flt.roundMag

/-! ## Comparison of floats with integers -/

theorem ofNat_fin (k : Nat) (hk : k < 2 ^ 53) : Flt.ofNat b64 k = .fin false (k * 2 ^ b64.scale) := by
  unfold Flt.ofNat
  rw [ofRat_fin k 1 53 (by omega) (by omega) (by omega)]
  have := Flt.roundMag_int b64 (by decide) k 1 hk (by omega)
  rw [Nat.mul_one] at this
  rw [this]

theorem eq_fin (a b : Nat) : Flt.eq (.fin false a) (.fin false b) = true ↔ a = b := by
  simp [Flt.eq]

theorem toU64_fin (m : Nat) : (Flt.fin false m).toU64 b64 = min (m / 2 ^ b64.scale) (2 ^ 64 - 1) := rfl

/-- A rounded number equals an integer constant exactly when the number does. -/
theorem eq_const (p q k : Nat) (hq : 0 < q) (hq' : q < 2 * 2 ^ b64.scale) (hp : p < 2 ^ 53) :
    Flt.eq (Flt.ofRat b64 false p q) (Flt.ofNat b64 k) = true ↔ p = k * q := by
  rw [ofRat_fin p q 53 hq (by omega) (lt_of_lt_of_le hp (Nat.le_mul_of_pos_right _ hq))]
  obtain ⟨h1, h2⟩ := Flt.roundMag_cmp b64 (by decide) p q k hp hq' hq
  rcases Nat.lt_or_ge k (2 ^ 53) with hk | hk
  · rw [ofNat_fin k hk, eq_fin]
    exact h2
  · have h3 : p < 2 ^ 53 * q := lt_of_lt_of_le hp (Nat.le_mul_of_pos_right _ hq)
    have h4 := (Flt.roundMag_cmp b64 (by decide) p q (2 ^ 53) hp hq' hq).1.2 h3
    have h5 := Flt.roundMag_large b64 (by decide) k 1 53 (by omega) (by omega)
    constructor
    · intro h
      exfalso
      unfold Flt.ofNat Flt.ofRat at h
      simp only at h
      split_ifs at h
      · simp [Flt.eq] at h
      · rw [eq_fin] at h
        omega
    · intro h
      have : k * 1 ≤ k * q := Nat.mul_le_mul_left _ hq
      omega

theorem sign_cases (sign : Str) (hs : sign = [] ∨ sign = ['-']) (ip : List (Fin 10)) (h : ip ≠ []) (r : Str) :
    tryFromStr (sign ++ (digitText ip ++ r)) = tryFromStr (digitText ip ++ r) := by
  rcases hs with rfl | rfl
  · rfl
  · exact tryFromStr_minus _ (digits_no_minus ip h r)

/-! ## C08 -/

/-- C08: the operands of an unsigned integer of any width (all fit in 64 bits). -/
theorem C08_unsigned (x : Nat) (hx : x < 2 ^ 64) :
    (fromUnsigned x).i = x ∧ (fromUnsigned x).v = 0 ∧ (fromUnsigned x).w = 0 ∧ (fromUnsigned x).f = 0 ∧
    (fromUnsigned x).t = 0 ∧ NearestTo (fromUnsigned x).n (x : ℚ) ∧
    ∀ k, k < 2 ^ 53 → (Flt.eq (fromUnsigned x).n (Flt.ofNat b64 k) = true ↔ x = k) := by
  refine ⟨rfl, rfl, rfl, rfl, rfl, ?_, fun k hk => ?_⟩
  · have := ofRat_nearest x 1 64 (by omega) (by omega) (by omega)
    show NearestTo (Flt.ofNat b64 x) _
    rw [Flt.ofNat]
    simpa using this
  · have h1 : fromUnsigned x = ⟨Flt.ofNat b64 x, x, 0, 0, 0, 0⟩ := rfl
    rw [h1]
    rcases Nat.lt_or_ge x (2 ^ 53) with h | h
    · have := eq_const x 1 k (by omega) (by decide +kernel) h
      simpa [Flt.ofNat] using this
    · have h2 : Flt.ofNat b64 x = .fin false (Flt.roundMag b64 x 1) := ofRat_fin x 1 64 (by omega) (by omega) (by omega)
      have h5 := Flt.roundMag_large b64 (by decide) x 1 53 (by omega) (by omega)
      rw [ofNat_fin k hk]
      show Flt.eq (Flt.ofNat b64 x) _ = true ↔ _
      rw [h2, eq_fin]
      have h6 : k * 2 ^ b64.scale < 2 ^ 53 * 2 ^ b64.scale := Nat.mul_lt_mul_of_pos_right hk (Nat.two_pow_pos _)
      generalize 2 ^ b64.scale = S at h5 h6 ⊢
      generalize Flt.roundMag b64 x 1 = m at h5 ⊢
      constructor <;> intro h7 <;> omega

/-- C08: these are the UTS #35 operands of the integer. -/
theorem C08_operands (x : Nat) : OperandsOf (fromUnsigned x) ⟨x, []⟩ := by
  refine ⟨rfl, rfl, rfl, rfl, rfl, (ieee_value_iff _ _).2 ?_⟩
  have : allDigits ⟨x, []⟩ = x := by simp [allDigits, Dec.i, Dec.v, Dec.f, digitsNum]
  rw [this]
  show Flt.ofNat b64 x = Flt.ofRat b64 false x (10 ^ 0)
  rw [pow_zero, Flt.ofNat]

/-- The largest `u64`: `n` is 2^64, which is not the number but equal to no other constant below 2^53. -/
example : (fromUnsigned (2 ^ 64 - 1)).i = 2 ^ 64 - 1 ∧ (fromUnsigned (2 ^ 64 - 1)).n = Flt.ofNat b64 (2 ^ 64) := by
  decide +kernel
example : Flt.eq (fromUnsigned 5).n (Flt.ofNat b64 5) = true := (C08_unsigned 5 (by omega)).2.2.2.2.2.2 5 (by omega) |>.2 rfl

/-! ## C09, C10 -/

theorem pow_pred {bits : Nat} (hb : 0 < bits) : 2 ^ bits = 2 * 2 ^ (bits - 1) := by
  obtain ⟨b, rfl⟩ : ∃ b, bits = b + 1 := ⟨bits - 1, by omega⟩
  rw [Nat.add_sub_cancel, Nat.pow_succ']

/-- C10: on a target with `bits`-bit pointers, the operands of the signed integer `x` are those of the absolute value of
the number `y` that `x` becomes in `bits`-bit two's complement. -/
theorem C10_signed (bits : Nat) (hb : 0 < bits) (x y : Int) (h1 : -(2 : Int) ^ (bits - 1) ≤ y) (h2 : y < (2 : Int) ^ (bits - 1))
    (h3 : ((2 : Int) ^ bits) ∣ x - y) :
    tryFromSigned bits x = if y = -(2 : Int) ^ (bits - 1) then .error .tooBig else .ok (fromUnsigned y.natAbs) := by
  have hp : (2 : Int) ^ bits = 2 * (2 : Int) ^ (bits - 1) := by exact_mod_cast pow_pred hb
  have hy : asIsize bits x = y := by
    unfold asIsize
    have e : Int.bmod x (2 ^ bits) = Int.bmod y (2 ^ bits) := by
      obtain ⟨k, hk⟩ := h3
      have : x = y + ((2 ^ bits : Nat) : Int) * k := by push_cast; omega
      rw [this]
      exact Int.add_mul_bmod_self_left ..
    rw [e]
    rw [Int.bmod_eq_iff (Nat.two_pow_pos _)]
    push_cast
    refine ⟨by omega, by omega, ?_⟩
    simp
  unfold tryFromSigned
  simp only [hy]
  rfl

/-- C10: right when the integer fits in `bits` bits and is not the minimum. -/
theorem C10_fits (bits : Nat) (hb : 0 < bits) (x : Int) (h1 : -(2 : Int) ^ (bits - 1) < x) (h2 : x < (2 : Int) ^ (bits - 1)) :
    tryFromSigned bits x = .ok (fromUnsigned x.natAbs) := by
  rw [C10_signed bits hb x x (by omega) h2 (by simp), if_neg (by omega)]

example : tryFromSigned 8 (-127) = .ok (fromUnsigned 127) := C10_fits 8 (by omega) (-127) (by decide) (by decide)

/-- C10: an integer that does not fit gives an error or the operands of another number. -/
theorem C10_wrong (bits : Nat) (hb : 0 < bits) (x : Int) (h : x < -(2 : Int) ^ (bits - 1) ∨ (2 : Int) ^ (bits - 1) ≤ x)
    (po : PluralOperands) (hpo : tryFromSigned bits x = .ok po) : po.i ≠ x.natAbs := by
  have hp : (2 : Int) ^ bits = 2 * (2 : Int) ^ (bits - 1) := by exact_mod_cast pow_pred hb
  have hpos : (0 : Int) < 2 ^ (bits - 1) := by positivity
  have hlo := Int.le_bmod (x := x) (m := 2 ^ bits) (Nat.two_pow_pos _)
  have hhi := Int.bmod_lt (x := x) (m := 2 ^ bits) (Nat.two_pow_pos _)
  push_cast at hlo hhi
  have h1 : -(2 : Int) ^ (bits - 1) ≤ Int.bmod x (2 ^ bits) := by omega
  have h2 : Int.bmod x (2 ^ bits) < (2 : Int) ^ (bits - 1) := by omega
  rw [C10_signed bits hb x (Int.bmod x (2 ^ bits)) h1 h2 (by
    have := Int.dvd_self_sub_bmod (x := x) (m := 2 ^ bits)
    push_cast at this
    exact this)] at hpo
  split_ifs at hpo with h3
  simp only [Except.ok.injEq] at hpo
  subst hpo
  show (Int.bmod x (2 ^ bits)).natAbs ≠ x.natAbs
  omega

example : (fromUnsigned 1).i ≠ (2 ^ 32 + 1 : Int).natAbs :=
  C10_wrong 32 (by omega) (2 ^ 32 + 1) (.inr (by decide)) _ (by rw [C10_signed 32 (by omega) _ 1 (by omega) (by omega) (by decide)]; rfl)

/-- C10: the minimum is an error on its own target. -/
theorem C10_minimum (bits : Nat) (hb : 0 < bits) : tryFromSigned bits (-(2 : Int) ^ (bits - 1)) = .error .tooBig := by
  have : (0 : Int) < 2 ^ (bits - 1) := by positivity
  rw [C10_signed bits hb _ (-(2 : Int) ^ (bits - 1)) (by omega) (by omega) (by simp), if_pos rfl]

example : tryFromSigned 64 (-9223372036854775808) = .error .tooBig := C10_minimum 64 (by omega)

/-- C09: 64-bit targets; every signed type fits. -/
theorem C09_signed (x : Int) (h1 : -(2 : Int) ^ 63 ≤ x) (h2 : x < (2 : Int) ^ 63) :
    (x ≠ -(2 : Int) ^ 63 → tryFromSigned 64 x = .ok (fromUnsigned x.natAbs)) ∧
    (x = -(2 : Int) ^ 63 → tryFromSigned 64 x = .error .tooBig) := by
  refine ⟨fun h => C10_fits 64 (by omega) x (by omega) h2, fun h => ?_⟩
  rw [h]
  exact C10_minimum 64 (by omega)

example : tryFromSigned 64 (-5) = .ok (fromUnsigned 5) := (C09_signed (-5) (by omega) (by omega)).1 (by omega)
/-- On a 32-bit target the `i64` 2^32 + 1 has the operands of 1, and 2^31 is an error. -/
example : tryFromSigned 32 (2 ^ 32 + 1) = .ok (fromUnsigned 1) := by
  rw [C10_signed 32 (by omega) (2 ^ 32 + 1) 1 (by omega) (by omega) (by decide)]; rfl
example : tryFromSigned 32 (2 ^ 31) = .error .tooBig := by
  rw [C10_signed 32 (by omega) (2 ^ 31) (-2 ^ 31) (by omega) (by omega) (by decide)]; rfl

/-! ## C11 -/

/-- C11: the operands of a decimal string with a fraction. -/
theorem C11_decimal (sign : Str) (hs : sign = [] ∨ sign = ['-']) (ip fp : List (Fin 10)) (hi : ip ≠ []) (hf : fp ≠ [])
    (h1 : digitsNum ip < 2 ^ 64) (h2 : digitsNum fp < 2 ^ 64) :
    ∃ po, tryFromStr (sign ++ decText ip fp) = .ok po ∧ OperandsOf po (decOf ip fp) ∧ NearestTo po.n (decOf ip fp).value := by
  refine ⟨decOperands ip fp, ?_, ⟨rfl, rfl, rfl, rfl, rfl, ieee_value _⟩, ?_⟩
  · rw [decText, sign_cases sign hs ip hi, ← decText, tryFromStr_dec ip fp hi, if_pos ⟨h1, hf, h2⟩]
  · have h3 : (decOf ip fp).value = ((allDigits (decOf ip fp) : Nat) : ℚ) / ((10 ^ fp.length : Nat) : ℚ) := by
      rw [Dec.value_eq_sig, sig_allDigits]; push_cast; rfl
    rw [h3]
    refine ofRat_nearest _ _ 64 (by positivity) (by omega) ?_
    have h4 : allDigits (decOf ip fp) = digitsNum ip * 10 ^ fp.length + digitsNum fp := rfl
    have h5 := digitsNum_lt fp
    rw [h4]
    calc _ < digitsNum ip * 10 ^ fp.length + 10 ^ fp.length := by omega
      _ = (digitsNum ip + 1) * 10 ^ fp.length := by ring
      _ ≤ _ := Nat.mul_le_mul_right _ h1

/-- "-1.50": i = 1, v = 2, w = 1, f = 50, t = 5, and n is 1.5. -/
example : (tryFromStr c!"-1.50").toOption = some ⟨Flt.ofRat b64 false 3 2, 1, 2, 1, 50, 5⟩ := by decide +kernel
example : c!"-1.50" = ['-'] ++ decText [1] [5, 0] := rfl

/-! ## C12 -/

/-- The operands of an integer string whose value is a float. -/
theorem roundMag_of_representable (x c e : Nat) (hc : c < 2 ^ 53) (hx : x = c * 2 ^ e) :
    Flt.roundMag b64 x 1 = x * 2 ^ b64.scale := by
  have h := Flt.roundMag_nearest b64 (by decide) x 1 (by omega) c (e + b64.scale) hc
  have h0 : c * 2 ^ (e + b64.scale) * 1 = x * 2 ^ b64.scale := by rw [hx, Nat.mul_one, Nat.pow_add, Nat.mul_assoc]
  rw [h0, Int.sub_self, abs_zero] at h
  have h1 := abs_eq_zero.1 (le_antisymm h (abs_nonneg _))
  rw [Int.sub_eq_zero] at h1
  have h2 := Int.ofNat_inj.1 h1
  rw [Nat.mul_one] at h2
  exact h2

/-- C12: up to 2^53 a string of digits has the operands of the integer. -/
theorem C12_integer (sign : Str) (hs : sign = [] ∨ sign = ['-']) (ip : List (Fin 10)) (hi : ip ≠ [])
    (h : digitsNum ip ≤ 2 ^ 53) : tryFromStr (sign ++ digitText ip) = .ok (fromUnsigned (digitsNum ip)) := by
  have h0 := sign_cases sign hs ip hi []
  simp only [List.append_nil] at h0
  rw [h0, tryFromStr_int ip hi]
  generalize digitsNum ip = x at h
  have h1 : Flt.roundMag b64 x 1 = x * 2 ^ b64.scale := by
    rcases Nat.lt_or_ge x (2 ^ 53) with h | h
    · exact roundMag_of_representable x x 0 h (by simp)
    · exact roundMag_of_representable x 1 53 (by omega) (by omega)
  have h2 : Flt.ofNat b64 x = .fin false (x * 2 ^ b64.scale) := by
    unfold Flt.ofNat
    rw [ofRat_fin x 1 54 (by omega) (by omega) (by omega), h1]
  have h3 : (Flt.ofNat b64 x).toU64 b64 = x := by
    rw [h2]
    rw [toU64_fin, Nat.mul_div_cancel _ (Nat.two_pow_pos _)]
    omega
  rw [h3]
  rfl

/-- C12: in general `i` is the number written exactly when that is a float: a number of 53 bits times a power of two.
(The last `u64` is right by accident, because 2^64 is not a `u64`.) -/
theorem C12_i_iff (sign : Str) (hs : sign = [] ∨ sign = ['-']) (ip : List (Fin 10)) (hi : ip ≠ [])
    (h : digitsNum ip < 2 ^ 64 - 1) : ∃ po, tryFromStr (sign ++ digitText ip) = .ok po ∧
      (po.i = digitsNum ip ↔ ∃ c e, c < 2 ^ 53 ∧ digitsNum ip = c * 2 ^ e) := by
  have h0 := sign_cases sign hs ip hi []
  simp only [List.append_nil] at h0
  refine ⟨_, by rw [h0]; exact tryFromStr_int ip hi, ?_⟩
  generalize digitsNum ip = x at h
  show (Flt.ofNat b64 x).toU64 b64 = x ↔ _
  have h2 : Flt.ofNat b64 x = .fin false (Flt.roundMag b64 x 1) := ofRat_fin x 1 64 (by omega) (by omega) (by omega)
  have h3 : (Flt.ofNat b64 x).toU64 b64 = min (Flt.roundMag b64 x 1 / 2 ^ b64.scale) (2 ^ 64 - 1) := by
    rw [h2, toU64_fin]
  rw [h3]
  constructor
  · intro h4
    rcases Nat.lt_or_ge x (2 ^ 53) with hx | hx
    · exact ⟨x, 0, hx, by simp⟩
    · obtain ⟨c, e, hc, he⟩ := Flt.roundMag_representable b64 (by decide) x 1 (by omega)
      have h5 := Flt.roundMag_large b64 (by decide) x 1 53 (by omega) (by omega)
      rw [he] at h4 h5
      have h6 : b64.scale ≤ e := by
        by_contra hlt
        have h7 : 2 ^ e ≤ 2 ^ b64.scale := Nat.pow_le_pow_right (by omega) (by omega)
        have h8 : c * 2 ^ e < 2 ^ 53 * 2 ^ e := Nat.mul_lt_mul_of_pos_right hc (Nat.two_pow_pos _)
        have h9 : 2 ^ 53 * 2 ^ e ≤ 2 ^ 53 * 2 ^ b64.scale := Nat.mul_le_mul_left _ h7
        exact absurd (le_trans h5 (le_of_lt (lt_of_lt_of_le h8 h9))) (by
          intro _; exact absurd (lt_of_le_of_lt h5 h8) (not_lt.2 h9))
      obtain ⟨j, rfl⟩ := Nat.exists_eq_add_of_le h6
      refine ⟨c, j, hc, ?_⟩
      have h7 : c * 2 ^ (b64.scale + j) / 2 ^ b64.scale = c * 2 ^ j := by
        rw [Nat.pow_add, Nat.mul_left_comm, Nat.mul_div_cancel_left _ (Nat.two_pow_pos _)]
      rw [h7] at h4
      generalize c * 2 ^ j = y at h4
      omega
  · rintro ⟨c, e, hc, hx⟩
    rw [roundMag_of_representable x c e hc hx, Nat.mul_div_cancel _ (Nat.two_pow_pos _)]
    omega

/-- 2^53 + 2 is the double of a number below 2^53. -/
example : ∃ po, tryFromStr c!"-9007199254740994" = .ok po ∧ po.i = 9007199254740994 := by
  obtain ⟨po, h, hi⟩ := C12_i_iff ['-'] (.inr rfl) [9,0,0,7,1,9,9,2,5,4,7,4,0,9,9,4] (by simp) (by decide)
  exact ⟨po, h, hi.2 ⟨4503599627370497, 1, by decide, by decide⟩⟩

/-- C12: an odd integer between 2^53 and the last `u64` gets another `i`. -/
theorem C12_odd_wrong (sign : Str) (hs : sign = [] ∨ sign = ['-']) (ip : List (Fin 10)) (hi : ip ≠ [])
    (h1 : 2 ^ 53 < digitsNum ip) (h2 : digitsNum ip < 2 ^ 64 - 1) (h3 : digitsNum ip % 2 = 1) :
    ∃ po, tryFromStr (sign ++ digitText ip) = .ok po ∧ po.i ≠ digitsNum ip := by
  obtain ⟨po, hpo, h⟩ := C12_i_iff sign hs ip hi h2
  refine ⟨po, hpo, fun hc => ?_⟩
  obtain ⟨c, e, hc, he⟩ := h.1 hc
  cases e with
  | zero => simp at he; omega
  | succ e => rw [Nat.pow_succ, ← Nat.mul_assoc] at he; omega

example : ∃ po, tryFromStr c!"9007199254740993" = .ok po ∧ po.i ≠ 9007199254740993 :=
  C12_odd_wrong [] (.inl rfl) [9,0,0,7,1,9,9,2,5,4,7,4,0,9,9,3] (by simp) (by decide) (by decide) (by decide)

/-- C12: from 2^64 on `i` is the last `u64`. -/
theorem C12_saturates (sign : Str) (hs : sign = [] ∨ sign = ['-']) (ip : List (Fin 10)) (hi : ip ≠ [])
    (h : 2 ^ 64 ≤ digitsNum ip) : ∃ po, tryFromStr (sign ++ digitText ip) = .ok po ∧ po.i = 2 ^ 64 - 1 := by
  have h0 := sign_cases sign hs ip hi []
  simp only [List.append_nil] at h0
  refine ⟨_, by rw [h0]; exact tryFromStr_int ip hi, ?_⟩
  generalize digitsNum ip = x at h
  show (Flt.ofNat b64 x).toU64 b64 = _
  have h1 := Flt.roundMag_large b64 (by decide) x 1 64 (by omega) (by omega)
  unfold Flt.ofNat Flt.ofRat
  simp only
  split_ifs
  · rfl
  · rw [toU64_fin]
    have hS : 0 < 2 ^ b64.scale := Nat.two_pow_pos _
    generalize 2 ^ b64.scale = S at h1 hS ⊢
    have := (Nat.le_div_iff_mul_le hS).2 h1
    generalize Flt.roundMag b64 x 1 / S = y at this ⊢
    omega

example : (tryFromStr c!"9007199254740993").toOption.map (·.i) = some 9007199254740992 := by decide +kernel
example : c!"9007199254740993" = [] ++ digitText [9,0,0,7,1,9,9,2,5,4,7,4,0,9,9,3] ∧
    digitsNum [9,0,0,7,1,9,9,2,5,4,7,4,0,9,9,3] = 2 ^ 53 + 1 := by constructor <;> rfl
example : tryFromStr c!"0042" = .ok (fromUnsigned 42) := C12_integer [] (.inl rfl) [0, 0, 4, 2] (by simp) (by decide)

/-! ## C13 -/

/-- C13: a leading minus sign does not change the result. -/
theorem C13_minus (s : Str) (h : ∀ t, s ≠ '-' :: t) : tryFromStr ('-' :: s) = tryFromStr s := tryFromStr_minus s h

example : tryFromStr c!"-1e2" = tryFromStr c!"1e2" := C13_minus c!"1e2" (by simp)

/-- C13: nor the selected category, in any locale. -/
theorem C13_select (pr : PluralRules) (s : Str) (h : ∀ t, s ≠ '-' :: t) :
    select pr (tryFromStr ('-' :: s)) = select pr (tryFromStr s) := by rw [C13_minus s h]

example : ∀ t, c!"1.5" ≠ '-' :: t := by simp
/-- The condition is needed. -/
example : (tryFromStr c!"--1").toOption.map (·.i) = some 0 ∧ (tryFromStr c!"-1").toOption.map (·.i) = some 1 := by
  decide +kernel

/-! ## C14 -/

theorem zeros_text (k : Nat) : List.replicate k '0' = digitText (List.replicate k 0) := by
  simp [digitText, show digitChar 0 = '0' from rfl]

theorem digitsNum_leading (k : Nat) (l : List (Fin 10)) : digitsNum (List.replicate k 0 ++ l) = digitsNum l := by
  rw [digitsNum_append, digitsNum_zeros]; simp

/-- C14: zeros in front of a decimal with a fraction. -/
theorem C14_decimal (sign : Str) (hs : sign = [] ∨ sign = ['-']) (k : Nat) (ip fp : List (Fin 10)) (hi : ip ≠ []) :
    tryFromStr (sign ++ (List.replicate k '0' ++ decText ip fp)) = tryFromStr (sign ++ decText ip fp) := by
  have hne : List.replicate k 0 ++ ip ≠ [] := by simp [hi]
  have e : List.replicate k '0' ++ decText ip fp = decText (List.replicate k 0 ++ ip) fp := by
    rw [zeros_text, decText, decText, digitText_append, List.append_assoc]
  rw [e, decText, decText, sign_cases sign hs _ hne, sign_cases sign hs _ hi, ← decText, ← decText, tryFromStr_dec _ _ hne,
    tryFromStr_dec _ _ hi]
  simp only [decOperands, decOf, digitsNum_leading]

/-- C14: zeros in front of an integer. -/
theorem C14_integer (sign : Str) (hs : sign = [] ∨ sign = ['-']) (k : Nat) (ip : List (Fin 10)) (hi : ip ≠ []) :
    tryFromStr (sign ++ (List.replicate k '0' ++ digitText ip)) = tryFromStr (sign ++ digitText ip) := by
  have hne : List.replicate k 0 ++ ip ≠ [] := by simp [hi]
  have e : List.replicate k '0' ++ digitText ip = digitText (List.replicate k 0 ++ ip) := by
    rw [zeros_text, digitText_append]
  have h1 := sign_cases sign hs _ hne []
  have h2 := sign_cases sign hs _ hi []
  simp only [List.append_nil] at h1 h2
  rw [e, h1, h2, tryFromStr_int _ hne, tryFromStr_int _ hi, digitsNum_leading]

example : tryFromStr c!"-0001.50" = tryFromStr c!"-1.50" := C14_decimal ['-'] (.inr rfl) 3 [1] [5, 0] (by simp)

/-! ## C15 -/

/-- C15: zeros after a fraction. -/
theorem C15_trailing_zeros (sign : Str) (hs : sign = [] ∨ sign = ['-']) (k : Nat) (ip fp : List (Fin 10)) (hi : ip ≠ [])
    (po : PluralOperands) (h : tryFromStr (sign ++ decText ip fp) = .ok po) :
    tryFromStr (sign ++ (decText ip fp ++ List.replicate k '0')) =
      if po.f * 10 ^ k < 2 ^ 64 then .ok { po with v := po.v + k, f := po.f * 10 ^ k } else .error .couldNotConvert := by
  have e : decText ip fp ++ List.replicate k '0' = decText ip (fp ++ List.replicate k 0) := by
    rw [zeros_text, decText, decText, digitText_append]; simp
  rw [decText, sign_cases sign hs _ hi, ← decText, tryFromStr_dec _ _ hi] at h
  rw [e, decText, sign_cases sign hs _ hi, ← decText, tryFromStr_dec _ _ hi]
  split_ifs at h with h1
  simp only [Except.ok.injEq] at h
  subst h
  have e1 : digitsNum (fp ++ List.replicate k 0) = digitsNum fp * 10 ^ k := by
    rw [digitsNum_append, digitsNum_zeros]; simp
  have e2 : (decOperands ip fp).f = digitsNum fp := rfl
  have hn : (decOperands ip (fp ++ List.replicate k 0)).n = (decOperands ip fp).n := by
    have e3 : allDigits (decOf ip (fp ++ List.replicate k 0)) = allDigits (decOf ip fp) * 10 ^ k := by
      simp only [allDigits, decOf, Dec.i, Dec.v, Dec.f, e1, List.length_append, List.length_replicate, pow_add]; ring
    simp only [decOperands, e3, List.length_append, List.length_replicate, pow_add]
    unfold Flt.ofRat
    rw [Flt.roundMag_scale _ _ _ _ (by positivity)]
  rw [e1, e2]
  by_cases h2 : digitsNum fp * 10 ^ k < 2 ^ 64
  · rw [if_pos h2, if_pos ⟨h1.1, by simp [h1.2.1], h2⟩]
    congr 1
    have e4 : decOperands ip (fp ++ List.replicate k 0) = ⟨(decOperands ip (fp ++ List.replicate k 0)).n, digitsNum ip,
      (fp ++ List.replicate k 0).length, (dropTrailingZeros (fp ++ List.replicate k 0)).length,
      digitsNum (fp ++ List.replicate k 0), digitsNum (dropTrailingZeros (fp ++ List.replicate k 0))⟩ := by
      simp only [decOperands]
    rw [e4, hn, e1, dropTrailing_append]
    simp [decOperands]
  · rw [if_neg h2, if_neg (fun h => h2 h.2.2)]

/-- From "1.5" to "1.500": v and f change. -/
example : (tryFromStr c!"1.5").toOption = some ⟨Flt.ofRat b64 false 3 2, 1, 1, 1, 5, 5⟩ ∧
    (tryFromStr c!"1.500").toOption = some ⟨Flt.ofRat b64 false 3 2, 1, 3, 1, 500, 5⟩ := by decide +kernel
example : c!"1.500" = decText [1] [5] ++ List.replicate 2 '0' := rfl
/-- Twenty fraction digits can be too many. -/
example : (tryFromStr c!"1.50000000000000000000").toOption = none := by decide +kernel

/-! ## C16 -/

theorem toU64_lt (F : Fmt) (x : Flt) : x.toU64 F < 2 ^ 64 := by
  cases x with
  | nan => simp [Flt.toU64]
  | inf s => cases s <;> simp [Flt.toU64]
  | fin s m => cases s <;> simp only [Flt.toU64, if_true, Bool.false_eq_true, if_false] <;> omega

theorem consistent_dec (ip fp : List (Fin 10)) (h1 : digitsNum ip < 2 ^ 64) (h2 : digitsNum fp < 2 ^ 64) :
    Consistent (decOperands ip fp) := by
  obtain ⟨k, hk, hlast⟩ := dropTrailing_spec fp
  have e1 : digitsNum fp = digitsNum (dropTrailingZeros fp) * 10 ^ k := by
    conv_lhs => rw [hk]
    rw [digitsNum_append, digitsNum_zeros]; simp
  have e2 : fp.length = (dropTrailingZeros fp).length + k := by
    conv_lhs => rw [hk]
    simp
  have e3 : digitsNum (dropTrailingZeros fp) ≤ digitsNum fp := by
    rw [e1]; exact Nat.le_mul_of_pos_right _ (by positivity)
  have e4 : ∀ l : List (Fin 10), l ≠ [] → (∀ x, l.getLast? = some x → x ≠ 0) → digitsNum l % 10 ≠ 0 := by
    intro l hl hx
    obtain ⟨x, hx'⟩ : ∃ x, l.getLast? = some x := ⟨l.getLast hl, List.getLast?_eq_some_getLast hl⟩
    have h0 := hx x hx'
    have hl' : l = l.dropLast ++ [x] := by
      rw [List.getLast?_eq_some_getLast hl] at hx'
      have := List.dropLast_append_getLast hl
      simp only [Option.some.injEq] at hx'
      rw [hx'] at this
      exact this.symm
    rw [hl', digitsNum_append]
    simp only [digitsNum, List.length_nil, List.length_cons]
    have : x.val ≠ 0 := fun h => h0 (Fin.ext h)
    omega
  refine ⟨?_, ?_, digitsNum_lt fp, digitsNum_lt _, ?_, ?_, h1, h2, lt_of_le_of_lt e3 h2⟩
  · show (dropTrailingZeros fp).length ≤ fp.length
    omega
  · show digitsNum fp = digitsNum (dropTrailingZeros fp) * 10 ^ (fp.length - (dropTrailingZeros fp).length)
    rw [e2, Nat.add_sub_cancel_left]; exact e1
  · show digitsNum (dropTrailingZeros fp) = 0 ↔ (dropTrailingZeros fp).length = 0
    constructor
    · intro h
      by_contra hne
      have := e4 _ (fun h => hne (by simp [h])) hlast
      omega
    · intro h
      rw [List.length_eq_zero_iff.1 h]; rfl
  · intro h
    refine e4 _ (fun h' => h ?_) hlast
    show digitsNum (dropTrailingZeros fp) = 0
    rw [h']; rfl

/-- C16: the operands of every accepted string are consistent. -/
theorem C16_consistent (s : Str) (po : PluralOperands) (h : tryFromStr s = .ok po) : Consistent po := by
  rcases tryFromStr_ok s po h with ⟨-, x, -, rfl⟩ | ⟨ip, fp, -, -, h1, h2, -, rfl⟩
  · refine ⟨le_refl _, by simp, by simp, by simp, by simp, by simp, toU64_lt _ x, by simp, by simp⟩
  · exact consistent_dec ip fp h1 h2

example : ∃ po, tryFromStr c!"1.500" = .ok po ∧ po.f = 500 ∧ po.t = 5 ∧ Consistent po := by
  have h := tryFromStr_dec [1] [5, 0, 0] (by simp)
  rw [if_pos (by decide)] at h
  exact ⟨_, h, by decide, by decide, C16_consistent _ _ h⟩

/-! ## C17 -/

/-- C17: exactly which strings are accepted. -/
theorem C17_accepted_iff (s : Str) : (∃ po, tryFromStr s = .ok po) ↔
    ∃ r, (s = '-' :: r ∨ s = r ∧ ∀ t, r ≠ '-' :: t) ∧ (PointFree r ∨ WithPoint r) := by
  have habs : ∀ r, (s = '-' :: r ∨ s = r ∧ ∀ t, r ≠ '-' :: t) ↔ absStr s = r := by
    intro r
    cases s with
    | nil =>
      simp only [absStr]
      constructor
      · rintro (h | ⟨h, -⟩)
        · cases h
        · exact h
      · rintro rfl; exact .inr ⟨rfl, by simp⟩
    | cons c t =>
      simp only [absStr]
      by_cases hc : c = '-'
      · subst hc
        simp only [if_true, List.cons.injEq, true_and]
        constructor
        · rintro (h | ⟨rfl, h⟩)
          · exact h
          · exact absurd rfl (h t)
        · exact .inl
      · simp only [List.cons.injEq, hc, false_and, false_or]
        constructor
        · exact fun h => h.1
        · rintro rfl; exact ⟨rfl, by simp [hc]⟩
  constructor
  · rintro ⟨po, h⟩
    refine ⟨absStr s, (habs _).2 rfl, ?_⟩
    rcases tryFromStr_ok s po h with ⟨hp, x, hx, -⟩ | ⟨ip, fp, hi, hf, h1, h2, h3, -⟩
    · exact .inl ((fromStr_pointFree _ hp).1 ⟨x, hx⟩)
    · right
      rcases h3 with h3 | h3
      · exact ⟨[], ip, fp, .inl rfl, hi, hf, h1, h2, h3⟩
      · exact ⟨['+'], ip, fp, .inr rfl, hi, hf, h1, h2, h3⟩
  · rintro ⟨r, hr, h⟩
    have hr := (habs r).1 hr
    rcases h with h | ⟨sign, ip, fp, hs, hi, hf, h1, h2, h3⟩
    · have hp : '.' ∉ r := by
        obtain ⟨sign, body, hs, rfl, hb⟩ := h
        have := pointFree_nopoint body hb
        rcases hs with rfl | rfl | rfl <;> simp [this]
      obtain ⟨x, hx⟩ := (fromStr_pointFree r hp).2 h
      unfold tryFromStr
      simp only [hr, hx, (splitPoint_none r).2 hp]
      exact ⟨_, rfl⟩
    · have key : ∀ s, absStr s = r → ∃ po, tryFromStr s = .ok po := by
        have : ∃ po, tryFromStr r = .ok po := by
          rcases hs with rfl | rfl
          · exact ⟨_, by rw [h3, List.nil_append, tryFromStr_dec _ _ hi, if_pos ⟨h1, hf, h2⟩]⟩
          · exact ⟨_, by rw [h3]; exact tryFromStr_plus_dec _ _ hi h1 hf h2⟩
        obtain ⟨po, hpo⟩ := this
        have hrr : absStr r = r := by
          rcases hs with rfl | rfl
          · rw [h3]; exact absStr_digits ip hi _
          · rw [h3]; rfl
        intro s hs
        refine ⟨po, ?_⟩
        rw [← hpo]
        unfold tryFromStr
        simp only [hs, hrr]
      exact key s hr

/-- Errors: nothing, no digits on one side, an exponent after a fraction, text. -/
example : (tryFromStr c!"").isOk = false ∧ (tryFromStr c!"1.").isOk = false ∧ (tryFromStr c!".5").isOk = false ∧
    (tryFromStr c!"1.5e3").isOk = false ∧ (tryFromStr c!"foo").isOk = false ∧ (tryFromStr c!"1.+5").isOk = false := by
  decide +kernel
example : (tryFromStr c!"-+1.5").isOk = true ∧ (tryFromStr c!"1e3").isOk = true ∧ (tryFromStr c!"+5").isOk = true := by
  decide +kernel
example : WithPoint c!"+1.5" := ⟨['+'], [1], [5], .inr rfl, by simp, by simp, by decide, by decide, rfl⟩
example : PointFree c!"1e-3" := ⟨[], c!"1e-3", .inl rfl, rfl, .inl ⟨[1], c!"e-3", by simp,
  .inr ⟨'e', ['-'], [3], .inl rfl, .inr (.inr rfl), by simp, rfl⟩, rfl⟩⟩

/-! ## C18 -/

theorem fromStr_word (s : Str) (neg : Bool) (h : Spells s c!"inf" ∨ Spells s c!"infinity" ∨ Spells s c!"nan") :
    Flt.parseUnsignedFloat b64 neg s = some (if Flt.lower s = c!"nan" then .nan else .inf neg) := by
  unfold Flt.parseUnsignedFloat
  rw [words_no_number s h]
  simp only
  by_cases h1 : (Flt.lower s == c!"nan") = true
  · rw [if_pos h1, if_pos (beq_iff_eq.1 h1)]
  · rw [if_neg h1, if_neg (fun h => h1 (beq_iff_eq.2 h)), if_pos]
    rw [Bool.or_eq_true, lower_inf, lower_infinity]
    rcases h with h | h | h
    · exact .inl h
    · exact .inr h
    · exact absurd ((lower_nan s).2 h) h1

theorem fromStr_unsigned (s : Str) (h : UnsignedPointFree s) :
    Flt.fromStr b64 s = Flt.parseUnsignedFloat b64 false s := by
  cases s with
  | nil =>
    rcases h with ⟨ip, x, h1, -, h2⟩ | h
    · cases ip with
      | nil => contradiction
      | cons d ip => simp [digitText_cons] at h2
    · rcases h with h | h | h <;> cases h
  | cons c t =>
    have h1 : c ≠ '-' := by rintro rfl; exact pointFree_nosign _ h '-' (.inl rfl) t rfl
    have h2 : c ≠ '+' := by rintro rfl; exact pointFree_nosign _ h '+' (.inr rfl) t rfl
    simp only [Flt.fromStr, h1, h2, if_false]

theorem tryFromStr_unsigned (s : Str) (h : UnsignedPointFree s) (x : Flt) (hx : Flt.parseUnsignedFloat b64 false s = some x) :
    tryFromStr s = .ok ⟨x, x.toU64 b64, 0, 0, 0, 0⟩ := by
  have hn : absStr s = s := by
    cases s with
    | nil => rfl
    | cons c t =>
      have h1 : c ≠ '-' := by rintro rfl; exact pointFree_nosign _ h '-' (.inl rfl) t rfl
      simp only [absStr, h1, if_false]
  unfold tryFromStr
  simp only [hn, fromStr_unsigned s h, hx, (splitPoint_none s).2 (pointFree_nopoint s h)]

/-- C18: every spelling of infinity is accepted, with the last `u64` as integer part. -/
theorem C18_infinity (s : Str) (h : Spells s c!"inf" ∨ Spells s c!"infinity") :
    tryFromStr s = .ok ⟨.inf false, 2 ^ 64 - 1, 0, 0, 0, 0⟩ := by
  have h' : Spells s c!"inf" ∨ Spells s c!"infinity" ∨ Spells s c!"nan" := by tauto
  have hx := fromStr_word s false h'
  have hn : Flt.lower s ≠ c!"nan" := by
    rcases h with h | h
    · rw [(lower_iff s _ (by decide)).2 h]; decide
    · rw [(lower_iff s _ (by decide)).2 h]; decide
  rw [if_neg hn] at hx
  exact tryFromStr_unsigned s (.inr h') _ hx

example : tryFromStr c!"InFinity" = .ok ⟨.inf false, 2 ^ 64 - 1, 0, 0, 0, 0⟩ :=
  C18_infinity _ (.inr (by repeat first | exact .nil | refine .cons (by decide) ?_))

/-- C18: every spelling of NaN is accepted, with integer part 0. -/
theorem C18_nan (s : Str) (h : Spells s c!"nan") : tryFromStr s = .ok ⟨.nan, 0, 0, 0, 0, 0⟩ := by
  have hx := fromStr_word s false (.inr (.inr h))
  rw [if_pos ((lower_iff s _ (by decide)).2 h)] at hx
  exact tryFromStr_unsigned s (.inr (.inr (.inr h))) _ hx

example : tryFromStr c!"NaN" = .ok ⟨.nan, 0, 0, 0, 0, 0⟩ := C18_nan _ (by repeat first | exact .nil | refine .cons (by decide) ?_)

theorem parseFloat_neg (s : Str) (x : Flt) (h : Flt.parseUnsignedFloat b64 false s = some x) :
    Flt.parseUnsignedFloat b64 true s = some (negated x) ∧ (negated x).toU64 b64 = 0 := by
  have hr : ∀ p q, Flt.ofRat b64 true p q = negated (Flt.ofRat b64 false p q) ∧
      (negated (Flt.ofRat b64 false p q)).toU64 b64 = 0 := by
    intro p q
    unfold Flt.ofRat
    simp only
    split_ifs <;> exact ⟨rfl, rfl⟩
  unfold Flt.parseUnsignedFloat at h ⊢
  cases hn : Flt.parseNumber s with
  | some p =>
    obtain ⟨m, e⟩ := p
    rw [hn] at h
    simp only [Option.some.injEq] at h ⊢
    subst h
    unfold Flt.ofDec
    split_ifs <;> exact hr _ _
  | none =>
    rw [hn] at h
    simp only at h ⊢
    split_ifs at h ⊢ <;> cases h <;> exact ⟨rfl, rfl⟩

/-- C18: with a second minus sign in front of a literal without point, `n` has its sign changed and `i` is 0. -/
theorem C18_two_minus (s : Str) (h : UnsignedPointFree s) : ∃ po, tryFromStr s = .ok po ∧
    tryFromStr ('-' :: '-' :: s) = .ok { n := negated po.n, i := 0, v := 0, w := 0, f := 0, t := 0 } := by
  have hp := pointFree_nopoint s h
  obtain ⟨x, hx⟩ := (parseFloat_pointFree false s hp).2 h
  obtain ⟨h1, h2⟩ := parseFloat_neg s x hx
  refine ⟨_, tryFromStr_unsigned s h x hx, ?_⟩
  have e1 : absStr ('-' :: '-' :: s) = '-' :: s := rfl
  have e2 : Flt.fromStr b64 ('-' :: s) = some (negated x) := h1
  have e3 : splitPoint ('-' :: s) = none := (splitPoint_none _).2 (by simp [hp])
  unfold tryFromStr
  simp only [e1, e2, e3, h2]

example : ∃ po, tryFromStr c!"5e2" = .ok po ∧
    tryFromStr c!"--5e2" = .ok { n := negated po.n, i := 0, v := 0, w := 0, f := 0, t := 0 } :=
  C18_two_minus c!"5e2" (.inl ⟨[5], c!"e2", by simp, .inr ⟨'e', [], [2], .inl rfl, .inl rfl, by simp, rfl⟩, rfl⟩)

/-- C18: a plus sign after the minus sign changes nothing. -/
theorem C18_minus_plus (s : Str) (h : UnsignedPointFree s) : tryFromStr ('-' :: '+' :: s) = tryFromStr s := by
  have hp := pointFree_nopoint s h
  obtain ⟨x, hx⟩ := (parseFloat_pointFree false s hp).2 h
  rw [tryFromStr_unsigned s h x hx]
  have e1 : absStr ('-' :: '+' :: s) = '+' :: s := rfl
  have e2 : Flt.fromStr b64 ('+' :: s) = some x := hx
  have e3 : splitPoint ('+' :: s) = none := (splitPoint_none _).2 (by simp [hp])
  unfold tryFromStr
  simp only [e1, e2, e3]

example : tryFromStr c!"-+5" = tryFromStr c!"5" := C18_minus_plus c!"5" (.inl ⟨[5], [], by simp, .inl rfl, rfl⟩)

/-- C18: with a point, a second minus sign is an error. -/
theorem C18_two_minus_point (ip fp : List (Fin 10)) : ∃ e, tryFromStr ('-' :: '-' :: decText ip fp) = .error e := by
  cases h : tryFromStr ('-' :: '-' :: decText ip fp) with
  | error e => exact ⟨e, rfl⟩
  | ok po =>
    exfalso
    have e1 : absStr ('-' :: '-' :: decText ip fp) = '-' :: decText ip fp := rfl
    rcases tryFromStr_ok _ po h with ⟨hp, -⟩ | ⟨a, b, ha, -, -, -, h3, -⟩
    · rw [e1] at hp; exact hp (by simp [decText])
    · rw [e1] at h3
      rcases h3 with h3 | h3
      · exact digits_no_minus a ha _ _ h3.symm
      · simp at h3

example : Spells c!"iNf" c!"inf" := by repeat first | exact .nil | refine .cons (by decide) ?_
example : (tryFromStr c!"--5").toOption = some ⟨.fin true (5 * 2 ^ 1074), 0, 0, 0, 0, 0⟩ := by decide +kernel
example : UnsignedPointFree c!"5" := .inl ⟨[5], [], by simp, .inl rfl, rfl⟩

/-! ## C19 -/

/-- C19: the test `n == k.0` of the rules, on a decimal string, says whether its value is `k`. -/
theorem C19_equals_constant (sign : Str) (hs : sign = [] ∨ sign = ['-']) (ip fp : List (Fin 10)) (hi : ip ≠ [])
    (s : Str) (hform : s = decText ip fp ∧ fp ≠ [] ∨ s = digitText ip ∧ fp = [])
    (h1 : allDigits (decOf ip fp) < 2 ^ 53) (h2 : fp.length ≤ 300) :
    ∃ po, tryFromStr (sign ++ s) = .ok po ∧
      ∀ k : Nat, Flt.eq po.n (Flt.ofNat b64 k) = true ↔ (decOf ip fp).value = k := by
  have hval : ∀ k : Nat, (decOf ip fp).value = k ↔ allDigits (decOf ip fp) = k * 10 ^ fp.length := by
    intro k
    have hl := (decOf ip fp).le_value k
    have hg := (decOf ip fp).value_le k
    rw [← sig_allDigits] at hl hg
    have hv : (decOf ip fp).v = fp.length := rfl
    rw [hv] at hl hg
    constructor
    · intro h
      have a := hl.1 (le_of_eq h.symm)
      have b := hg.1 (le_of_eq h)
      omega
    · intro h
      exact le_antisymm (hg.2 (le_of_eq h)) (hl.2 (le_of_eq h.symm))
  have h4 : allDigits (decOf ip fp) = digitsNum ip * 10 ^ fp.length + digitsNum fp := rfl
  have h5 : digitsNum ip ≤ digitsNum ip * 10 ^ fp.length := Nat.le_mul_of_pos_right _ (by positivity)
  have h6 : 10 ^ fp.length < 2 * 2 ^ b64.scale := by
    calc 10 ^ fp.length ≤ 10 ^ 300 := Nat.pow_le_pow_right (by omega) h2
      _ < 2 ^ 1000 := by decide +kernel
      _ ≤ 2 * 2 ^ b64.scale := by
        rw [← Nat.pow_succ']; exact Nat.pow_le_pow_right (by omega) (by decide)
  rcases hform with ⟨rfl, hf⟩ | ⟨rfl, rfl⟩
  · refine ⟨decOperands ip fp, ?_, fun k => ?_⟩
    · rw [decText, sign_cases sign hs ip hi, ← decText, tryFromStr_dec ip fp hi, if_pos ⟨by omega, hf, by omega⟩]
    · rw [hval]
      exact eq_const _ _ k (by positivity) h6 h1
  · have h7 : digitsNum [] = 0 := rfl
    simp only [List.length_nil, pow_zero, Nat.mul_one] at h4 h6
    refine ⟨_, C12_integer sign hs ip hi (by omega), fun k => ?_⟩
    rw [hval, h4, h7]
    have := eq_const (digitsNum ip) 1 k (by omega) h6 (by omega)
    simpa [fromUnsigned, Flt.ofNat] using this

/-- With more digits it fails. -/
example : ((tryFromStr c!"1.0000000000000000001").toOption.map fun po => (Flt.eq po.n (Flt.ofNat b64 1), po.t)) =
    some (true, 1) := by decide +kernel
example : ∃ po, tryFromStr (['-'] ++ c!"1.00") = .ok po ∧ Flt.eq po.n (Flt.ofNat b64 1) = true := by
  obtain ⟨po, h1, h2⟩ := C19_equals_constant ['-'] (.inr rfl) [1] [0, 0] (by simp) c!"1.00" (.inl ⟨rfl, by simp⟩) (by decide) (by decide)
  refine ⟨po, h1, (h2 1).2 ?_⟩
  norm_num [Dec.value, decOf, digitsNum]

end Verif.Props
