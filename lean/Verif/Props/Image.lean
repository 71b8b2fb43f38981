import Verif.Props.AnyCast
import Verif.Props.Equality
import Verif.Props.Exponents

/-!
# C121: which operands occur
-/

namespace Verif.Props
open Verif Api Rust Uts35 Spec Sem PluralOperands Verif.Grammar Strings

attribute [local irreducible] Flt.ofRat Flt.roundMag Flt.ofDec Flt.ofNat

/-- `n` cut off to a `u64`: negative numbers and NaN are 0, numbers that are too large `u64::MAX`. -/
def cutOff : Flt → Nat
  | .fin false m => min (m / 2 ^ 1074) (2 ^ 64 - 1)
  | .inf false => 2 ^ 64 - 1
  | _ => 0

/-- Operands without fraction digits: any float is `n`, and `i` is what it is cut off to. -/
def OnlyN (po : PluralOperands) : Prop := IsFloat b64 po.n ∧ po.i = cutOff po.n ∧ po.v = 0 ∧ po.w = 0 ∧ po.f = 0 ∧ po.t = 0

/-- Operands with fraction digits: `i`, `v` and `f` are any numbers that fit, `w` and `t` are without the zeros at the end, and `n` is rounded from the number. -/
def WithFraction (po : PluralOperands) : Prop :=
  0 < po.v ∧ po.i < 2 ^ 64 ∧ po.f < 2 ^ 64 ∧ po.f < 10 ^ po.v ∧
    (po.w ≤ po.v ∧ po.f = po.t * 10 ^ (po.v - po.w) ∧ (po.t = 0 ↔ po.w = 0) ∧ (po.t ≠ 0 → po.t % 10 ≠ 0)) ∧
    Ieee b64 (po.i + po.f / 10 ^ po.v) po.n

theorem ieee_float {y : ℚ} (h0 : 0 ≤ y) {n : Flt} (h : Ieee b64 y n) : IsFloat b64 n ∧ IsFloat b64 (negated n) := by
  have h1 := ieee_cases h0 h
  cases h with
  | overflow h => exact ⟨trivial, trivial⟩
  | finite m _ h2 _ _ =>
    split_ifs at h1 with h3
    have h4 := (Flt.fin.inj h1).2
    have h5 : m < 2 ^ 2098 := by rw [h4]; exact not_le.1 h3
    exact ⟨⟨h2, h5⟩, ⟨h2, h5⟩⟩

theorem exponent_text (e : Int) : ∃ x, ExponentOf x e := by
  rcases le_or_gt 0 e with h | h
  · obtain ⟨k, rfl⟩ := Int.eq_ofNat_of_zero_le h
    have := ExponentOf.plus 'e' [] (natDigits k) (.inl rfl) (.inl rfl) (natDigits_ne k)
    rw [digitsNum_natDigits] at this
    exact ⟨_, this⟩
  · obtain ⟨j, hj⟩ := Int.eq_ofNat_of_zero_le (by omega : 0 ≤ -e)
    have := ExponentOf.minus 'e' (natDigits j) (.inl rfl) (natDigits_ne j)
    rw [digitsNum_natDigits, ← hj, neg_neg] at this
    exact ⟨_, this⟩

/-- The last `v` digits of a number, with zeros in front. -/
def paddedDigits : Nat → Nat → List (Fin 10)
  | 0, _ => []
  | v + 1, f => Fin.ofNat 10 (f / 10 ^ v) :: paddedDigits v (f % 10 ^ v)

theorem paddedDigits_length (v f : Nat) : (paddedDigits v f).length = v := by
  induction v generalizing f with
  | zero => rfl
  | succ v ih => simp [paddedDigits, ih]

theorem paddedDigits_num (v f : Nat) (h : f < 10 ^ v) : digitsNum (paddedDigits v f) = f := by
  induction v generalizing f with
  | zero => simp [paddedDigits, digitsNum]; simp at h; omega
  | succ v ih =>
    have hp : 0 < 10 ^ v := by positivity
    simp only [paddedDigits, digitsNum, paddedDigits_length, ih _ (Nat.mod_lt _ hp)]
    have h1 : f / 10 ^ v < 10 := by rw [Nat.div_lt_iff_lt_mul hp]; rw [pow_succ] at h; omega
    have h2 : (Fin.ofNat 10 (f / 10 ^ v)).val = f / 10 ^ v := Nat.mod_eq_of_lt h1
    rw [h2, Nat.mul_comm]
    exact Nat.div_add_mod f (10 ^ v)

/-- A number has only one way to take off its zeros at the end. -/
theorem zeros_unique (v w t w' t' : Nat) (hw : w ≤ v) (hw' : w' ≤ v) (h : t * 10 ^ (v - w) = t' * 10 ^ (v - w')) (h1 : t = 0 ↔ w = 0) (h2 : t ≠ 0 → t % 10 ≠ 0)
    (h1' : t' = 0 ↔ w' = 0) (h2' : t' ≠ 0 → t' % 10 ≠ 0) : w = w' ∧ t = t' := by
  have key : ∀ a b t t' : Nat, t ≠ 0 → t % 10 ≠ 0 → t * 10 ^ a = t' * 10 ^ b → b ≤ a := by
    intro a b t t' _ ht h
    by_contra hlt
    obtain ⟨k, rfl⟩ : ∃ k, b = a + k + 1 := ⟨b - a - 1, by omega⟩
    have : t * 10 ^ a = (t' * 10 ^ k * 10) * 10 ^ a := by rw [h]; ring
    have := Nat.eq_of_mul_eq_mul_right (by positivity) this
    apply ht
    rw [this]
    exact Nat.mul_mod_left _ _
  by_cases ht : t = 0
  · subst ht
    have h3 : t' = 0 := by
      rw [Nat.zero_mul] at h
      rcases Nat.mul_eq_zero.1 h.symm with h4 | h4
      · exact h4
      · exact absurd h4 (by positivity)
    exact ⟨by rw [h1.1 rfl, h1'.1 h3], h3.symm⟩
  · have ht' : t' ≠ 0 := by
      rintro rfl
      rw [Nat.zero_mul] at h
      rcases Nat.mul_eq_zero.1 h with h4 | h4
      · exact ht h4
      · exact absurd h4 (by positivity)
    have h3 := key _ _ _ _ ht (h2 ht) h
    have h4 := key _ _ _ _ ht' (h2' ht') h.symm
    have h5 : v - w = v - w' := by omega
    refine ⟨by omega, ?_⟩
    rw [h5] at h
    exact Nat.eq_of_mul_eq_mul_right (by positivity) h

theorem value_split (ip fp : List (Fin 10)) : (decOf ip fp).value = (digitsNum ip : ℚ) + (digitsNum fp : ℚ) / 10 ^ fp.length := by
  rw [Dec.value_eq_sig, ← sig_allDigits]
  have : allDigits (decOf ip fp) = digitsNum ip * 10 ^ fp.length + digitsNum fp := rfl
  rw [this]
  have hv : (decOf ip fp).v = fp.length := rfl
  rw [hv]
  push_cast
  field_simp

/-- C121: these are the operands that texts have. -/
theorem C121_texts (po : PluralOperands) : (∃ s, tryFromStr s = .ok po) ↔ OnlyN po ∨ WithFraction po := by
  constructor
  · rintro ⟨s, h⟩
    have hc := C16_consistent s po h
    have body : ∀ {neg s}, BodyOps neg s po → OnlyN po ∨ WithFraction po := by
      intro neg s hb
      cases hb with
      | point ip fp n hi hf h1 h2 hn =>
        right
        refine ⟨List.length_pos_iff.2 hf, hc.i_u64, hc.f_u64, hc.f_lt, ⟨hc.w_le_v, hc.f_eq, hc.t_zero, hc.t_mod⟩, ?_⟩
        rw [value_split] at hn
        exact hn
      | number _ ip x e n hi hx hn =>
        left
        have hF := ieee_float (mul_nonneg (Nat.cast_nonneg _) (zpow_nonneg (by norm_num) _)) hn
        have hpos := Verif.Props.Ieee.nonneg hn
        cases neg with
        | false =>
          refine ⟨hF.1, ?_, rfl, rfl, rfl, rfl⟩
          rcases hpos with rfl | ⟨m, rfl⟩ <;> rfl
        | true =>
          refine ⟨hF.2, ?_, rfl, rfl, rfl, rfl⟩
          rcases hpos with rfl | ⟨m, rfl⟩ <;> rfl
      | infinity _ s hs => left; cases neg <;> exact ⟨trivial, rfl, rfl, rfl, rfl, rfl⟩
      | nan _ s hs => left; exact ⟨trivial, rfl, rfl, rfl, rfl, rfl⟩
    cases (C78_operands s po).1 h with
    | plain _ _ _ _ hb => exact body hb
    | plus _ _ _ _ hb => exact body hb
    | minus _ _ hb => exact body hb
  · rintro (⟨h1, h2, h3, h4, h5, h6⟩ | ⟨hv, hi, hf, hlt, ⟨hw, hft, htw, htm⟩, hn⟩)
    · obtain ⟨n, i, v, w, f, t⟩ := po
      simp only at h1 h2 h3 h4 h5 h6
      subst h2 h3 h4 h5 h6
      cases n with
      | nan => exact ⟨c!"nan", by decide +kernel⟩
      | inf s =>
        cases s with
        | false => exact ⟨c!"inf", by decide +kernel⟩
        | true => exact ⟨c!"--inf", by decide +kernel⟩
      | fin s m =>
        obtain ⟨d, e, -, hr⟩ := display_pos b64 (by decide) (by decide) m h1
        obtain ⟨x, hx⟩ := exponent_text e
        have hI : Ieee b64 (digitsNum (natDigits d) * 10 ^ e) (.fin false m) := by
          have := ieee_ofDec b64 (.inl rfl) d e
          unfold Flt.Reads at hr
          rw [hr] at this
          rw [digitsNum_natDigits]
          exact this
        have hb := fun neg => BodyOps.number neg (natDigits d) x e _ (natDigits_ne d) hx hI
        cases s with
        | false => exact ⟨_, (C78_operands _ _).2 (.plain [] _ _ (.inl rfl) (hb false))⟩
        | true => exact ⟨_, (C78_operands _ _).2 (.minus _ _ (hb true))⟩
    · have hne : paddedDigits po.v po.f ≠ [] := by
        intro h0
        have := paddedDigits_length po.v po.f
        rw [h0] at this
        simp at this
        omega
      have hfp := paddedDigits_num po.v po.f hlt
      have hfl := paddedDigits_length po.v po.f
      refine ⟨decText (natDigits po.i) (paddedDigits po.v po.f), ?_⟩
      have hI : Ieee b64 (decOf (natDigits po.i) (paddedDigits po.v po.f)).value po.n := by
        rw [value_split, digitsNum_natDigits, hfp, hfl]
        exact hn
      have hb := BodyOps.point (natDigits po.i) (paddedDigits po.v po.f) po.n (natDigits_ne _) hne (by rw [digitsNum_natDigits]; exact hi) (by rw [hfp]; exact hf) hI
      have ht := (C78_operands _ _).2 (TextOps.plain [] _ _ (.inl rfl) hb)
      have hc := C16_consistent _ _ ht
      simp only [List.nil_append] at ht
      rw [ht]
      congr 1
      obtain ⟨n, i, v, w, f, t⟩ := po
      simp only at *
      have e1 : (decOf (natDigits i) (paddedDigits v f)).i = i := digitsNum_natDigits i
      have e2 : (decOf (natDigits i) (paddedDigits v f)).v = v := hfl
      have e3 : (decOf (natDigits i) (paddedDigits v f)).f = f := hfp
      have e4 := hc.f_eq
      have e5 := hc.w_le_v
      have e6 := hc.t_zero
      have e7 := hc.t_mod
      simp only [e2, e3] at e4 e5 e6 e7
      obtain ⟨e8, e9⟩ := zeros_unique v _ _ w t e5 hw (e4.symm.trans hft) e6 e7 htw htm
      rw [e1, e2, e3, e8, e9]

/-- C121: the operands of unsigned integers. -/
theorem C121_unsigned (po : PluralOperands) : (∃ x, x < 2 ^ 64 ∧ fromUnsigned x = po) ↔
    po.i < 2 ^ 64 ∧ Ieee b64 po.i po.n ∧ po.v = 0 ∧ po.w = 0 ∧ po.f = 0 ∧ po.t = 0 := by
  constructor
  · rintro ⟨x, hx, rfl⟩
    exact ⟨hx, C77_unsigned x, rfl, rfl, rfl, rfl⟩
  · rintro ⟨h1, h2, h3, h4, h5, h6⟩
    obtain ⟨n, i, v, w, f, t⟩ := po
    simp only at *
    subst h3 h4 h5 h6
    refine ⟨i, h1, ?_⟩
    have := C77_unique b64 (by decide) _ _ _ (C77_unsigned i) h2
    unfold fromUnsigned at this ⊢
    simp only at this ⊢
    rw [this]

/-- C121: a text has the operands of an integer exactly if the integer is an `f64`, or is `u64::MAX`. -/
theorem C121_integers (x : Nat) (hx : x < 2 ^ 64) : (∃ s, tryFromStr s = .ok (fromUnsigned x)) ↔
    (∃ c e, c < 2 ^ 53 ∧ x = c * 2 ^ e) ∨ x = 2 ^ 64 - 1 := by
  have hI := C77_unsigned x
  rw [C121_texts]
  have h1 : OnlyN (fromUnsigned x) ∨ WithFraction (fromUnsigned x) ↔ x = cutOff (fromUnsigned x).n := by
    constructor
    · rintro (h | h)
      · exact h.2.1
      · exact absurd h.1 (lt_irrefl 0)
    · exact fun h => .inl ⟨(ieee_float (Nat.cast_nonneg x) hI).1, h, rfl, rfl, rfl, rfl⟩
  rw [h1]
  generalize hn : (fromUnsigned x).n = n at *
  constructor
  · intro h
    by_cases hmax : x = 2 ^ 64 - 1
    · exact .inr hmax
    left
    cases hI with
    | overflow _ => exact absurd h hmax
    | finite m _ hr _ _ =>
      obtain ⟨c, e, hc, rfl⟩ := hr
      simp only [cutOff] at h
      rcases le_or_gt 1074 e with he | he
      · obtain ⟨k, rfl⟩ := Nat.exists_eq_add_of_le' he
        refine ⟨c, k, hc, ?_⟩
        rw [pow_add, ← Nat.mul_assoc, Nat.mul_div_cancel _ (by positivity)] at h
        omega
      · refine ⟨x, 0, ?_, by simp⟩
        obtain ⟨k, hk⟩ := Nat.exists_eq_add_of_le he.le
        rw [hk, pow_add, Nat.mul_comm c, Nat.mul_div_mul_left _ _ (by positivity)] at h
        have := Nat.div_le_self c (2 ^ k)
        have hc' : c < 2 ^ 53 := hc
        omega
  · rintro (⟨c, e, hc, rfl⟩ | rfl)
    · cases hI with
      | overflow h =>
        exfalso
        have h2 : ((c * 2 ^ e : Nat) : ℚ) < 2 ^ 64 := by exact_mod_cast hx
        have h3 : (2 : ℚ) ^ 64 ≤ 2 ^ b64.maxExp - 2 ^ b64.maxExp / 2 ^ (b64.prec + 1) := by
          have e1 : b64.maxExp = 1024 := rfl
          have e2 : b64.prec = 53 := rfl
          have e3 : (2 : ℚ) ^ 1024 = 2 ^ 959 * 2 * 2 ^ 64 := by rw [← pow_succ, ← pow_add]
          have e4 : (1 : ℚ) ≤ 2 ^ 959 := one_le_pow₀ (by norm_num)
          rw [e1, e2, e3]
          clear e3 h h2 hn h1
          generalize (2 : ℚ) ^ 959 = y at *
          norm_num
          linarith
        linarith
      | finite m _ hr hd _ =>
        have h2 := hd (c * 2 ^ e * 2 ^ 1074) ⟨c, e + 1074, hc, by rw [pow_add, Nat.mul_assoc]⟩
        have h3 : distance b64 (c * 2 ^ e * 2 ^ 1074) ((c * 2 ^ e : Nat) : ℚ) = 0 := by
          have hs : b64.scale = 1074 := rfl
          unfold distance
          rw [hs, Nat.cast_mul (c * 2 ^ e), Nat.cast_pow, Nat.cast_ofNat, mul_div_assoc, div_self (by positivity), mul_one, sub_self, abs_zero]
        rw [h3] at h2
        have h4 : (m : ℚ) / 2 ^ 1074 = ((c * 2 ^ e : Nat) : ℚ) := by
          have := abs_nonpos_iff.1 h2
          have hs : b64.scale = 1074 := rfl
          rw [hs] at this
          linarith
        have h5 : m = c * 2 ^ e * 2 ^ 1074 := by
          rw [div_eq_iff (by positivity)] at h4
          exact_mod_cast h4
        rw [h5]
        simp only [cutOff]
        rw [Nat.mul_div_cancel _ (by positivity)]
        omega
    · rw [← hn]
      decide +kernel

example : (∃ s, tryFromStr s = .ok (fromUnsigned (2 ^ 60 + 256))) ∧ ¬ ∃ s, tryFromStr s = .ok (fromUnsigned (2 ^ 60 + 1)) := by
  constructor
  · exact (C121_integers _ (by norm_num)).2 (.inl ⟨2 ^ 52 + 1, 8, by norm_num, by norm_num⟩)
  · rw [C121_integers _ (by norm_num)]
    rintro (⟨c, e, hc, h⟩ | h)
    · cases e with
      | zero => rw [pow_zero] at h; omega
      | succ e => rw [pow_succ 2 e, ← Nat.mul_assoc] at h; omega
    · omega

/-- C121: with fraction digits `i`, `v` and `f` determine the others; without, `n` does. -/
theorem C121_determined (s s' : Str) (po po' : PluralOperands) (h : tryFromStr s = .ok po) (h' : tryFromStr s' = .ok po') :
    po = po' ↔ if po.v = 0 then po'.v = 0 ∧ po.n = po'.n else po.i = po'.i ∧ po.v = po'.v ∧ po.f = po'.f := by
  constructor
  · rintro rfl
    split_ifs with h0
    · exact ⟨h0, rfl⟩
    · exact ⟨rfl, rfl, rfl⟩
  · intro hs
    have h1 := (C121_texts po).1 ⟨s, h⟩
    have h2 := (C121_texts po').1 ⟨s', h'⟩
    obtain ⟨n, i, v, w, f, t⟩ := po
    obtain ⟨n', i', v', w', f', t'⟩ := po'
    simp only [OnlyN, WithFraction] at *
    split_ifs at hs with h0
    · obtain ⟨hv, rfl⟩ := hs
      rcases h1 with ⟨-, a1, a2, a3, a4, a5⟩ | ⟨hb, -⟩
      · rcases h2 with ⟨-, b1, b2, b3, b4, b5⟩ | ⟨hb, -⟩
        · subst a1 a2 a3 a4 a5 b1 b3 b4 b5 hv
          rfl
        · omega
      · omega
    · obtain ⟨rfl, rfl, rfl⟩ := hs
      rcases h1 with ⟨-, -, hb, -⟩ | ⟨-, -, -, -, ⟨a1, a2, a3, a4⟩, a5⟩
      · exact absurd hb h0
      · rcases h2 with ⟨-, -, hb, -⟩ | ⟨-, -, -, -, ⟨b1, b2, b3, b4⟩, b5⟩
        · exact absurd hb h0
        · obtain ⟨rfl, rfl⟩ := zeros_unique _ _ _ _ _ a1 b1 (a2.symm.trans b2) a3 a4 b3 b4
          rw [C77_unique b64 (by decide) _ _ _ a5 b5]

/-- C121: the texts with the operands of a decimal with a fraction are that decimal, with other zeros in front and a sign that is ignored. -/
theorem C121_same (ip fp : List (Fin 10)) (hi : ip ≠ []) (hf : fp ≠ []) (h1 : digitsNum ip < 2 ^ 64) (h2 : digitsNum fp < 2 ^ 64) (s : Str) :
    tryFromStr s = tryFromStr (decText ip fp) ↔
      ∃ sign ip', sign ∈ [[], ['-'], ['+'], ['-', '+']] ∧ s = sign ++ decText ip' fp ∧ ip' ≠ [] ∧ digitsNum ip' = digitsNum ip := by
  have h0 := (C78_operands _ _).2 (TextOps.plain [] _ _ (.inl rfl) (BodyOps.point ip fp _ hi hf h1 h2 (ieee_dec ip fp)))
  rw [List.nil_append] at h0
  rw [h0]
  have hlen : 0 < fp.length := List.length_pos_iff.2 hf
  constructor
  · intro h
    have body : ∀ {neg r}, BodyOps neg r ⟨(decOperands ip fp).n, (decOf ip fp).i, (decOf ip fp).v, (decOf ip fp).w, (decOf ip fp).f, (decOf ip fp).t⟩ →
        ∃ ip', r = decText ip' fp ∧ ip' ≠ [] ∧ digitsNum ip' = digitsNum ip ∧ neg = false := by
      intro neg r hb
      generalize hpo : (⟨(decOperands ip fp).n, (decOf ip fp).i, (decOf ip fp).v, (decOf ip fp).w, (decOf ip fp).f, (decOf ip fp).t⟩ : PluralOperands) = po at hb
      have hv : po.v = fp.length := by rw [← hpo]; rfl
      have hf' : po.f = digitsNum fp := by rw [← hpo]; rfl
      have hi' : po.i = digitsNum ip := by rw [← hpo]; rfl
      cases hb with
      | point ip' fp' n hi1 hf1 _ _ _ =>
        have : fp' = fp := digits_eq fp' fp hv hf'
        exact ⟨ip', by rw [this], hi1, hi', rfl⟩
      | number _ _ _ _ _ _ _ _ => exact absurd hv.symm (by simp; omega)
      | infinity _ _ _ => exact absurd hv.symm (by simp; omega)
      | nan _ _ _ => exact absurd hv.symm (by simp; omega)
    have ht := (C78_operands s _).1 h
    cases ht with
    | plain minus r _ hm hb =>
      obtain ⟨ip', rfl, h3, h4, -⟩ := body hb
      refine ⟨minus, ip', ?_, rfl, h3, h4⟩
      rcases hm with rfl | rfl <;> simp
    | plus minus r _ hm hb =>
      obtain ⟨ip', rfl, h3, h4, -⟩ := body hb
      refine ⟨minus ++ ['+'], ip', ?_, by simp, h3, h4⟩
      rcases hm with rfl | rfl <;> simp
    | minus r _ hb =>
      obtain ⟨_, _, _, _, h5⟩ := body hb
      cases h5
  · rintro ⟨sign, ip', hs, rfl, h3, h4⟩
    have hval : (decOf ip' fp).value = (decOf ip fp).value := by rw [value_split, value_split, h4]
    have hb := BodyOps.point ip' fp (decOperands ip fp).n h3 hf (by rw [h4]; exact h1) h2 (by rw [hval]; exact ieee_dec ip fp)
    have hi' : (decOf ip' fp).i = (decOf ip fp).i := h4
    rw [hi'] at hb
    refine (C78_operands _ _).2 ?_
    simp only [List.mem_cons, List.not_mem_nil, or_false] at hs
    rcases hs with rfl | rfl | rfl | rfl
    · exact .plain [] _ _ (.inl rfl) hb
    · exact .plain ['-'] _ _ (.inr rfl) hb
    · exact .plus [] _ _ (.inl rfl) hb
    · exact .plus ['-'] _ _ (.inr rfl) hb

/-- A float without its sign. -/
def unsignedFloat : Flt → Flt
  | .nan => .nan
  | .inf _ => .inf false
  | .fin _ m => .fin false m

/-- C121: `n` of an `f64` is the float without its sign. -/
theorem C121_float_n (x : Flt) (h : IsFloat b64 x) (po : PluralOperands) (hpo : tryFromFloat b64 x = .ok po) : po.n = unsignedFloat x := by
  match x, h with
  | .nan, _ => rw [(C20_special false).2] at hpo; cases hpo; rfl
  | .inf neg, _ => rw [(C20_special neg).1] at hpo; cases hpo; rfl
  | .fin neg m, h => exact (C20_finite neg m h po hpo).1

theorem displayMag_minus {neg : Bool} (m : Nat) (h : IsFloat b64 (.fin neg m)) (t : Str) : Flt.displayMag b64 m ≠ '-' :: t := by
  obtain ⟨hr, hlt⟩ := h
  rcases Nat.eq_zero_or_pos m with rfl | h0
  · unfold Flt.displayMag; simp
  · obtain ⟨d, e, h1, -⟩ := Flt.shortest_spec b64 (by decide) (by decide) m hr h0 hlt
    rw [h1]
    exact decimalText_digit d e t

theorem float_sign (x : Flt) (h : IsFloat b64 x) : IsFloat b64 (unsignedFloat x) ∧ tryFromFloat b64 (unsignedFloat x) = tryFromFloat b64 x := by
  match x, h with
  | .nan, h => exact ⟨h, rfl⟩
  | .inf neg, h => exact ⟨trivial, (C20_special false).1.trans (C20_special neg).1.symm⟩
  | .fin neg m, h => exact ⟨h, (display_sign b64 false m (displayMag_minus m h)).trans (display_sign b64 neg m (displayMag_minus m h)).symm⟩

/-- C121: two `f64` have the same operands exactly if they differ at most in the sign. -/
theorem C121_floats (x y : Flt) (hx : IsFloat b64 x) (hy : IsFloat b64 y) :
    tryFromFloat b64 x = tryFromFloat b64 y ↔ y = x ∨ y = negated x := by
  have key : tryFromFloat b64 x = tryFromFloat b64 y ↔ unsignedFloat x = unsignedFloat y := by
    constructor
    · intro h
      obtain ⟨po, hpo⟩ := C20_succeeds x hx
      rw [← C121_float_n x hx po hpo, ← C121_float_n y hy po (h ▸ hpo)]
    · intro h
      rw [← (float_sign x hx).2, ← (float_sign y hy).2, h]
  rw [key]
  cases x with
  | nan => cases y <;> simp [unsignedFloat, negated]
  | inf a => cases y with
    | inf b => cases a <;> cases b <;> simp [unsignedFloat, negated]
    | _ => simp [unsignedFloat, negated]
  | fin a m => cases y with
    | fin b k => cases a <;> cases b <;> simp [unsignedFloat, negated, eq_comm]
    | _ => simp [unsignedFloat, negated]

/-- C121: an `f64` has the operands of a decimal with a fraction exactly if it is shown as that decimal, but for zeros in front and the sign. -/
theorem C121_float_texts (x : Flt) (ip fp : List (Fin 10)) (hi : ip ≠ []) (hf : fp ≠ []) (h1 : digitsNum ip < 2 ^ 64) (h2 : digitsNum fp < 2 ^ 64) :
    tryFromFloat b64 x = tryFromStr (decText ip fp) ↔
      ∃ sign ip', sign ∈ [[], ['-'], ['+'], ['-', '+']] ∧ Flt.display b64 x = sign ++ decText ip' fp ∧ ip' ≠ [] ∧ digitsNum ip' = digitsNum ip :=
  C121_same ip fp hi hf h1 h2 _

/-! ## Examples -/

example : tryFromStr c!"-+007.50" = tryFromStr (decText [7] [5, 0]) :=
  (C121_same [7] [5, 0] (by simp) (by simp) (by decide) (by decide) _).2 ⟨['-', '+'], [0, 0, 7], by simp, by decide, by simp, by decide⟩

/-- `i = 7`, `v = 3`, `f = 50` occur together: 7.050. -/
example : WithFraction ⟨(decOperands [7] [0, 5, 0]).n, 7, 3, 2, 50, 5⟩ :=
  ⟨by decide, by decide, by decide, by decide, ⟨by decide, by decide, by decide, by decide⟩, by
    have := ieee_dec [7] [0, 5, 0]
    rw [value_split] at this
    exact this⟩

/-- The integer 2^53 + 1 has operands that no text has: `n` is 2^53. -/
example : ¬ ∃ s, tryFromStr s = .ok (fromUnsigned (2 ^ 53 + 1)) := by
  rw [C121_texts]
  have hn : (fromUnsigned (2 ^ 53 + 1)).n = .fin false (2 ^ 53 * 2 ^ 1074) := by decide +kernel
  rintro (⟨-, h, -⟩ | ⟨h, -⟩)
  · rw [hn] at h
    exact absurd h (by decide +kernel)
  · exact absurd h (by decide)

/-- The double nearest to 0.1 and the next one. -/
example : tryFromFloat b64 (.fin false (3602879701896397 * 2 ^ 1019)) ≠ tryFromFloat b64 (.fin true (3602879701896398 * 2 ^ 1019)) := by
  rw [Ne, C121_floats (.fin false (3602879701896397 * 2 ^ 1019)) (.fin true (3602879701896398 * 2 ^ 1019))
    ⟨⟨_, _, by decide, rfl⟩, by decide +kernel⟩ ⟨⟨_, _, by decide, rfl⟩, by decide +kernel⟩]
  rintro (h | h)
  · exact absurd (Flt.fin.inj h).1 (by decide)
  · exact absurd (Flt.fin.inj h).2 (by decide +kernel)

/-- 0.1 + 0.2 has not the operands of 0.3. -/
example : tryFromFloat b64 (.fin false (1351079888211149 * 2 ^ 1022)) ≠ tryFromStr (decText [0] [3]) := by
  decide +kernel

end Verif.Props
