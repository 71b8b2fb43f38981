import Verif.Props.AnyRead
import Verif.Props.Matters
import Verif.Props.Probes
import Verif.Props.Rounding

/-!
# C111: where the rounding of `n` matters

The only operand of a text with a point that is not exact is `n` (C101).  Which numbers are read as an integer, and in which locales some
of them get another category for it.
-/

namespace Verif.Props
open Verif Api Rust Uts35 Spec Sem PluralOperands RulesTable CldrData

attribute [local irreducible] Flt.ofRat Flt.roundMag Flt.ofDec

/-- The numbers for which an integer is the nearest `f64`: up to half of the gap to the next one, which is half as wide below a power of
two. -/
def ReadAs (k : Nat) (y : ℚ) : Prop :=
  if k = 0 then y ≤ 1 / 2 ^ 1075
  else (k : ℚ) - (if k = 2 ^ Nat.log2 k then 2 ^ Nat.log2 k / 2 ^ 54 else 2 ^ Nat.log2 k / 2 ^ 53) ≤ y ∧ y ≤ k + 2 ^ Nat.log2 k / 2 ^ 53

/-! ## Proofs -/

/-- No number of 53 bits is closer to the integer than the gap. -/
theorem gap (k e s : Nat) (hk1 : 2 ^ e ≤ k) (he : e ≤ 52) (hs : 53 ≤ s) (m c j : Nat) (hc : c < 2 ^ 53) (hm : m = c * 2 ^ j) :
    (k * 2 ^ s < m → k * 2 ^ s + 2 ^ (e + s - 52) ≤ m) ∧
    (m < k * 2 ^ s → 2 ^ e < k → m + 2 ^ (e + s - 52) ≤ k * 2 ^ s) ∧ (m < k * 2 ^ s → m + 2 ^ (e + s - 53) ≤ k * 2 ^ s) := by
  have hU : 2 ^ (e + s - 52) = 2 * 2 ^ (e + s - 53) := by rw [← pow_succ']; congr 1; omega
  have hE : 2 ^ (e + s) = 2 ^ 53 * 2 ^ (e + s - 53) := by rw [← pow_add]; congr 1; omega
  have hs' : 2 ^ s = 2 ^ (52 - e) * 2 ^ (e + s - 52) := by rw [← pow_add]; congr 1; omega
  have hM : 2 ^ (e + s) ≤ k * 2 ^ s := by rw [pow_add]; exact Nat.mul_le_mul_right _ hk1
  have hM2 : 2 ^ e < k → 2 ^ (e + s) + 2 ^ (e + s - 52) ≤ k * 2 ^ s := by
    intro h
    have h1 := Nat.mul_le_mul_right (2 ^ s) h
    rw [Nat.succ_mul, ← pow_add] at h1
    have h2 : 2 ^ (e + s - 52) ≤ 2 ^ s := Nat.pow_le_pow_right (by decide) (by omega)
    omega
  by_cases hj : e + s - 52 ≤ j
  · have hd : ∃ a, m = a * 2 ^ (e + s - 52) := ⟨c * 2 ^ (j - (e + s - 52)), by rw [hm, Nat.mul_assoc, ← pow_add]; congr 2; omega⟩
    obtain ⟨a, rfl⟩ := hd
    have hM' : k * 2 ^ s = (k * 2 ^ (52 - e)) * 2 ^ (e + s - 52) := by rw [hs', Nat.mul_assoc]
    rw [hM', hU]
    generalize k * 2 ^ (52 - e) = b
    generalize 2 ^ (e + s - 53) = u
    have key : ∀ x y : Nat, x * (2 * u) < y * (2 * u) → x * (2 * u) + 2 * u ≤ y * (2 * u) := by
      intro x y h
      have := Nat.mul_le_mul_right (2 * u) (Nat.lt_of_mul_lt_mul_right h)
      rwa [Nat.succ_mul] at this
    refine ⟨key _ _, fun h _ => key _ _ h, fun h => ?_⟩
    have := key _ _ h
    omega
  · have hj' : j ≤ e + s - 53 := by omega
    have h1 : m ≤ (2 ^ 53 - 1) * 2 ^ (e + s - 53) := by
      rw [hm]
      exact Nat.mul_le_mul (by omega) (Nat.pow_le_pow_right (by decide) hj')
    rw [Nat.sub_mul, Nat.one_mul, ← hE] at h1
    have h2 : 2 ^ (e + s - 53) ≤ 2 ^ (e + s) := Nat.pow_le_pow_right (by decide) (by omega)
    have h3 : 0 < 2 ^ (e + s - 53) := by positivity
    rw [hU] at hM2 ⊢
    refine ⟨fun h => by omega, fun h h4 => by have := hM2 h4; omega, fun h => by omega⟩

theorem near_above {a u y : ℚ} (h : |a - y| ≤ |a + u - y|) (hu : 0 < u) : y ≤ a + u / 2 := by
  by_contra hc
  rw [not_le] at hc
  rw [abs_of_neg (by linarith)] at h
  rcases abs_cases (a + u - y) with h1 | h1 <;> linarith

theorem near_below {a u y : ℚ} (h : |a - y| ≤ |a - u - y|) (hu : 0 < u) : a - u / 2 ≤ y := by
  by_contra hc
  rw [not_le] at hc
  rw [abs_of_pos (by linarith)] at h
  rcases abs_cases (a - u - y) with h1 | h1 <;> linarith

theorem far_above {a b u y : ℚ} (hb : a + u ≤ b) (hu : 0 < u) (hy : y ≤ a + u / 2) : |a - y| ≤ |b - y| := by
  rw [abs_of_pos (show 0 < b - y by linarith)]
  rcases abs_cases (a - y) with h1 | h1 <;> linarith

theorem far_below {a b u y : ℚ} (hb : b + u ≤ a) (hu : 0 < u) (hy : a - u / 2 ≤ y) : |a - y| ≤ |b - y| := by
  rw [abs_of_neg (show b - y < 0 by linarith)]
  rcases abs_cases (a - y) with h1 | h1 <;> linarith

/-- The rounding of IEEE 754 gives the integer exactly for these numbers. -/
theorem ieee_readAs (k : Nat) (hk : k < 2 ^ 52) (y : ℚ) : Ieee b64 y (.fin false (k * 2 ^ 1074)) ↔ ReadAs k y := by
  have hscale : b64.scale = 1074 := rfl
  have hprec : b64.prec = 53 := rfl
  have hbig : (2 : ℚ) ^ 60 < 2 ^ b64.maxExp - 2 ^ b64.maxExp / 2 ^ (b64.prec + 1) := by
    rw [hprec, show b64.maxExp = 1024 from rfl]
    have h1 : (2 : ℚ) ^ 62 ≤ 2 ^ 1024 := pow_le_pow_right₀ (by norm_num) (by norm_num)
    generalize (2 : ℚ) ^ 1024 = x at h1
    norm_num at h1 ⊢
    linarith
  have hkq : (k : ℚ) < 2 ^ 52 := by exact_mod_cast hk
  have hdist : ∀ m, distance b64 m y = |(m : ℚ) / 2 ^ 1074 - y| := fun m => rfl
  obtain ⟨s, hs⟩ : ∃ s, s = 1074 := ⟨_, rfl⟩
  have hS : (0 : ℚ) < 2 ^ s := by positivity
  have hMS : ∀ k : Nat, ((k * 2 ^ s : Nat) : ℚ) / 2 ^ s = k := by
    intro k; push_cast; field_simp
  unfold ReadAs
  by_cases h0 : k = 0
  · subst h0
    rw [if_pos rfl]
    have h75 : (1 : ℚ) / 2 ^ 1075 = (1 / 2 ^ s) / 2 := by
      rw [hs]
      have : (2 : ℚ) ^ 1075 = 2 ^ 1074 * 2 := pow_succ _ _
      rw [this, div_div]
    rw [h75, Nat.zero_mul]
    simp only [← hs] at hdist
    have hu : (0 : ℚ) < 1 / 2 ^ s := by positivity
    constructor
    · intro h
      cases h with
      | finite _ h1 h2 h3 h4 =>
        have := h3 1 ⟨1, 0, by rw [hprec]; norm_num, rfl⟩
        rw [hdist, hdist] at this
        have h5 := near_above (a := 0) (u := 1 / 2 ^ s) (y := y) (by simpa using this) hu
        linarith
    · intro h
      have hle : (1 : ℚ) / 2 ^ s ≤ 1 := by
        rw [div_le_one hS]; exact one_le_pow₀ (by norm_num)
      refine .finite 0 ?_ ⟨0, 0, by rw [hprec]; norm_num, rfl⟩ (fun m' _ => ?_) (fun _ _ _ _ => ⟨0, 0, by rw [hprec]; norm_num, .inl rfl, rfl, by simp⟩)
      · have : (1 : ℚ) ≤ 2 ^ 60 := by norm_num
        linarith
      · rw [hdist, hdist]
        rcases Nat.eq_zero_or_pos m' with rfl | hm
        · exact le_refl _
        · refine far_above (u := 1 / 2 ^ s) ?_ hu (by simpa using h)
          have : (1 : ℚ) ≤ m' := by exact_mod_cast hm
          simpa using div_le_div_of_nonneg_right this hS.le
  · rw [if_neg h0]
    have hlog1 : 2 ^ Nat.log2 k ≤ k := Nat.log2_self_le h0
    have hlog2 : k < 2 ^ (Nat.log2 k + 1) := Nat.lt_log2_self
    generalize Nat.log2 k = e at *
    have he : e ≤ 51 := by
      by_contra hc
      have := Nat.pow_le_pow_right (show 0 < 2 by decide) (show 52 ≤ e by omega)
      omega
    have heq : (2 : ℚ) ^ e ≤ k := by exact_mod_cast hlog1
    have hepos : (0 : ℚ) < 2 ^ e := by positivity
    rw [← hs]
    simp only [← hs] at hdist
    have hs53 : 53 ≤ s := by omega
    -- the gap above, and below a power of two
    have hU : ((2 ^ (e + s - 52) : Nat) : ℚ) / 2 ^ s = 2 ^ e / 2 ^ 52 := by
      rw [div_eq_div_iff hS.ne' (by positivity)]
      have : 2 ^ (e + s - 52) * 2 ^ 52 = 2 ^ e * 2 ^ s := by rw [← pow_add, ← pow_add]; congr 1; omega
      exact_mod_cast this
    have hL : ((2 ^ (e + s - 53) : Nat) : ℚ) / 2 ^ s = 2 ^ e / 2 ^ 53 := by
      rw [div_eq_div_iff hS.ne' (by positivity)]
      have : 2 ^ (e + s - 53) * 2 ^ 53 = 2 ^ e * 2 ^ s := by rw [← pow_add, ← pow_add]; congr 1; omega
      exact_mod_cast this
    have hsc : 2 ^ s = 2 ^ (52 - e) * 2 ^ (e + s - 52) := by rw [← pow_add]; congr 1; omega
    have hc1 : k * 2 ^ (52 - e) + 2 ≤ 2 ^ 53 := by
      have h1 := Nat.mul_le_mul_right (2 ^ (52 - e)) hlog2
      rw [Nat.succ_mul, ← pow_add, show e + 1 + (52 - e) = 53 by omega] at h1
      have h2 : 2 ^ 1 ≤ 2 ^ (52 - e) := Nat.pow_le_pow_right (by decide) (by omega)
      omega
    have hc2 : 2 ^ 52 ≤ k * 2 ^ (52 - e) := by
      have h1 := Nat.mul_le_mul_right (2 ^ (52 - e)) hlog1
      rwa [← pow_add, show e + (52 - e) = 52 by omega] at h1
    have hM : k * 2 ^ s = (k * 2 ^ (52 - e)) * 2 ^ (e + s - 52) := by rw [hsc, Nat.mul_assoc]
    have hu : (0 : ℚ) < 2 ^ e / 2 ^ 52 := by positivity
    have hl : (0 : ℚ) < 2 ^ e / 2 ^ 53 := by positivity
    have e1 : (2 : ℚ) ^ e / 2 ^ 53 = 2 ^ e / 2 ^ 52 / 2 := by rw [div_div]; norm_num
    have e2 : (2 : ℚ) ^ e / 2 ^ 54 = 2 ^ e / 2 ^ 53 / 2 := by rw [div_div]; norm_num
    constructor
    · intro h
      cases h with
      | finite _ h1 h2 h3 h4 =>
        have key : ∀ m', Representable b64 m' → |(k : ℚ) - y| ≤ |(m' : ℚ) / 2 ^ s - y| := by
          intro m' hm'
          have := h3 m' hm'
          rwa [hdist, hdist, hMS] at this
        constructor
        · split_ifs with hp
          · have := key (k * 2 ^ s - 2 ^ (e + s - 53)) ⟨2 ^ 53 - 1, e + s - 53, by rw [hprec]; omega, by
              rw [Nat.sub_mul, ← pow_add, Nat.one_mul, hp, ← pow_add]; congr 2; omega⟩
            rw [Nat.cast_sub (by rw [hp, ← pow_add]; exact Nat.pow_le_pow_right (by decide) (by omega)), sub_div, hMS, hL] at this
            rw [e2]
            exact near_below this hl
          · have := key (k * 2 ^ s - 2 ^ (e + s - 52)) ⟨k * 2 ^ (52 - e) - 1, e + s - 52, by rw [hprec]; omega, by
              rw [Nat.sub_mul, Nat.one_mul, ← hM]⟩
            rw [Nat.cast_sub (by rw [hM]; exact Nat.le_mul_of_pos_left _ (by omega)), sub_div, hMS, hU] at this
            rw [e1]
            exact near_below this hu
        · have := key (k * 2 ^ s + 2 ^ (e + s - 52)) ⟨k * 2 ^ (52 - e) + 1, e + s - 52, by rw [hprec]; omega, by
            rw [Nat.add_mul, Nat.one_mul, ← hM]⟩
          rw [Nat.cast_add, add_div, hMS, hU] at this
          rw [e1]
          exact near_above this hu
    · rintro ⟨hlow, hhigh⟩
      refine .finite _ ?_ ⟨k * 2 ^ (52 - e), e + s - 52, by rw [hprec]; omega, hM⟩ (fun m' hm' => ?_)
        (fun _ _ _ _ => ⟨k * 2 ^ (52 - e), e + s - 52, by rw [hprec]; omega, .inr (by rw [hprec]; exact hc2), hM,
          Dvd.dvd.mul_left (dvd_pow_self 2 (by omega)) k⟩)
      · have h5 : (2 : ℚ) ^ e / 2 ^ 53 ≤ k := by
          rw [div_le_iff₀ (by positivity)]
          have : (k : ℚ) * 1 ≤ k * 2 ^ 53 := mul_le_mul_of_nonneg_left (by norm_num) (by positivity)
          linarith
        have : (2 : ℚ) ^ 52 + 2 ^ 52 ≤ 2 ^ 60 := by norm_num
        linarith
      · rw [hdist, hdist, hMS]
        obtain ⟨c, j, hc, hm⟩ := hm'
        rw [hprec] at hc
        obtain ⟨g1, g2, g3⟩ := gap k e s hlog1 (by omega) hs53 m' c j hc hm
        have cast : ∀ a b : Nat, a ≤ b → (a : ℚ) / 2 ^ s ≤ b / 2 ^ s := fun a b h =>
          div_le_div_of_nonneg_right (by exact_mod_cast h) hS.le
        rcases Nat.lt_trichotomy m' (k * 2 ^ s) with h | h | h
        · split_ifs at hlow with hp
          · have := cast _ _ (g3 h)
            rw [Nat.cast_add, add_div, hMS, hL] at this
            rw [e2] at hlow
            exact far_below this hl hlow
          · have := cast _ _ (g2 h (lt_of_le_of_ne hlog1 (Ne.symm hp)))
            rw [Nat.cast_add, add_div, hMS, hU] at this
            rw [e1] at hlow
            exact far_below this hu hlow
        · rw [h, hMS]
        · have := cast _ _ (g1 h)
          rw [Nat.cast_add, add_div, hMS, hU] at this
          rw [e1] at hhigh
          exact far_above this hu hhigh

theorem small_half (s : Nat) : (1 : ℚ) / 2 ^ (s + 1) ≤ 1 / 2 :=
  one_div_le_one_div_of_le (by norm_num) (le_self_pow₀ (by norm_num) (by omega))

theorem near_of_readAs (k : Nat) (hk : k < 2 ^ 52) (d : Dec) (h : ReadAs k d.value) (hne : d.value ≠ k) :
    d.f ≠ 0 ∧ (d.i = k ∨ d.i + 1 = k) := by
  have hb : (k : ℚ) - 1 / 2 ≤ d.value ∧ d.value ≤ k + 1 / 2 := by
    unfold ReadAs at h
    by_cases h0 : k = 0
    · rw [if_pos h0] at h
      have h1 := small_half 1074
      have h2 : 0 ≤ d.value := by rw [Dec.value_eq_sig]; positivity
      subst h0
      push_cast
      constructor <;> linarith
    · rw [if_neg h0] at h
      have h1 : (2 : ℚ) ^ Nat.log2 k ≤ k := by exact_mod_cast Nat.log2_self_le h0
      have h2 : (k : ℚ) < 4503599627370496 := by norm_num at hk; exact_mod_cast hk
      have h3 : (0 : ℚ) < 2 ^ Nat.log2 k := by positivity
      generalize (2 : ℚ) ^ Nat.log2 k = x at *
      split_ifs at h <;> norm_num at h <;> constructor <;> linarith [h.1, h.2]
  have hi1 : (d.i : ℚ) ≤ d.value := by
    rw [Dec.value_eq]
    have : (0 : ℚ) ≤ (d.f : ℚ) / 10 ^ d.v := by positivity
    linarith
  have hi2 : d.value < d.i + 1 := by
    have := Int.lt_floor_add_one d.value
    rw [d.floor_value] at this
    exact_mod_cast this
  have h1 : d.i < k + 1 := by
    have : (d.i : ℚ) < ((k + 1 : Nat) : ℚ) := by push_cast; linarith
    exact_mod_cast this
  have h2 : k < d.i + 2 := by
    have : (k : ℚ) < ((d.i + 2 : Nat) : ℚ) := by push_cast; linarith
    exact_mod_cast this
  refine ⟨fun hf => ?_, by omega⟩
  have hv := (d.value_eq_nat d.i).2 ⟨hf, rfl⟩
  rcases (show d.i = k ∨ d.i + 1 = k by omega) with e | e
  · exact hne (e ▸ hv)
  · rw [hv, ← e] at hb
    push_cast at hb
    linarith [hb.1]

theorem flt_eq_false (m m' : Nat) : Flt.eq (.fin false m) (.fin false m') = true ↔ m = m' := by simp [Flt.eq]

theorem equal_readAs (d : Dec) (n : Flt) (hn : Ieee b64 d.value n) (k : Nat) (hk : k < 2 ^ 52) :
    Flt.eq n (Flt.ofNat b64 k) = true ↔ ReadAs k d.value := by
  rw [← ieee_readAs k hk, ofNat_exact k (by omega)]
  generalize k * 2 ^ 1074 = q
  cases hn with
  | overflow h =>
    refine iff_of_false (by intro h; cases h) fun h' => ?_
    cases h' with
    | finite _ h1 => exact absurd h (not_le.2 h1)
  | finite m h1 h2 h3 h4 =>
    have hm : Ieee b64 d.value (.fin false m) := .finite m h1 h2 h3 h4
    rw [flt_eq_false]
    constructor
    · rintro rfl; exact hm
    · intro h'
      have := ieee_unique b64 (by decide) _ _ _ hm h'
      injection this

/-- C111: exactly which numbers `n` takes for an integer, in the test `n == k.0` of the rules. -/
theorem C111_equal (sign : Str) (hs : sign = [] ∨ sign = ['-']) (ip fp : List (Fin 10)) (hi : ip ≠ []) (hf : fp ≠ [])
    (h1 : digitsNum ip < 2 ^ 64) (h2 : digitsNum fp < 2 ^ 64) : ∃ po, tryFromStr (sign ++ decText ip fp) = .ok po ∧
      ∀ k : Nat, k < 2 ^ 52 → (Flt.eq po.n (Flt.ofNat b64 k) = true ↔ ReadAs k (decOf ip fp).value) := by
  obtain ⟨po, h3, h4⟩ := C77_decimal sign hs ip fp hi hf h1 h2
  exact ⟨po, h3, fun k hk => equal_readAs _ _ h4 k hk⟩

/-- 1.0000000000000001 is read as 1, and 1.0000000000000002 is not; 0.9999999999999999 is not. -/
example : (∃ po, tryFromStr c!"1.0000000000000001" = .ok po ∧ Flt.eq po.n (Flt.ofNat b64 1) = true) ∧
    (∃ po, tryFromStr c!"1.0000000000000002" = .ok po ∧ ¬ Flt.eq po.n (Flt.ofNat b64 1) = true) ∧
    (∃ po, tryFromStr c!"-0.9999999999999999" = .ok po ∧ ¬ Flt.eq po.n (Flt.ofNat b64 1) = true) := by
  have hl : Nat.log2 1 = 0 := by decide +kernel
  have value : ∀ ip fp : List (Fin 10), (decOf ip fp).value = (digitsNum ip : ℚ) + (digitsNum fp : ℚ) / 10 ^ fp.length := fun _ _ => rfl
  obtain ⟨po, h1, h2⟩ := C111_equal [] (.inl rfl) [1] (List.replicate 15 0 ++ [1]) (by simp) (by simp) (by decide) (by decide)
  obtain ⟨po', h1', h2'⟩ := C111_equal [] (.inl rfl) [1] (List.replicate 15 0 ++ [2]) (by simp) (by simp) (by decide) (by decide)
  obtain ⟨po'', h1'', h2''⟩ := C111_equal ['-'] (.inr rfl) [0] (List.replicate 16 9) (by simp) (by simp) (by decide) (by decide +kernel)
  refine ⟨⟨po, h1, (h2 1 (by norm_num)).2 ?_⟩, ⟨po', h1', fun h => ?_⟩, ⟨po'', h1'', fun h => ?_⟩⟩
  · rw [value]
    have h3 : digitsNum [1] = 1 ∧ digitsNum (List.replicate 15 0 ++ [1]) = 1 := by decide
    rw [h3.1, h3.2]
    norm_num [ReadAs, hl]
  · have := (h2' 1 (by norm_num)).1 h
    rw [value] at this
    have h3 : digitsNum [1] = 1 ∧ digitsNum (List.replicate 15 0 ++ [2]) = 2 := by decide
    rw [h3.1, h3.2] at this
    norm_num [ReadAs, hl] at this
  · have := (h2'' 1 (by norm_num)).1 h
    rw [value] at this
    have h3 : digitsNum [0] = 0 ∧ digitsNum (List.replicate 16 9) = 9999999999999999 := by decide +kernel
    rw [h3.1, h3.2] at this
    norm_num [ReadAs, hl] at this

/-- C111: every number with a point whose parts are below 2^64 gets its category, except the wrong numbers of the generator, if it is not
taken for an integer up to 800 that it is not. -/
theorem C111_category (t : PluralRuleType) (id : LangId) (pr : PluralRules) (h : create id t = .ok pr) (sign : Str)
    (hs : sign = [] ∨ sign = ['-']) (ip fp : List (Fin 10)) (hi : ip ≠ []) (hf : fp ≠ [])
    (h1 : digitsNum ip < 2 ^ 64) (h2 : digitsNum fp < 2 ^ 64)
    (ha : ∀ k : Nat, k ≤ 800 → ReadAs k (decOf ip fp).value → (decOf ip fp).value = k) :
    ∃ c c', select pr (tryFromStr (sign ++ decText ip fp)) = some (.ok c) ∧
      CldrCategory t id (decOf ip fp) c' ∧ (c = c' ↔ ¬ IsWrong t id (decOf ip fp)) := by
  obtain ⟨po, h3, h4, -⟩ := C11_decimal sign hs ip fp hi hf h1 h2
  have h5 := alike_ideal po (decOf ip fp) h4.i h4.v h4.w h4.f h4.t fun k hk => by
    rw [equal_readAs _ _ h4.n k (by omega)]
    refine ⟨ha k hk, fun he => ?_⟩
    rw [he, ← ieee_readAs k (by omega), ← ofNat_exact k (by omega)]
    exact ieee_ofNat k
  rw [h3, select_alike t id pr h h5]
  exact select_exactly t id pr h _ _ (ideal_represents _)

/-- In Spanish (`n = 1` is ONE) 1.0000000000000002 is far enough from 1. -/
example : ∃ es c, create (bareLanguage c!"es") .CARDINAL = .ok es ∧ select es (tryFromStr c!"1.0000000000000002") = some (.ok c) ∧
    CldrCategory .CARDINAL (bareLanguage c!"es") (decOf [1] (List.replicate 15 0 ++ [2])) c := by
  obtain ⟨es, h⟩ := (C01_create_iff_listed (bareLanguage c!"es") .CARDINAL).1.2 (by decide +kernel)
  have hd : digitsNum [1] = 1 ∧ digitsNum (List.replicate 15 0 ++ [2]) = 2 := by decide
  have hval : (decOf [1] (List.replicate 15 0 ++ [2])).value = 1 + 2 / 10 ^ 16 := by
    show (digitsNum [1] : ℚ) + (digitsNum (List.replicate 15 0 ++ [2]) : ℚ) / 10 ^ 16 = _
    rw [hd.1, hd.2]; norm_num
  obtain ⟨c, c', h1, h2, h3⟩ := C111_category .CARDINAL _ es h [] (.inl rfl) [1] (List.replicate 15 0 ++ [2]) (by simp) (by simp)
    (by decide) (by decide) (fun k hk hr => by
      by_contra hne
      have hi : (decOf [1] (List.replicate 15 0 ++ [2])).i = 1 := hd.1
      have hk2 := (near_of_readAs k (by omega) _ hr hne).2
      rw [hi] at hk2
      rw [hval] at hr
      have hl : Nat.log2 1 = 0 ∧ Nat.log2 2 = 1 := by decide +kernel
      rcases (show k = 1 ∨ k = 2 by omega) with rfl | rfl <;> norm_num [ReadAs, hl.1, hl.2] at hr)
  have hw : ¬ IsWrong .CARDINAL (bareLanguage c!"es") (decOf [1] (List.replicate 15 0 ++ [2])) := by
    rintro ⟨x, hx, hp, -⟩
    have : ((wrongNumbers .CARDINAL).all fun x => LangId.parse x.1 != some (bareLanguage c!"es")) = true := by decide +kernel
    have := List.all_eq_true.1 this x hx
    simp [hp] at this
  exact ⟨es, c, h, h1, (h3.2 hw) ▸ h2⟩

/-- C111: in a locale where `n` does not matter, all numbers with a point whose parts are below 2^64 get their category, except the wrong
numbers of the generator. -/
theorem C111_without_n (t : PluralRuleType) (id : LangId) (pr : PluralRules) (h : create id t = .ok pr) (hm : ¬ Matters pr .N) (sign : Str)
    (hs : sign = [] ∨ sign = ['-']) (ip fp : List (Fin 10)) (hi : ip ≠ []) (hf : fp ≠ [])
    (h1 : digitsNum ip < 2 ^ 64) (h2 : digitsNum fp < 2 ^ 64) :
    ∃ c c', select pr (tryFromStr (sign ++ decText ip fp)) = some (.ok c) ∧
      CldrCategory t id (decOf ip fp) c' ∧ (c = c' ↔ ¬ IsWrong t id (decOf ip fp)) := by
  obtain ⟨po, h3, h4, -⟩ := C11_decimal sign hs ip fp hi hf h1 h2
  have h5 : select (ε := OpsErr) pr (.ok po) = select (ε := OpsErr) pr (.ok (ideal (decOf ip fp))) := by
    by_contra hc
    exact hm ⟨po, ideal (decOf ip fp), ⟨fun h => absurd rfl h, fun _ => h4.i, fun _ => h4.v, fun _ => h4.w, fun _ => h4.f, fun _ => h4.t⟩, hc⟩
  rw [h3, h5]
  exact select_exactly t id pr h _ _ (ideal_represents _)

/-- In German `n` does not matter: 1.00000000000000001 gets its category. -/
example : ∃ de c, create (bareLanguage c!"de") .CARDINAL = .ok de ∧ select de (tryFromStr c!"1.00000000000000001") = some (.ok c) ∧
    CldrCategory .CARDINAL (bareLanguage c!"de") (decOf [1] (List.replicate 16 0 ++ [1])) c := by
  obtain ⟨de, h⟩ := (C01_create_iff_listed (bareLanguage c!"de") .CARDINAL).1.2 (by decide +kernel)
  have hm : ¬ Matters de .N := by
    rintro ⟨po, po', h1, h2⟩
    have h3 : ((table .CARDINAL).all fun e => e.1 != bareLanguage c!"de" || !occursIn .N e.2) = true := by decide +kernel
    have h4 := List.all_eq_true.1 h3 _ ((C02_create_own_rule _ _ de).1 h).2
    apply h2
    simp only [select, call_sameExcept h1 de.function (by simpa using h4)]
  obtain ⟨c, c', h1, h2, h3⟩ := C111_without_n .CARDINAL _ de h hm [] (.inl rfl) [1] (List.replicate 16 0 ++ [1]) (by simp) (by simp)
    (by decide) (by decide)
  have hw : ¬ IsWrong .CARDINAL (bareLanguage c!"de") (decOf [1] (List.replicate 16 0 ++ [1])) := by
    rintro ⟨x, hx, hp, -⟩
    have : ((wrongNumbers .CARDINAL).all fun x => LangId.parse x.1 != some (bareLanguage c!"de")) = true := by decide +kernel
    have := List.all_eq_true.1 this x hx
    simp [hp] at this
  exact ⟨de, c, h, h1, (h3.2 hw) ▸ h2⟩

/-! ## The locales where it matters -/

/-- Locales whose rules test `n`, but where no number gets a wrong category for the rounding: in Danish, Moldavian and Romanian other tests
decide, and in Breton and in the ordinals of Kazakh and Cornish only numbers are concerned that the generator gets wrong. -/
def spared : PluralRuleType → List Str
  | .CARDINAL => [c!"br", c!"da", c!"mo", c!"ro"]
  | .ORDINAL => [c!"kk", c!"kw"]

def sparedFns : PluralRuleType → List (Str × Closure)
  | .CARDINAL => [(c!"br", cardinalFn7), (c!"da", cardinalFn12), (c!"mo", cardinalFn27), (c!"ro", cardinalFn27)]
  | .ORDINAL => [(c!"kk", ordinalFn13), (c!"kw", ordinalFn14)]

theorem spared_function : ∀ t : PluralRuleType, (table t).all (fun e => (sparedFns t).all fun x =>
    LangId.parse x.1 != some e.1 || e.2 == x.2) = true := by
  intro t; cases t <;> decide +kernel

theorem function_spared : ∀ t : PluralRuleType, (table t).all (fun e => !((sparedFns t).any fun x => e.2 == x.2) ||
    (spared t).any fun x => LangId.parse x == some e.1) = true := by
  intro t; cases t <;> decide +kernel

/-- The test of `n` is right, or the number is close to the integer. -/
theorem right_or_near (po : PluralOperands) (d : Dec) (ho : OperandsOf po d) (k : Nat) (hk : k < 2 ^ 52) :
    Flt.eq po.n (Flt.ofNat b64 k) = Flt.eq (ideal d).n (Flt.ofNat b64 k) ∨
    (Flt.eq po.n (Flt.ofNat b64 k) = true ∧ Flt.eq (ideal d).n (Flt.ofNat b64 k) = false ∧ d.f ≠ 0 ∧ (d.i = k ∨ d.i + 1 = k)) := by
  have h1 := flt_eq_iff (ideal_represents d) trivial k (by omega)
  rw [← d.value_eq_nat] at h1
  have h2 := equal_readAs d po.n ho.n k hk
  by_cases hv : d.value = k
  · refine .inl ?_
    rw [h1.2 hv, h2]
    rw [hv, ← ieee_readAs k hk, ← ofNat_exact k (by omega)]
    exact ieee_ofNat k
  · have h3 : Flt.eq (ideal d).n (Flt.ofNat b64 k) = false := by
      rw [← Bool.not_eq_true, h1]; exact hv
    cases h4 : Flt.eq po.n (Flt.ofNat b64 k) with
    | false => exact .inl h3.symm
    | true =>
      obtain ⟨h5, h6⟩ := near_of_readAs k hk d (h2.1 h4) hv
      exact .inr ⟨rfl, h3, h5, h6⟩

theorem dropTrailingZeros_zero (l : List (Fin 10)) (h : (dropTrailingZeros l).all (· == 0) = true) : l.all (· == 0) = true := by
  induction l with
  | nil => rfl
  | cons x l ih =>
    simp only [dropTrailingZeros] at h
    split_ifs at h with h1
    · exact h1
    · rw [List.all_cons, Bool.and_eq_true] at h ⊢
      exact ⟨h.1, ih h.2⟩

theorem t_ne_zero {d : Dec} (h : d.f ≠ 0) : d.t ≠ 0 := fun ht =>
  h ((digitsNum_eq_zero _).2 (dropTrailingZeros_zero _ ((digitsNum_eq_zero _).1 ht)))

theorem call_fn7 {po po' : PluralOperands} (hi : po.i = po'.i)
    (hn : Flt.eq po.n (Flt.ofNat b64 0) = Flt.eq po'.n (Flt.ofNat b64 0)) : cardinalFn7.call po = cardinalFn7.call po' := by
  simp only [Closure.call, cardinalFn7, evalArms, RExpr.eval, readField, cmpFlt, hn, hi]

theorem call_fn12 {po po' : PluralOperands} (hi : po.i = po'.i) (ht : po.t = po'.t)
    (hn : Flt.eq po.n (Flt.ofNat b64 1) = Flt.eq po'.n (Flt.ofNat b64 1)) : cardinalFn12.call po = cardinalFn12.call po' := by
  simp only [Closure.call, cardinalFn12, evalArms, RExpr.eval, readField, cmpFlt, hn, hi, ht]

theorem one_fn12 {po : PluralOperands} (ht : po.t ≠ 0) (hi : po.i ≤ 1) : cardinalFn12.call po = some .ONE := by
  have h5 : (po.t != 0) = true := by simpa using ht
  have h6 : (po.i == 0) = true ∨ (po.i == 0) = false ∧ (po.i == 1) = true := by simp; omega
  simp only [Closure.call, cardinalFn12, evalArms, RExpr.eval, readField, cmpFlt, cmpInt, h5]
  generalize Flt.eq po.n (Flt.ofNat b64 1) = b
  rcases h6 with h6 | ⟨h6, h7⟩
  · rw [h6]; cases b <;> rfl
  · rw [h6, h7]; cases b <;> rfl

theorem few_fn27 {po : PluralOperands} (hv : po.v ≠ 0) : cardinalFn27.call po = some .FEW := by
  have h5 : (po.v != 0) = true := by simpa using hv
  simp only [Closure.call, cardinalFn27, evalArms, RExpr.eval, readField, cmpInt, h5]

theorem call_ofn13 {po po' : PluralOperands} (hi : po.i = po'.i)
    (hn : Flt.eq po.n (Flt.ofNat b64 0) = Flt.eq po'.n (Flt.ofNat b64 0)) : ordinalFn13.call po = ordinalFn13.call po' := by
  simp only [Closure.call, ordinalFn13, evalArms, RExpr.eval, readField, cmpFlt, hn, hi]

theorem call_ofn14 {po po' : PluralOperands} (hi : po.i = po'.i) (hf : po.f = po'.f)
    (hn : Flt.eq po.n (Flt.ofNat b64 5) = Flt.eq po'.n (Flt.ofNat b64 5)) : ordinalFn14.call po = ordinalFn14.call po' := by
  simp only [Closure.call, ordinalFn14, evalArms, RExpr.eval, readField, cmpFlt, hn, hi, hf]

/-- In the spared locales the number is not affected, or one that the generator gets wrong. -/
theorem spared_case (t : PluralRuleType) (id : LangId) (pr : PluralRules) (h : create id t = .ok pr) (s : Str) (hs : s ∈ spared t)
    (hid : LangId.parse s = some id) (po : PluralOperands) (d : Dec) (ho : OperandsOf po d) (hv : d.v ≠ 0) :
    pr.function.call po = pr.function.call (ideal d) ∨ IsWrong t id d := by
  have hmem := ((C02_create_own_rule id t pr).1 h).2
  have hfn : ∀ x ∈ sparedFns t, LangId.parse x.1 = some id → pr.function = x.2 := by
    intro x hx hp
    have := List.all_eq_true.1 (List.all_eq_true.1 (spared_function t) _ hmem) x hx
    simpa [hp] using this
  have hI : po.i = (ideal d).i := ho.i
  have hF : po.f = (ideal d).f := ho.f
  have hT : po.t = (ideal d).t := ho.t
  cases t with
  | CARDINAL =>
    simp only [spared, List.mem_cons, List.not_mem_nil, or_false] at hs
    rcases hs with rfl | rfl | rfl | rfl
    · rw [hfn (c!"br", cardinalFn7) (by simp [sparedFns]) hid]
      rcases right_or_near po d ho 0 (by norm_num) with h1 | ⟨-, -, h1, h2⟩
      · exact .inl (call_fn7 hI h1)
      · have : d.i = 0 := by omega
        exact .inr ⟨_, .tail _ (.tail _ (.tail _ (.head _))), hid, .inr (.inr ⟨h1, .inr (.inr (.inr (.inr (.inr (by rw [this])))))⟩)⟩
    · rw [hfn (c!"da", cardinalFn12) (by simp [sparedFns]) hid]
      left
      rcases right_or_near po d ho 1 (by norm_num) with h1 | ⟨-, -, h1, h2⟩
      · exact call_fn12 hI hT h1
      · rw [one_fn12 (ho.t ▸ t_ne_zero h1) (by rw [ho.i]; omega)]
        exact (one_fn12 (t_ne_zero h1) (show d.i ≤ 1 by omega)).symm
    all_goals
      rw [hfn (_, cardinalFn27) (by simp [sparedFns]) hid]
      left
      rw [few_fn27 (ho.v ▸ hv)]
      exact (few_fn27 hv).symm
  | ORDINAL =>
    simp only [spared, List.mem_cons, List.not_mem_nil, or_false] at hs
    rcases hs with rfl | rfl
    · rw [hfn (c!"kk", ordinalFn13) (by simp [sparedFns]) hid]
      rcases right_or_near po d ho 0 (by norm_num) with h1 | ⟨-, -, h1, h2⟩
      · exact .inl (call_ofn13 hI h1)
      · have : d.i = 0 := by omega
        exact .inr ⟨_, .tail _ (.tail _ (.head _)), hid, h1, .inl (by rw [this])⟩
    · rw [hfn (c!"kw", ordinalFn14) (by simp [sparedFns]) hid]
      rcases right_or_near po d ho 5 (by norm_num) with h1 | ⟨-, -, h1, h2⟩
      · exact .inl (call_ofn14 hI hF h1)
      · refine .inr ⟨_, .tail _ (.tail _ (.tail _ (.head _))), hid, .inr ⟨h1, ?_⟩⟩
        omega

/-- Numbers that are taken for 1, 2, 3, 5, 6, 8, 10 and 0. -/
def close : List (List (Fin 10) × List (Fin 10)) :=
  ([[1], [2], [3], [5], [6], [8], [1, 0]] : List (List (Fin 10))).map (fun ip => (ip, List.replicate 16 0 ++ [1])) ++
    [([0], List.replicate 330 0 ++ [1])]

/-- Some number that is taken for an integer gets a wrong category, but not one that the generator gets wrong. -/
def roundedCheck (t : PluralRuleType) (x : Closure × List (Str × Str) × Str × Str) : Bool :=
  !occursIn .N x.1 || ((sparedFns t).any fun y => x.1 == y.2) ||
  match GenPr.mapPanic readRule x.2.1 with
  | none => false
  | some l => l.all (fun x => noWithin x.2) && close.any fun p =>
      x.1.call (ideal (decOf p.1 p.2)) == some (catB l (decOf p.1 p.2)) &&
      match tryFromStr (decText p.1 p.2) with
      | .error _ => false
      | .ok po => x.1.call po != some (catB l (decOf p.1 p.2))

theorem rounded_checked : ∀ t : PluralRuleType, (kinds t).all (roundedCheck t) = true := by
  intro t; cases t <;> decide +kernel

theorem close_fine : ∀ p ∈ close, p.1 ≠ [] ∧ p.2 ≠ [] ∧ digitsNum p.1 < 2 ^ 64 ∧ digitsNum p.2 < 2 ^ 64 := by decide +kernel

/-- C111: the rounding of `n` makes some category wrong, that is one of a number that is not among the wrong numbers of the generator,
exactly in the locales where `n` matters; except those of `spared`. -/
theorem C111_where (t : PluralRuleType) (id : LangId) (pr : PluralRules) (h : create id t = .ok pr) :
    (∃ ip fp c c', ip ≠ [] ∧ fp ≠ [] ∧ digitsNum ip < 2 ^ 64 ∧ digitsNum fp < 2 ^ 64 ∧
      select pr (tryFromStr (decText ip fp)) = some (.ok c) ∧ CldrCategory t id (decOf ip fp) c' ∧ c ≠ c' ∧
      ¬ IsWrong t id (decOf ip fp)) ↔
    Matters pr .N ∧ ∀ s ∈ spared t, LangId.parse s ≠ some id := by
  have hg := ((C01_create_iff_listed id t).1).1 ⟨pr, h⟩
  constructor
  · rintro ⟨ip, fp, c, c', hi, hf, h1, h2, h3, h4, h5, h6⟩
    constructor
    · by_contra hm
      obtain ⟨c1, c1', h7, h8, h9⟩ := C111_without_n t id pr h hm [] (.inl rfl) ip fp hi hf h1 h2
      rw [List.nil_append, h3, Option.some.injEq, Except.ok.injEq] at h7
      obtain ⟨c3, -, hu⟩ := C25_unique t id hg (decOf ip fp)
      rw [← h7, hu _ h8, ← hu _ h4] at h9
      exact h5 (h9.2 h6)
    · intro s hs hid
      obtain ⟨po, h7, h8, -⟩ := C11_decimal [] (.inl rfl) ip fp hi hf h1 h2
      rcases spared_case t id pr h s hs hid po _ h8 (by simpa [Dec.v, decOf] using hf) with h9 | h9
      · obtain ⟨c1, c1', h10, h11, h12⟩ := select_exactly t id pr h _ _ (ideal_represents (decOf ip fp))
        rw [List.nil_append] at h7
        simp only [h7, select, h9] at h3
        simp only [select, h3, Option.some.injEq, Except.ok.injEq] at h10
        obtain ⟨c3, -, hu⟩ := C25_unique t id hg (decOf ip fp)
        rw [← h10, hu _ h11, ← hu _ h4] at h12
        exact h5 (h12.2 h6)
      · exact h6 h9
  · rintro ⟨hm, hsp⟩
    obtain ⟨⟨key, rules⟩, hk, -, hid⟩ := ((C21_locales_are_keys t).1 id).1 hg
    obtain ⟨x, hx, hfun, hrules⟩ := kind_of t id pr h key rules hk hid
    have hc := List.all_eq_true.1 (rounded_checked t) _ hx
    have hocc : occursIn .N x.1 = true := by
      by_contra ho
      obtain ⟨po, po', h1, h2⟩ := hm
      refine h2 ?_
      simp only [select, ← hfun, call_sameExcept h1 x.1 (by simpa using ho)]
    have hns : ((sparedFns t).any fun y => x.1 == y.2) = false := by
      by_contra hn
      have := List.all_eq_true.1 (function_spared t) _ ((C02_create_own_rule id t pr).1 h).2
      simp only [← hfun, Bool.not_eq_false] at this hn
      rw [hn] at this
      simp only [Bool.not_true, Bool.false_or, List.any_eq_true, beq_iff_eq] at this
      obtain ⟨s, hs, hp⟩ := this
      exact hsp s hs hp
    simp only [roundedCheck, hocc, hns, Bool.not_true, Bool.false_or] at hc
    cases hl : GenPr.mapPanic readRule x.2.1 with
    | none => simp [hl] at hc
    | some l =>
    simp only [hl, Bool.and_eq_true, List.any_eq_true, beq_iff_eq] at hc
    obtain ⟨hw, ⟨ip, fp⟩, hp, h1, h2⟩ := hc
    obtain ⟨f1, f2, f3, f4⟩ := close_fine _ hp
    simp only at h1 h2 f1 f2 f3 f4
    cases hpo : tryFromStr (decText ip fp) with
    | error e => simp [hpo] at h2
    | ok po =>
    simp only [hpo, bne_iff_ne] at h2
    have hi := fun d c => category_iff t id hg key rules hk hid l (hrules ▸ hl) hw d c
    have hcat : CldrCategory t id (decOf ip fp) (catB l (decOf ip fp)) := ⟨key, rules, hk, hid, (hi _ _).2 rfl⟩
    obtain ⟨c1, c2, h3, h4, h5⟩ := select_exactly t id pr h _ _ (ideal_represents (decOf ip fp))
    obtain ⟨c, h6⟩ := C05_select_total id t pr h po
    refine ⟨ip, fp, c, _, f1, f2, f3, f4, by rw [hpo]; exact h6, hcat, ?_, ?_⟩
    · rintro rfl
      simp only [select, ← hfun] at h6
      cases hc : x.1.call po with
      | none => simp [hc] at h6
      | some c => simp [hc] at h6; exact h2 (by rw [hc, h6])
    · rw [← h5]
      obtain ⟨c3, -, hu⟩ := C25_unique t id hg (decOf ip fp)
      rw [hu _ h4, ← hu _ hcat]
      simp only [select, ← hfun, h1, Option.some.injEq, Except.ok.injEq] at h3
      exact h3.symm

/-- Spanish is such a locale, Danish is not although `n` matters there (`n = 1 or t != 0 and i = 0,1` is ONE), German is not. -/
example : ∃ es da de, create (bareLanguage c!"es") .CARDINAL = .ok es ∧ create (bareLanguage c!"da") .CARDINAL = .ok da ∧
    create (bareLanguage c!"de") .CARDINAL = .ok de ∧
    (Matters es .N ∧ ∀ s ∈ spared .CARDINAL, LangId.parse s ≠ some (bareLanguage c!"es")) ∧
    (Matters da .N ∧ ¬ ∀ s ∈ spared .CARDINAL, LangId.parse s ≠ some (bareLanguage c!"da")) ∧ ¬ Matters de .N := by
  obtain ⟨es, h1⟩ := (C01_create_iff_listed (bareLanguage c!"es") .CARDINAL).1.2 (by decide +kernel)
  obtain ⟨da, h2⟩ := (C01_create_iff_listed (bareLanguage c!"da") .CARDINAL).1.2 (by decide +kernel)
  obtain ⟨de, h3⟩ := (C01_create_iff_listed (bareLanguage c!"de") .CARDINAL).1.2 (by decide +kernel)
  have named_iff : ∀ {id t pr}, create id t = .ok pr → (Matters pr .N ↔ named pr.function .N = true) := by
    intro id t pr h
    rw [matters_iff _ (function_mem h)]
    simp only [Matters, select]
    refine exists_congr fun po => exists_congr fun po' => and_congr_right fun _ => ?_
    cases pr.function.call po <;> cases pr.function.call po' <;> simp
  have ht : ((table .CARDINAL).all fun e => (e.1 != bareLanguage c!"es" || named e.2 .N) && (e.1 != bareLanguage c!"da" || named e.2 .N) &&
      (e.1 != bareLanguage c!"de" || !named e.2 .N)) = true := by decide +kernel
  have g := fun id pr (h : create id .CARDINAL = .ok pr) => List.all_eq_true.1 ht _ ((C02_create_own_rule id _ pr).1 h).2
  refine ⟨es, da, de, h1, h2, h3, ⟨(named_iff h1).2 ?_, by decide +kernel⟩, ⟨(named_iff h2).2 ?_, by decide +kernel⟩, fun h => ?_⟩
  · have := g _ _ h1
    simp only [Bool.and_eq_true, bne_self_eq_false, Bool.false_or] at this
    exact this.1.1
  · have := g _ _ h2
    simp only [Bool.and_eq_true, bne_self_eq_false, Bool.false_or] at this
    exact this.1.2
  · have := g _ _ h3
    simp only [Bool.and_eq_true, bne_self_eq_false, Bool.false_or, (named_iff h3).1 h] at this
    exact absurd this.2 (by decide)

end Verif.Props
