import Verif.Props.Exact
import Verif.Props.Floats

/-!
# C73–C76: the categories of all texts and all floats

C65 and C66 are for numbers that `f64` tells apart from all integers.  The shipped functions compare `n` only with integers up to
800, so that much less is enough.
-/

namespace Verif.Props
open Verif Api Rust Uts35 Spec Sem PluralOperands Verif.Grammar

attribute [local irreducible] Flt.ofRat Flt.roundMag

/-! ## The functions look at `n` only to compare it with an integer up to 800 -/

/-- `n` is only compared, by `==` or `!=`, with an integer up to 800. -/
def fewTests : RExpr → Bool
  | .int _ | .flt _ => true
  | .field x => x != .N
  | .cmp op (.field .N) (.flt k) => (op == .eq || op == .ne) && decide (k ≤ 800)
  | .rem a b | .cmp _ a b | .and a b | .or a b => fewTests a && fewTests b
  | .not a | .contains _ _ a => fewTests a

theorem tables_few : ∀ t : PluralRuleType, (table t).all (fun e => e.2.arms.all fun a => fewTests a.1) = true := by
  intro t; cases t <;> decide +kernel

/-- The same operands except `n`, and `n` equal to the same integers up to 800. -/
structure Alike (po po' : PluralOperands) : Prop where
  i : po.i = po'.i
  v : po.v = po'.v
  w : po.w = po'.w
  f : po.f = po'.f
  t : po.t = po'.t
  n : ∀ k ≤ 800, Flt.eq po.n (Flt.ofNat b64 k) = Flt.eq po'.n (Flt.ofNat b64 k)

theorem eval_alike {po po' : PluralOperands} (h : Alike po po') (e : RExpr) (he : fewTests e = true) : e.eval po = e.eval po' := by
  induction e using fewTests.induct with
  | case1 | case2 => rfl
  | case3 x =>
    simp only [fewTests, bne_iff_ne] at he
    cases x <;> simp_all [RExpr.eval, readField, h.i, h.v, h.w, h.f, h.t]
  | case4 op k =>
    simp only [fewTests, Bool.and_eq_true, Bool.or_eq_true, beq_iff_eq, decide_eq_true_eq] at he
    have := h.n k he.2
    rcases he.1 with rfl | rfl <;> simp only [RExpr.eval, readField, cmpFlt, this]
  | _ => simp_all [fewTests, RExpr.eval]

theorem call_alike {po po' : PluralOperands} (h : Alike po po') (arms : List (RExpr × PluralCategory)) (last : PluralCategory)
    (ha : arms.all (fun a => fewTests a.1) = true) : evalArms po arms last = evalArms po' arms last := by
  induction arms with
  | nil => rfl
  | cons a arms ih =>
    simp only [List.all_cons, Bool.and_eq_true] at ha
    simp only [evalArms, eval_alike h a.1 ha.1, ih ha.2]

theorem select_alike (t : PluralRuleType) (id : LangId) (pr : PluralRules) (h : create id t = .ok pr) {po po' : PluralOperands}
    (ha : Alike po po') : select (ε := OpsErr) pr (.ok po) = select (ε := OpsErr) pr (.ok po') := by
  have hmem := ((C02_create_own_rule id t pr).1 h).2
  have := List.all_eq_true.1 (tables_few t) _ hmem
  simp only [select, Closure.call, call_alike ha _ _ this]

/-- Operands with an `n` that is on the right side of every integer (it need not be an `f64`). -/
def ideal (d : Dec) : PluralOperands := ⟨.fin false (d.i * 2 ^ 1074 + if d.f = 0 then 0 else 1), d.i, d.v, d.w, d.f, d.t⟩

theorem ideal_represents (d : Dec) : Represents True (ideal d) d := by
  refine ⟨rfl, rfl, rfl, rfl, rfl, fun _ => ⟨_, rfl, fun k _ => ?_⟩⟩
  have hs : d.sig < k * 10 ^ d.v ↔ d.i < k := by
    rw [sig_eq]
    have hf := d.f_lt
    constructor
    · intro h
      by_contra hc
      have := Nat.mul_le_mul_right (10 ^ d.v) (Nat.le_of_not_lt hc)
      omega
    · intro h
      have := Nat.mul_le_mul_right (10 ^ d.v) h
      rw [Nat.succ_mul] at this
      omega
  rw [hs, sig_eq_iff]
  have h2 : 1 < 2 ^ 1074 := Nat.one_lt_two_pow (by omega)
  generalize 2 ^ 1074 = q at h2
  rcases Nat.lt_trichotomy d.i k with h | h | h
  · have := Nat.mul_le_mul_right q h
    rw [Nat.succ_mul] at this
    split_ifs with hf <;> omega
  · subst h
    split_ifs with hf <;> simp [hf]
  · have := Nat.mul_le_mul_right q h
    rw [Nat.succ_mul] at this
    split_ifs with hf <;> omega

/-- `n` equals the integers up to 800 that the number equals. -/
theorem alike_ideal (po : PluralOperands) (d : Dec) (hi : po.i = d.i) (hv : po.v = d.v) (hw : po.w = d.w) (hf : po.f = d.f)
    (ht : po.t = d.t) (hn : ∀ k : Nat, k ≤ 800 → (Flt.eq po.n (Flt.ofNat b64 k) = true ↔ d.value = k)) : Alike po (ideal d) := by
  refine ⟨hi, hv, hw, hf, ht, fun k hk => ?_⟩
  have h1 := flt_eq_iff (ideal_represents d) trivial k (by omega)
  rw [Bool.eq_iff_iff, hn k hk, h1, d.value_eq_nat]

/-! ## C73: texts with a point -/

/-- The number is equal to, or not too close to, each integer up to 800. -/
def Apart (d : Dec) : Prop := ∀ k : Nat, k ≤ 800 → d.value = k ∨ (k = 0 ∧ 1 / 10 ^ 300 ≤ d.value) ∨ (0 < k ∧ 1 / 10 ^ 13 ≤ |d.value - k|)

theorem eq_ofNat (m k : Nat) (hk : k < 2 ^ 53) : Flt.eq (.fin false m) (Flt.ofNat b64 k) = true ↔ m = k * 2 ^ 1074 := by
  rw [ofNat_exact k hk]; simp [Flt.eq]

theorem apart_n (d : Dec) (hi : d.i < 2 ^ 64) (ha : Apart d) (k : Nat) (hk : k ≤ 800) :
    Flt.eq (Flt.ofRat b64 false (allDigits d) (10 ^ d.v)) (Flt.ofNat b64 k) = true ↔ d.value = k := by
  have hval : d.value = ((allDigits d : Nat) : ℚ) / ((10 ^ d.v : Nat) : ℚ) := by
    rw [Dec.value_eq_sig, sig_allDigits]; push_cast; rfl
  have h64 : allDigits d < 2 ^ 64 * 10 ^ d.v := by
    have hf : d.f < 10 ^ d.v := d.f_lt
    have := Nat.mul_le_mul_right (10 ^ d.v) hi
    rw [Nat.succ_mul] at this
    simp only [allDigits]; omega
  rw [ofRat_fin _ _ 64 (by positivity) (by omega) h64, eq_ofNat _ k (by omega), ← Flt.rnd_div b64 _ _ (by positivity), ← hval]
  have h0 : 0 ≤ d.value := by rw [hval]; positivity
  have hs : b64.scale = 1074 := rfl
  have hp : b64.prec = 53 := rfl
  constructor
  · intro h
    rcases ha k hk with h1 | h1
    · exact h1
    · exfalso
      have h2 := Flt.rnd_error b64 (by decide) d.value h0
      rw [h, hs, hp] at h2
      generalize d.value = y at *
      have hbig : (10 : ℚ) ^ 300 < 2 ^ 1074 := by
        have h3 : 10 ^ 300 < 2 ^ 1000 := by decide +kernel
        have h4 : 2 ^ 1000 ≤ 2 ^ 1074 := Nat.pow_le_pow_right (by omega) (by omega)
        exact_mod_cast lt_of_lt_of_le h3 h4
      have e : (((k * 2 ^ 1074 : Nat) : ℚ) - y * 2 ^ 1074) = (k - y) * 2 ^ 1074 := by push_cast; ring
      rw [e] at h2
      generalize (2 : ℚ) ^ 1074 = S at h2 hbig
      have hpos : 0 < S := lt_trans (by positivity) hbig
      rw [abs_mul, abs_of_pos hpos, abs_sub_comm] at h2
      have h3 : ∀ x : ℚ, 1 / 10 ^ 300 ≤ x → 1 < x * S := by
        intro x hx
        rw [div_le_iff₀ (by positivity)] at hx
        have hx0 : 0 < x := by
          by_contra hc
          have := mul_nonpos_of_nonpos_of_nonneg (not_lt.1 hc) (by positivity : (0 : ℚ) ≤ 10 ^ 300)
          exact absurd (le_trans hx this) (by norm_num)
        exact lt_of_le_of_lt hx (mul_lt_mul_of_pos_left hbig hx0)
      have h6 : |y - k| * S < 1 ∨ 2 * |y - k| * 2 ^ 52 ≤ y := by
        rcases le_max_iff.1 h2 with h5 | h5
        · left; linarith
        · right
          rw [le_div_iff₀ (by positivity)] at h5
          have : (2 * |y - k| * 2 ^ 52) * S ≤ y * S := by
            rw [show 53 - 1 = 52 from rfl] at h5
            calc _ = 2 * (|y - k| * S) * 2 ^ 52 := by ring
              _ ≤ _ := h5
          exact le_of_mul_le_mul_right this hpos
      rcases h1 with ⟨rfl, h1⟩ | ⟨hk0, h1⟩
      · rw [Nat.cast_zero, sub_zero, abs_of_nonneg h0] at h6
        have h4 := h3 y h1
        have h7 : 0 < y := lt_of_lt_of_le (by positivity) h1
        rcases h6 with h5 | h5
        · linarith
        · norm_num at h5
          linarith
      · have hkq : (k : ℚ) ≤ 800 := by exact_mod_cast hk
        have h4 := h3 |y - k| (le_trans (one_div_le_one_div_of_le (by positivity)
          (pow_le_pow_right₀ (by norm_num) (by norm_num))) h1)
        rcases h6 with h5 | h5
        · linarith
        · have h7 := neg_abs_le (y - k)
          have h8 := le_abs_self (y - k)
          norm_num at h5 h1
          linarith
  · intro h
    rw [h]
    refine Flt.rnd_exact b64 (by decide) _ (by positivity) _ ⟨k, 1074, ?_, rfl⟩ ?_
    · rw [hp]; omega
    · rw [hs]; push_cast; ring

/-- The operands of a text with a point, with an ideal `n`. -/
theorem text_alike (sign : Str) (hs : sign = [] ∨ sign = ['-']) (ip fp : List (Fin 10)) (hi : ip ≠ []) (hf : fp ≠ [])
    (h1 : digitsNum ip < 2 ^ 64) (h2 : digitsNum fp < 2 ^ 64) (ha : Apart (decOf ip fp)) :
    ∃ po, tryFromStr (sign ++ decText ip fp) = .ok po ∧ Alike po (ideal (decOf ip fp)) := by
  obtain ⟨po, h3, h4, -⟩ := C11_decimal sign hs ip fp hi hf h1 h2
  refine ⟨po, h3, alike_ideal po _ h4.i h4.v h4.w h4.f h4.t fun k hk => ?_⟩
  rw [h4.n_eq]
  exact apart_n (decOf ip fp) h1 ha k hk

/-- C73: every text with a point that is accepted (C67), unless it is too close to an integer up to 800. -/
theorem C73_texts (t : PluralRuleType) (id : LangId) (pr : PluralRules) (h : create id t = .ok pr) (sign : Str)
    (hs : sign = [] ∨ sign = ['-']) (ip fp : List (Fin 10)) (hi : ip ≠ []) (hf : fp ≠ [])
    (h1 : digitsNum ip < 2 ^ 64) (h2 : digitsNum fp < 2 ^ 64) (ha : Apart (decOf ip fp)) :
    ∃ c c', select pr (tryFromStr (sign ++ decText ip fp)) = some (.ok c) ∧
      CldrCategory t id (decOf ip fp) c' ∧ (c = c' ↔ ¬ IsWrong t id (decOf ip fp)) := by
  obtain ⟨po, h3, h4⟩ := text_alike sign hs ip fp hi hf h1 h2 ha
  rw [h3, select_alike t id pr h h4]
  exact select_exactly t id pr h _ _ (ideal_represents _)

theorem apart_of_short (ip fp : List (Fin 10)) (h : fp.length ≤ 13) : Apart (decOf ip fp) := by
  have hval : (decOf ip fp).value = ((allDigits (decOf ip fp) : Nat) : ℚ) / ((10 ^ fp.length : Nat) : ℚ) := by
    rw [Dec.value_eq_sig, sig_allDigits]; push_cast; rfl
  intro k _
  by_cases he : (decOf ip fp).value = k
  · exact .inl he
  right
  have hp : (0 : ℚ) < ((10 ^ fp.length : Nat) : ℚ) := by positivity
  have key : 1 / 10 ^ 13 ≤ |(decOf ip fp).value - k| := by
    rw [hval] at he ⊢
    generalize allDigits (decOf ip fp) = a at *
    have h1 : (a : ℤ) - (k * 10 ^ fp.length : Nat) ≠ 0 := by
      intro h0
      apply he
      rw [div_eq_iff hp.ne']
      have : (a : ℤ) = (k * 10 ^ fp.length : Nat) := by omega
      exact_mod_cast this
    have h2 := Int.one_le_abs h1
    have h3 : (1 : ℚ) ≤ |(a : ℚ) - k * ((10 ^ fp.length : Nat) : ℚ)| := by exact_mod_cast h2
    have e : (a : ℚ) / ((10 ^ fp.length : Nat) : ℚ) - k = (a - k * ((10 ^ fp.length : Nat) : ℚ)) / ((10 ^ fp.length : Nat) : ℚ) := by
      field_simp
    rw [e, abs_div, abs_of_pos hp, div_le_div_iff₀ (by positivity) hp]
    have h4 : ((10 ^ fp.length : Nat) : ℚ) ≤ 10 ^ 13 := by
      exact_mod_cast Nat.pow_le_pow_right (by omega) h
    nlinarith
  rcases Nat.eq_zero_or_pos k with rfl | hk
  · refine .inl ⟨rfl, ?_⟩
    rw [Nat.cast_zero, sub_zero, abs_of_nonneg (by rw [hval]; positivity)] at key
    exact le_trans (one_div_le_one_div_of_le (by positivity) (pow_le_pow_right₀ (by norm_num) (by norm_num))) key
  · exact .inr ⟨hk, key⟩

/-- C73: every text with a point, any integer part that is accepted, and at most 13 fraction digits. -/
theorem C73_thirteen_digits (t : PluralRuleType) (id : LangId) (pr : PluralRules) (h : create id t = .ok pr) (sign : Str)
    (hs : sign = [] ∨ sign = ['-']) (ip fp : List (Fin 10)) (hi : ip ≠ []) (hf : fp ≠ [])
    (h1 : digitsNum ip < 2 ^ 64) (h2 : fp.length ≤ 13) :
    ∃ c c', select pr (tryFromStr (sign ++ decText ip fp)) = some (.ok c) ∧
      CldrCategory t id (decOf ip fp) c' ∧ (c = c' ↔ ¬ IsWrong t id (decOf ip fp)) := by
  refine C73_texts t id pr h sign hs ip fp hi hf h1 ?_ (apart_of_short ip fp h2)
  have h3 := digitsNum_lt fp
  have h4 : 10 ^ fp.length ≤ 10 ^ 13 := Nat.pow_le_pow_right (by omega) h2
  omega

example : ∃ pr c c', create ⟨some c!"pl", none, none, none⟩ .CARDINAL = .ok pr ∧ select pr (tryFromStr c!"1.0000000000001") = some (.ok c) ∧
    CldrCategory .CARDINAL ⟨some c!"pl", none, none, none⟩ (decOf [1] [0, 0, 0, 0, 0, 0, 0, 0, 0, 0, 0, 0, 1]) c' := by
  obtain ⟨pr, h⟩ := (C01_create_iff_listed ⟨some c!"pl", none, none, none⟩ .CARDINAL).1.2 (by decide +kernel)
  obtain ⟨c, c', h1, h2, -⟩ := C73_thirteen_digits _ _ pr h [] (.inl rfl) [1] [0, 0, 0, 0, 0, 0, 0, 0, 0, 0, 0, 0, 1] (by simp) (by simp)
    (by decide) (by decide)
  exact ⟨pr, c, c', h, h1, h2⟩
/-- The same for `C73_texts`. -/
example : ∃ pr c c', create ⟨some c!"pl", none, none, none⟩ .CARDINAL = .ok pr ∧ select pr (tryFromStr c!"-1.50") = some (.ok c) ∧
    CldrCategory .CARDINAL ⟨some c!"pl", none, none, none⟩ (decOf [1] [5, 0]) c' ∧
      (c = c' ↔ ¬ IsWrong .CARDINAL ⟨some c!"pl", none, none, none⟩ (decOf [1] [5, 0])) := by
  obtain ⟨pr, h⟩ := (C01_create_iff_listed ⟨some c!"pl", none, none, none⟩ .CARDINAL).1.2 (by decide +kernel)
  obtain ⟨c, c', hc⟩ := C73_texts _ _ pr h ['-'] (.inr rfl) [1] [5, 0] (by simp) (by simp) (by decide) (by decide)
    (apart_of_short [1] [5, 0] (by decide))
  exact ⟨pr, c, c', h, hc⟩

/-- C73: the condition is needed.  1.00000000000000001 is ONE in Bulgarian, whose rule for ONE is `n = 1`, although no short decimal
is wrong in Bulgarian. -/
theorem C73_close : ∃ id pr, LangId.parse c!"bg" = some id ∧ create id .CARDINAL = .ok pr ∧
    select pr (tryFromStr c!"1.00000000000000001") = some (.ok .ONE) ∧
    CldrCategory .CARDINAL id (decOf [1] [0, 0, 0, 0, 0, 0, 0, 0, 0, 0, 0, 0, 0, 0, 0, 0, 1]) .OTHER ∧
    ∀ d, ¬ IsWrong .CARDINAL id d := by
  have h : wrongCheck .CARDINAL c!"bg" (tryFromStr c!"1.00000000000000001").toOption
    (decOf [1] [0, 0, 0, 0, 0, 0, 0, 0, 0, 0, 0, 0, 0, 0, 0, 0, 1]) .OTHER .ONE = true := by decide +kernel
  cases ht : tryFromStr c!"1.00000000000000001" with
  | error e => rw [ht] at h; simp [Except.toOption, wrongCheck] at h
  | ok po =>
    rw [ht] at h
    obtain ⟨id, pr, h1, h2, h3, h4, -⟩ := wrong_of_check h
    refine ⟨id, pr, h1, h2, by rw [← h3], h4, ?_⟩
    rintro d ⟨x, hx, h5, -⟩
    rw [← h1] at h5
    have : ∀ y ∈ (wrongNumbers .CARDINAL).map (·.1), LangId.parse y ≠ LangId.parse c!"bg" := by
      rw [wrong_keys]; decide +kernel
    exact this x.1 (List.mem_map.2 ⟨x, hx, rfl⟩) h5

/-- C73 covers numbers that C66 does not: 18446744073709551615.0000000000001. -/
example : digitsNum [1, 8, 4, 4, 6, 7, 4, 4, 0, 7, 3, 7, 0, 9, 5, 5, 1, 6, 1, 5] < 2 ^ 64 ∧
    Apart (decOf [1, 8, 4, 4, 6, 7, 4, 4, 0, 7, 3, 7, 0, 9, 5, 5, 1, 6, 1, 5] [0, 0, 0, 0, 0, 0, 0, 0, 0, 0, 0, 0, 1]) :=
  ⟨by decide, apart_of_short _ _ (by decide)⟩

/-! ## C74: texts of digits only -/

/-- `r` is an integer that is an `f64` (if it is not too large), and none is nearer to `x`. -/
def NearestInt (r x : Nat) : Prop := (∃ c e, c < 2 ^ 53 ∧ r = c * 2 ^ e) ∧
  ∀ c e, c < 2 ^ 53 → |(r : ℤ) - x| ≤ |((c * 2 ^ e : Nat) : ℤ) - x|

theorem round_int (x : Nat) : ∃ r, Flt.roundMag b64 x 1 = r * 2 ^ 1074 ∧ NearestInt r x := by
  have near : ∀ r, Flt.roundMag b64 x 1 = r * 2 ^ 1074 → ∀ c e, c < 2 ^ 53 → |(r : ℤ) - x| ≤ |((c * 2 ^ e : Nat) : ℤ) - x| := by
    intro r hr c e hc
    have h := Flt.roundMag_nearest b64 (by decide) x 1 (by omega) c (e + 1074) hc
    have hs : b64.scale = 1074 := rfl
    rw [hr, hs] at h
    have e1 : ((r * 2 ^ 1074 * 1 : Nat) : ℤ) - (x * 2 ^ 1074 : Nat) = ((r : ℤ) - x) * 2 ^ 1074 := by push_cast; ring
    have e2 : ((c * 2 ^ (e + 1074) * 1 : Nat) : ℤ) - (x * 2 ^ 1074 : Nat) = (((c * 2 ^ e : Nat) : ℤ) - x) * 2 ^ 1074 := by
      rw [Nat.pow_add]; push_cast; ring
    have hp : (0 : ℤ) < 2 ^ 1074 := by positivity
    rw [e1, e2, abs_mul, abs_mul, abs_of_pos hp] at h
    exact le_of_mul_le_mul_right h hp
  rcases Nat.lt_or_ge x (2 ^ 53) with hx | hx
  · have h1 : Flt.roundMag b64 x 1 = x * 2 ^ 1074 := roundMag_of_representable x x 0 hx (by simp)
    exact ⟨x, h1, ⟨x, 0, hx, by simp⟩, near x h1⟩
  · obtain ⟨c, e, hc, he⟩ := Flt.roundMag_representable b64 (by decide) x 1 (by omega)
    have h5 := Flt.roundMag_large b64 (by decide) x 1 53 (by omega) (by omega)
    have hs : b64.scale = 1074 := rfl
    rw [he, hs] at h5
    have h6 : 1074 ≤ e := by
      by_contra hlt
      have h7 : 2 ^ e ≤ 2 ^ 1074 := Nat.pow_le_pow_right (by omega) (by omega)
      have h8 : c * 2 ^ e < 2 ^ 53 * 2 ^ e := Nat.mul_lt_mul_of_pos_right hc (Nat.two_pow_pos _)
      have h9 : 2 ^ 53 * 2 ^ e ≤ 2 ^ 53 * 2 ^ 1074 := Nat.mul_le_mul_left _ h7
      exact absurd (lt_of_le_of_lt h5 h8) (not_lt.2 h9)
    obtain ⟨j, rfl⟩ := Nat.exists_eq_add_of_le h6
    have h7 : Flt.roundMag b64 x 1 = c * 2 ^ j * 2 ^ 1074 := by rw [he, Nat.pow_add]; ring
    exact ⟨c * 2 ^ j, h7, ⟨c, j, hc, rfl⟩, near _ h7⟩

theorem eq_small (y k : Nat) (hk : k ≤ 800) : Flt.eq (Flt.ofNat b64 y) (Flt.ofNat b64 k) = decide (y = k) := by
  rw [Bool.eq_iff_iff, decide_eq_true_eq]
  rcases Nat.lt_or_ge y (2 ^ 53) with hy | hy
  · rw [ofNat_exact y hy, eq_ofNat _ k (by omega)]
    exact Nat.mul_left_inj (Nat.two_pow_pos _).ne'
  · have h1 := Flt.roundMag_large b64 (by decide) y 1 53 (by omega) (by omega)
    have hs : b64.scale = 1074 := rfl
    rw [hs] at h1
    unfold Flt.ofNat
    rw [Flt.ofRat]
    split_ifs
    · rw [← Flt.ofNat, ofNat_exact k (by omega)]
      simp [Flt.eq]; omega
    · rw [← Flt.ofNat, eq_ofNat _ k (by omega)]
      have h2 : k * 2 ^ 1074 < 2 ^ 53 * 2 ^ 1074 := Nat.mul_lt_mul_of_pos_right (by omega) (Nat.two_pow_pos _)
      constructor
      · intro h; omega
      · intro h; omega

theorem int_alike (x : Nat) : ∃ r, NearestInt r x ∧ Flt.roundMag b64 x 1 = r * 2 ^ 1074 ∧
    Alike ⟨Flt.ofNat b64 x, (Flt.ofNat b64 x).toU64 b64, 0, 0, 0, 0⟩ (fromUnsigned (min r (2 ^ 64 - 1))) := by
  obtain ⟨r, h1, h2⟩ := round_int x
  have hs : b64.scale = 1074 := rfl
  have hi : (Flt.ofNat b64 x).toU64 b64 = min r (2 ^ 64 - 1) := by
    unfold Flt.ofNat
    rw [Flt.ofRat]
    split_ifs with h
    · rw [h1, hs, Nat.pow_add] at h
      have h3 := Nat.le_of_mul_le_mul_right h (Nat.two_pow_pos _)
      have h4 : 2 ^ 64 ≤ 2 ^ b64.maxExp := Nat.pow_le_pow_right (by omega) (by decide)
      simp only [Flt.toU64]
      generalize 2 ^ b64.maxExp = B at *
      rw [if_neg (by simp)]; omega
    · rw [h1, Flt.toU64, hs, Nat.mul_div_cancel _ (Nat.two_pow_pos _)]; rfl
  refine ⟨r, h2, h1, hi, rfl, rfl, rfl, rfl, fun k hk => ?_⟩
  simp only [fromUnsigned]
  rw [eq_small _ k hk, eq_small _ k hk]
  congr 1
  rw [eq_iff_iff]
  have h53 : x = k ↔ r = k := by
    constructor
    · rintro rfl
      have := h2.2 x 0 (by omega)
      rw [pow_zero, mul_one, sub_self, abs_zero] at this
      have := abs_eq_zero.1 (le_antisymm this (abs_nonneg _))
      omega
    · rintro rfl
      rcases Nat.lt_or_ge x (2 ^ 53) with hx | hx
      · have := h2.2 x 0 hx
        rw [pow_zero, mul_one, sub_self, abs_zero] at this
        have := abs_eq_zero.1 (le_antisymm this (abs_nonneg _))
        omega
      · have := h2.2 (2 ^ 52) 1 (by omega)
        rw [abs_sub_comm, abs_of_nonneg (by omega), abs_sub_comm, abs_of_nonneg (by push_cast; omega)] at this
        push_cast at this
        omega
  rw [h53]
  omega

/-- C74: a text of digits, however long, gets the category of an integer: the nearest integer that is an `f64`, or the last `u64` if
that is larger. -/
theorem C74_digits (t : PluralRuleType) (id : LangId) (pr : PluralRules) (h : create id t = .ok pr) (sign : Str)
    (hs : sign = [] ∨ sign = ['-']) (ip : List (Fin 10)) (hi : ip ≠ []) : ∃ r, NearestInt r (digitsNum ip) ∧
      select pr (tryFromStr (sign ++ digitText ip)) = select (ε := OpsErr) pr (.ok (fromUnsigned (min r (2 ^ 64 - 1)))) := by
  have h0 := sign_cases sign hs ip hi []
  simp only [List.append_nil] at h0
  obtain ⟨r, h1, -, h2⟩ := int_alike (digitsNum ip)
  exact ⟨r, h1, by rw [h0, Strings.tryFromStr_int ip hi, select_alike t id pr h h2]⟩

example : ∃ pr r, create ⟨some c!"pl", none, none, none⟩ .CARDINAL = .ok pr ∧ NearestInt r 9007199254740993 ∧
    select pr (tryFromStr c!"9007199254740993") = select (ε := OpsErr) pr (.ok (fromUnsigned (min r (2 ^ 64 - 1)))) := by
  obtain ⟨pr, h⟩ := (C01_create_iff_listed ⟨some c!"pl", none, none, none⟩ .CARDINAL).1.2 (by decide +kernel)
  obtain ⟨r, h1, h2⟩ := C74_digits _ _ pr h [] (.inl rfl) [9,0,0,7,1,9,9,2,5,4,7,4,0,9,9,3] (by simp)
  exact ⟨pr, r, h, h1, h2⟩

/-- C74: so the category is right exactly if that integer has the category of the number and is not a wrong number (C66). -/
theorem C74_right (t : PluralRuleType) (id : LangId) (pr : PluralRules) (h : create id t = .ok pr) (sign : Str)
    (hs : sign = [] ∨ sign = ['-']) (ip : List (Fin 10)) (hi : ip ≠ []) : ∃ r c c', NearestInt r (digitsNum ip) ∧
      select pr (tryFromStr (sign ++ digitText ip)) = some (.ok c) ∧ CldrCategory t id ⟨min r (2 ^ 64 - 1), []⟩ c' ∧
      (c = c' ↔ ¬ IsWrong t id ⟨min r (2 ^ 64 - 1), []⟩) := by
  obtain ⟨r, h1, h2⟩ := C74_digits t id pr h sign hs ip hi
  obtain ⟨c, c', h3, h4⟩ := C66_integers t id pr h (min r (2 ^ 64 - 1)) (by omega)
  exact ⟨r, c, c', h1, h2.trans h3, h4⟩

/-- C74 tells numbers apart: 9007199254740993 is no `f64`; 9007199254740992 and 9007199254740994 are the nearest. -/
example : NearestInt 9007199254740992 9007199254740992 ∧ ¬ NearestInt 9007199254740993 9007199254740993 := by
  refine ⟨⟨⟨2 ^ 52, 1, by decide, by decide⟩, fun c e _ => by simp⟩, ?_⟩
  rintro ⟨⟨c, e, h1, h2⟩, -⟩
  cases e with
  | zero => simp at h2; omega
  | succ e => rw [pow_succ, ← mul_assoc] at h2; omega

/-! ## C75: every `f64` -/

/-- The sign of a text. -/
def signText (neg : Bool) : Str := if neg then ['-'] else []

theorem signText_cases (neg : Bool) : signText neg = [] ∨ signText neg = ['-'] := by cases neg <;> simp [signText]

/-- The text of a finite float is a sign and a decimal, with a point exactly if it is no integer. -/
theorem float_text (F : Fmt) (hF : 0 < F.prec) (hF' : F.prec ≤ 53) (neg : Bool) (m : Nat) (hm : IsFloat F (.fin neg m)) :
    (2 ^ F.scale ∣ m ∧ ∃ ip, ip ≠ [] ∧ Flt.display F (.fin neg m) = signText neg ++ digitText ip ∧
      Flt.rnd F (digitsNum ip) = m) ∨
    (¬ 2 ^ F.scale ∣ m ∧ ∃ ip fp, ip ≠ [] ∧ fp ≠ [] ∧ Flt.display F (.fin neg m) = signText neg ++ decText ip fp ∧
      dropTrailingZeros fp = fp ∧ digitsNum ip = m / 2 ^ F.scale ∧ digitsNum ip < 2 ^ 64 ∧ digitsNum fp < 2 ^ 64 ∧
      Flt.rnd F (decOf ip fp).value = m) := by
  obtain ⟨hr, hlt⟩ := hm
  have hdis : ∀ s, Flt.displayMag F m = s → Flt.display F (.fin neg m) = signText neg ++ s := by
    intro s hs
    rw [display_fin, hs]
    cases neg <;> rfl
  rcases Nat.eq_zero_or_pos m with rfl | h0
  · left
    refine ⟨dvd_zero _, [0], by simp, hdis _ (by unfold Flt.displayMag; rfl), ?_⟩
    simp [digitsNum, Flt.rnd_zero F hF]
  · obtain ⟨d, e, h1, h2, h3, -, h5⟩ := Flt.shortest_spec F hF hF' m hr h0 hlt
    have h6 := Flt.exp_neg_iff F hF m d e hr hlt h2 h5
    have h7 := Flt.last_digit F m d e hlt h2 h5
    have h2' := (Flt.reads_iff F m d e hlt).1 h2
    rcases le_or_gt 0 e with h | h
    · obtain ⟨k, rfl⟩ := Int.eq_ofNat_of_zero_le h
      refine .inl ⟨h6.1 h, natDigits d ++ List.replicate k 0, by simp [natDigits_ne], hdis _ (by rw [h1, FloatText.decimalText_int]), ?_⟩
      rw [FloatText.natDigits_int, ← h2', zpow_natCast]; push_cast; rfl
    · obtain ⟨j, hj⟩ := Int.eq_ofNat_of_zero_le (by omega : 0 ≤ -e)
      obtain rfl : e = -(j : Int) := by omega
      have hn : ¬ 2 ^ F.scale ∣ m := fun hh => absurd (h6.2 hh) (by omega)
      have h8 := Flt.int_part F hF m d j hr hlt h2 hn
      obtain ⟨ip, fp, g1, g2, g3, g4, g5⟩ := FloatText.decimalText_frac d j (by omega)
      have hfp : fp ≠ [] := by rintro rfl; simp at g2; omega
      have hd : d < 2 ^ 64 := by omega
      refine .inr ⟨hn, ip, fp, g1, hfp, hdis _ (by rw [h1, g3]), FloatText.no_trailing fp ?_, by rw [g4, h8], ?_, ?_, ?_⟩
      · rw [g5]
        intro hc
        apply h7
        have h10 : 10 ∣ 10 ^ j := dvd_pow_self 10 (by omega)
        rw [← Nat.div_add_mod d (10 ^ j)]
        exact dvd_add (Dvd.dvd.mul_right h10 _) hc
      · rw [g4]; exact lt_of_le_of_lt (Nat.div_le_self _ _) hd
      · rw [g5]; exact lt_of_le_of_lt (Nat.mod_le _ _) hd
      · rw [← h2']
        congr 1
        have hval : (decOf ip fp).value = ((allDigits (decOf ip fp) : Nat) : ℚ) / ((10 ^ fp.length : Nat) : ℚ) := by
          rw [Dec.value_eq_sig, sig_allDigits]; push_cast; rfl
        have hall : allDigits (decOf ip fp) = d := by
          simp only [allDigits, decOf, Dec.i, Dec.v, Dec.f, g4, g5, g2]
          rw [Nat.mul_comm]; exact Nat.div_add_mod _ _
        rw [hval, hall, g2, zpow_neg, zpow_natCast, div_eq_mul_inv]; push_cast; rfl

theorem dec_value (d : Dec) : d.value = ((allDigits d : Nat) : ℚ) / ((10 ^ d.v : Nat) : ℚ) := by
  rw [Dec.value_eq_sig, sig_allDigits]; push_cast; rfl

theorem dec_round (ip fp : List (Fin 10)) (h : digitsNum ip < 2 ^ 64) :
    Flt.ofRat b64 false (allDigits (decOf ip fp)) (10 ^ (decOf ip fp).v) = .fin false (Flt.rnd b64 (decOf ip fp).value) := by
  have h64 : allDigits (decOf ip fp) < 2 ^ 64 * 10 ^ (decOf ip fp).v := by
    have hf : (decOf ip fp).f < 10 ^ (decOf ip fp).v := (decOf ip fp).f_lt
    have := Nat.mul_le_mul_right (10 ^ (decOf ip fp).v) h
    rw [Nat.succ_mul] at this
    simp only [allDigits]
    have e : (decOf ip fp).i = digitsNum ip := rfl
    rw [e]; omega
  rw [ofRat_fin _ _ 64 (by positivity) (by omega) h64, dec_value, Flt.rnd_div b64 _ _ (by positivity)]

/-- C75: every finite `f64` that is no integer: the category is that of the decimal which is shown, unless that is a wrong number of
the locale. -/
theorem C75_fraction (t : PluralRuleType) (id : LangId) (pr : PluralRules) (h : create id t = .ok pr) (neg : Bool) (m : Nat)
    (hm : IsFloat b64 (.fin neg m)) (hn : ¬ 2 ^ 1074 ∣ m) : ∃ ip fp c c', fp ≠ [] ∧
      Flt.display b64 (.fin neg m) = signText neg ++ decText ip fp ∧ select pr (tryFromFloat b64 (.fin neg m)) = some (.ok c) ∧
      CldrCategory t id (decOf ip fp) c' ∧ (c = c' ↔ ¬ IsWrong t id (decOf ip fp)) := by
  rcases float_text b64 (by decide) (by decide) neg m hm with ⟨hd, -⟩ | ⟨-, ip, fp, h1, h2, h3, -, -, h4, h5, h6⟩
  · exact absurd hd hn
  · obtain ⟨po, h7, h8, -⟩ := C11_decimal (signText neg) (signText_cases neg) ip fp h1 h2 h4 h5
    have ha : Alike po (ideal (decOf ip fp)) := by
      refine alike_ideal po _ h8.i h8.v h8.w h8.f h8.t fun k hk => ?_
      rw [h8.n_eq, dec_round ip fp h4, h6, eq_ofNat _ k (by omega)]
      constructor
      · intro e; exact absurd ⟨k, by rw [e, Nat.mul_comm]⟩ hn
      · intro hv
        rw [hv] at h6
        rw [← h6]
        refine Flt.rnd_exact b64 (by decide) _ (by positivity) _ ⟨k, 1074, ?_, rfl⟩ ?_
        · show k < 2 ^ 53; omega
        · show (k : ℚ) * 2 ^ 1074 = _; push_cast; ring
    obtain ⟨c, c', h9, h10⟩ := select_exactly t id pr h _ _ (ideal_represents (decOf ip fp))
    refine ⟨ip, fp, c, c', h2, h3, ?_, h10⟩
    rw [tryFromFloat, h3, h7, select_alike t id pr h ha, h9]

/-- The `f64` 0.1 + 0.2. -/
example : ∃ pr c, create ⟨some c!"pl", none, none, none⟩ .CARDINAL = .ok pr ∧
    select pr (tryFromFloat b64 (.fin false (1351079888211149 * 2 ^ 1022))) = some (.ok c) := by
  obtain ⟨pr, h⟩ := (C01_create_iff_listed ⟨some c!"pl", none, none, none⟩ .CARDINAL).1.2 (by decide +kernel)
  obtain ⟨ip, fp, c, c', -, -, h1, -⟩ := C75_fraction _ _ pr h false (1351079888211149 * 2 ^ 1022)
    ⟨⟨1351079888211149, 1022, by decide, rfl⟩, by decide +kernel⟩ (by decide +kernel)
  exact ⟨pr, c, h, h1⟩

/-- C75: every finite `f64` that is an integer: the category is that of the integer, or of the last `u64` if it is larger. -/
theorem C75_integer (t : PluralRuleType) (id : LangId) (pr : PluralRules) (h : create id t = .ok pr) (neg : Bool) (k : Nat)
    (hm : IsFloat b64 (.fin neg (k * 2 ^ 1074))) : select pr (tryFromFloat b64 (.fin neg (k * 2 ^ 1074))) =
      select (ε := OpsErr) pr (.ok (fromUnsigned (min k (2 ^ 64 - 1)))) := by
  rcases float_text b64 (by decide) (by decide) neg _ hm with ⟨-, ip, h1, h2, h3⟩ | ⟨hn, -⟩
  · have h0 := sign_cases (signText neg) (signText_cases neg) ip h1 []
    simp only [List.append_nil] at h0
    obtain ⟨r, -, h4, h5⟩ := int_alike (digitsNum ip)
    have e : ((digitsNum ip : Nat) : ℚ) = (digitsNum ip : ℚ) / ((1 : Nat) : ℚ) := by simp
    rw [e, Flt.rnd_div b64 _ 1 one_pos, h4] at h3
    have hr : r = k := Nat.eq_of_mul_eq_mul_right (Nat.two_pow_pos 1074) h3
    rw [tryFromFloat, h2, h0, Strings.tryFromStr_int ip h1, select_alike t id pr h h5, hr]
  · exact absurd (Dvd.intro_left _ rfl) hn

example : ∃ pr, create ⟨some c!"pl", none, none, none⟩ .CARDINAL = .ok pr ∧
    select pr (tryFromFloat b64 (.fin true (2 ^ 60 * 2 ^ 1074))) = select (ε := OpsErr) pr (.ok (fromUnsigned (min (2 ^ 60) (2 ^ 64 - 1)))) := by
  obtain ⟨pr, h⟩ := (C01_create_iff_listed ⟨some c!"pl", none, none, none⟩ .CARDINAL).1.2 (by decide +kernel)
  exact ⟨pr, h, C75_integer _ _ pr h true (2 ^ 60) ⟨⟨1, 1134, by decide, by decide +kernel⟩, by decide +kernel⟩⟩

/-- C75: the infinities get the category of the last `u64`. -/
theorem C75_infinite (t : PluralRuleType) (id : LangId) (pr : PluralRules) (h : create id t = .ok pr) (neg : Bool) :
    select pr (tryFromFloat b64 (.inf neg)) = select (ε := OpsErr) pr (.ok (fromUnsigned (2 ^ 64 - 1))) := by
  rw [(C20_special neg).1]
  refine select_alike t id pr h ⟨rfl, rfl, rfl, rfl, rfl, fun k hk => ?_⟩
  simp only [fromUnsigned]
  rw [eq_small _ k hk, ofNat_exact k (by omega), decide_eq_false (by omega)]
  rfl

/-- The double 0.30000000000000004 is a fraction; 2^60, shown as 1152921504606847000, is an integer. -/
example : IsFloat b64 (.fin false (1351079888211149 * 2 ^ 1022)) ∧ ¬ 2 ^ 1074 ∣ 1351079888211149 * 2 ^ 1022 ∧
    Flt.display b64 (.fin false (1351079888211149 * 2 ^ 1022)) = signText false ++ decText [0] [3, 0, 0, 0, 0, 0, 0, 0, 0, 0, 0, 0, 0, 0, 0, 0, 4] :=
  ⟨⟨⟨1351079888211149, 1022, by decide, rfl⟩, by decide +kernel⟩, by decide +kernel, by decide +kernel⟩
example : IsFloat b64 (.fin false (2 ^ 60 * 2 ^ 1074)) := ⟨⟨1, 1134, by decide, by decide +kernel⟩, by decide +kernel⟩

/-! ## C76: every `f32` -/

/-- C76: every finite `f32` that is no integer. -/
theorem C76_fraction (t : PluralRuleType) (id : LangId) (pr : PluralRules) (h : create id t = .ok pr) (neg : Bool) (m : Nat)
    (hm : IsFloat b32 (.fin neg m)) (hn : ¬ 2 ^ 149 ∣ m) : ∃ ip fp c c', fp ≠ [] ∧
      Flt.display b32 (.fin neg m) = signText neg ++ decText ip fp ∧ select pr (tryFromFloat b32 (.fin neg m)) = some (.ok c) ∧
      CldrCategory t id (decOf ip fp) c' ∧ (c = c' ↔ ¬ IsWrong t id (decOf ip fp)) := by
  rcases float_text b32 (by decide) (by decide) neg m hm with ⟨hd, -⟩ | ⟨-, ip, fp, h1, h2, h3, -, -, h4, h5, h6⟩
  · exact absurd hd hn
  · have h0 : 0 ≤ (decOf ip fp).value := by rw [dec_value]; positivity
    have ha : Apart (decOf ip fp) := by
      intro k hk
      right
      rcases Nat.eq_zero_or_pos k with rfl | hk0
      · refine .inl ⟨rfl, ?_⟩
        by_contra hc
        rw [not_le] at hc
        -- it would be shown as 0
        have h7 := Flt.rnd_error b32 (by decide) _ h0
        have hs : b32.scale = 149 := rfl
        have hp : b32.prec = 24 := rfl
        rw [h6, hs, hp] at h7
        have hm1 : 1 ≤ m := by
          rcases Nat.eq_zero_or_pos m with rfl | h
          · exact absurd (dvd_zero _) hn
          · exact h
        have hm1' : (1 : ℚ) ≤ m := by exact_mod_cast hm1
        generalize (decOf ip fp).value = y at *
        have h8 : y < 1 / 10 ^ 50 := lt_of_lt_of_le hc
          (one_div_le_one_div_of_le (by positivity) (pow_le_pow_right₀ (by norm_num) (by norm_num)))
        have h9 := le_abs_self ((m : ℚ) - y * 2 ^ 149)
        rcases le_max_iff.1 h7 with h10 | h10 <;> norm_num at h10 h9 h8 <;> linarith
      · refine .inr ⟨hk0, ?_⟩
        by_contra hc
        rw [not_le] at hc
        -- it would be shown as k
        have hk1 : (1 : ℚ) ≤ k := by exact_mod_cast hk0
        have h7 := Flt.rnd_close b32 (by decide) _ h0 (k * 2 ^ 149) ⟨k, 149, by show k < 2 ^ 24; omega, rfl⟩ (by
          show |(decOf ip fp).value * 2 ^ 149 - ((k * 2 ^ 149 : Nat) : ℚ)| * 2 ^ 25 < ((k * 2 ^ 149 : Nat) : ℚ)
          have e : (decOf ip fp).value * 2 ^ 149 - ((k * 2 ^ 149 : Nat) : ℚ) = ((decOf ip fp).value - k) * 2 ^ 149 := by
            push_cast; ring
          rw [e, abs_mul, abs_of_pos (by positivity : (0 : ℚ) < 2 ^ 149)]
          push_cast
          norm_num at hc ⊢
          linarith)
        rw [h6] at h7
        exact hn (h7 ▸ Dvd.intro_left _ rfl)
    obtain ⟨c, c', h9, h10⟩ := C73_texts t id pr h (signText neg) (signText_cases neg) ip fp h1 h2 h4 h5 ha
    exact ⟨ip, fp, c, c', h2, h3, by rw [tryFromFloat, h3, h9], h10⟩

/-- The `f32` 0.1. -/
example : ∃ pr c, create ⟨some c!"pl", none, none, none⟩ .CARDINAL = .ok pr ∧
    select pr (tryFromFloat b32 (.fin false (13421773 * 2 ^ 122))) = some (.ok c) := by
  obtain ⟨pr, h⟩ := (C01_create_iff_listed ⟨some c!"pl", none, none, none⟩ .CARDINAL).1.2 (by decide +kernel)
  obtain ⟨ip, fp, c, c', -, -, h1, -⟩ := C76_fraction _ _ pr h false (13421773 * 2 ^ 122)
    ⟨⟨13421773, 122, by decide, rfl⟩, by decide +kernel⟩ (by decide +kernel)
  exact ⟨pr, c, h, h1⟩

/-- C76: every finite `f32` that is an integer is shown as digits, of which C74 gives the category. -/
theorem C76_integer (t : PluralRuleType) (id : LangId) (pr : PluralRules) (h : create id t = .ok pr) (neg : Bool) (k : Nat)
    (hm : IsFloat b32 (.fin neg (k * 2 ^ 149))) : ∃ ip r, Flt.display b32 (.fin neg (k * 2 ^ 149)) = signText neg ++ digitText ip ∧
      NearestInt r (digitsNum ip) ∧ select pr (tryFromFloat b32 (.fin neg (k * 2 ^ 149))) =
      select (ε := OpsErr) pr (.ok (fromUnsigned (min r (2 ^ 64 - 1)))) := by
  rcases float_text b32 (by decide) (by decide) neg _ hm with ⟨-, ip, h1, h2, -⟩ | ⟨hn, -⟩
  · obtain ⟨r, h3, h4⟩ := C74_digits t id pr h (signText neg) (signText_cases neg) ip h1
    exact ⟨ip, r, h2, h3, by rw [tryFromFloat, h2, h4]⟩
  · exact absurd (Dvd.intro_left _ rfl) hn

/-- The `f32` 0.1 is a fraction; 2^60 is shown as 1152921500000000000, a multiple of 2^11 but no `f32`. -/
example : IsFloat b32 (.fin false (13421773 * 2 ^ 122)) ∧ ¬ 2 ^ 149 ∣ 13421773 * 2 ^ 122 :=
  ⟨⟨⟨13421773, 122, by decide, rfl⟩, by decide +kernel⟩, by decide +kernel⟩
example : IsFloat b32 (.fin false (2 ^ 60 * 2 ^ 149)) ∧ Flt.display b32 (.fin false (2 ^ 60 * 2 ^ 149)) = c!"1152921500000000000" :=
  ⟨⟨⟨1, 209, by decide, by decide +kernel⟩, by decide +kernel⟩, by decide +kernel⟩

end Verif.Props
