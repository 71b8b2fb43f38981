import Verif.Props.NotNumbers
import Verif.Props.Rounding

/-!
# C85: the categories of texts with an exponent

"15e-1" writes 1.5, but has `i = 1` and no fraction digits (C68).  Its category is mostly that of 1.
-/

namespace Verif.Props
open Verif Api Rust Uts35 Spec Sem PluralOperands Verif.Grammar Strings

attribute [local irreducible] Flt.ofRat Flt.roundMag

/-- Where a number with an exponent that is no integer does not get the category of its integer part: locales, with the integer parts
and the categories. -/
def cutExceptions : PluralRuleType → List (List Str × List (Nat × PluralCategory))
  | .CARDINAL => [
      ([c!"af", c!"am", c!"an", c!"as", c!"asa", c!"az", c!"bem", c!"bez", c!"bg", c!"bn", c!"brx", c!"ce", c!"cgg", c!"chr",
        c!"ckb", c!"da", c!"dv", c!"ee", c!"el", c!"eo", c!"es", c!"eu", c!"fa", c!"fo", c!"fur", c!"gsw", c!"gu", c!"ha",
        c!"haw", c!"hi", c!"hu", c!"jgo", c!"jmc", c!"ka", c!"kaj", c!"kcg", c!"kk", c!"kkj", c!"kl", c!"kn", c!"ks", c!"ksb",
        c!"ku", c!"ky", c!"lb", c!"lg", c!"mas", c!"mgo", c!"ml", c!"mn", c!"mr", c!"nah", c!"nb", c!"nd", c!"ne", c!"nn",
        c!"nnh", c!"no", c!"nr", c!"ny", c!"nyn", c!"om", c!"or", c!"os", c!"pap", c!"pcm", c!"ps", c!"rm", c!"rof", c!"rwk",
        c!"saq", c!"sd", c!"sdh", c!"seh", c!"shi", c!"sn", c!"so", c!"sq", c!"ss", c!"ssy", c!"st", c!"syr", c!"ta", c!"te",
        c!"teo", c!"tig", c!"tk", c!"tn", c!"tr", c!"ts", c!"ug", c!"uz", c!"ve", c!"vo", c!"vun", c!"wae", c!"xh", c!"xog",
        c!"zu"], [(1, .OTHER)]),
      ([c!"ar", c!"ars"], [(0, .OTHER), (1, .OTHER), (2, .OTHER)]),
      ([c!"br"], [(0, .MANY)]),
      ([c!"cy"], [(0, .OTHER), (1, .OTHER), (2, .OTHER), (3, .OTHER), (6, .OTHER)]),
      ([c!"ga", c!"iu", c!"naq", c!"sat", c!"se", c!"sma", c!"smi", c!"smj", c!"smn", c!"sms"], [(1, .OTHER), (2, .OTHER)]),
      ([c!"gd"], [(1, .OTHER), (2, .OTHER), (11, .OTHER), (12, .OTHER)]),
      ([c!"ksh", c!"mt", c!"si"], [(0, .OTHER), (1, .OTHER)]),
      ([c!"kw"], [(0, .OTHER), (1, .MANY)]),
      ([c!"lag"], [(0, .ONE)]),
      ([c!"mo", c!"ro"], [(0, .OTHER)])]
  | .ORDINAL => [
      ([c!"as", c!"bn"], [(1, .OTHER), (2, .OTHER), (3, .OTHER), (4, .OTHER), (5, .OTHER), (6, .OTHER), (7, .OTHER), (8,
        .OTHER), (9, .OTHER), (10, .OTHER)]),
      ([c!"ca", c!"mr"], [(1, .OTHER), (2, .OTHER), (3, .OTHER), (4, .OTHER)]),
      ([c!"cy"], [(0, .OTHER), (1, .OTHER), (2, .OTHER), (3, .OTHER), (4, .OTHER), (5, .OTHER), (6, .OTHER), (7, .OTHER), (8,
        .OTHER), (9, .OTHER)]),
      ([c!"fil", c!"fr", c!"ga", c!"hy", c!"lo", c!"mo", c!"ms", c!"ro", c!"sq", c!"tl", c!"vi"], [(1, .OTHER)]),
      ([c!"gd"], [(1, .OTHER), (2, .OTHER), (3, .OTHER), (11, .OTHER), (12, .OTHER), (13, .OTHER)]),
      ([c!"gu", c!"hi"], [(1, .OTHER), (2, .OTHER), (3, .OTHER), (4, .OTHER), (6, .OTHER)]),
      ([c!"hu"], [(1, .OTHER), (5, .OTHER)]),
      ([c!"it", c!"sc", c!"scn"], [(8, .OTHER), (11, .OTHER), (80, .OTHER), (800, .OTHER)]),
      ([c!"kk"], [(0, .MANY)]),
      ([c!"or"], [(1, .OTHER), (2, .OTHER), (3, .OTHER), (4, .OTHER), (5, .OTHER), (6, .OTHER)]),
      ([c!"tk"], [(10, .OTHER)])]

/-- The locale is an exception for the integer part, with the category. -/
def IsCut (t : PluralRuleType) (id : LangId) (i : Nat) (c : PluralCategory) : Prop :=
  ∃ x ∈ cutExceptions t, (∃ key ∈ x.1, LangId.parse key = some id) ∧ (i, c) ∈ x.2

/-! ## The functions compare `n` with a few integers -/

/-- The integers that `n` is compared with. -/
def nTests : RExpr → List Nat
  | .int _ | .flt _ | .field _ => []
  | .cmp _ (.field .N) (.flt k) => [k]
  | .rem a b | .cmp _ a b | .and a b | .or a b => nTests a ++ nTests b
  | .not a | .contains _ _ a => nTests a

theorem eval_tests {po : PluralOperands} {x : Flt} (e : RExpr) (he : fewTests e = true)
    (h : ∀ k ∈ nTests e, Flt.eq po.n (Flt.ofNat b64 k) = Flt.eq x (Flt.ofNat b64 k)) : e.eval po = e.eval { po with n := x } := by
  induction e using fewTests.induct with
  | case1 | case2 => rfl
  | case3 y =>
    simp only [fewTests, bne_iff_ne] at he
    cases y <;> simp_all [RExpr.eval, readField]
  | case4 op k =>
    simp only [fewTests, Bool.and_eq_true, Bool.or_eq_true, beq_iff_eq, decide_eq_true_eq] at he
    have := h k (by simp [nTests])
    rcases he.1 with rfl | rfl <;> simp only [RExpr.eval, readField, cmpFlt, this]
  | _ => simp_all [fewTests, RExpr.eval, nTests]

def armTests (f : Closure) : List Nat := (f.arms.map fun a => nTests a.1).flatten

theorem call_tests {po : PluralOperands} {x : Flt} (f : Closure) (hf : f.arms.all (fun a => fewTests a.1) = true)
    (h : ∀ k ∈ armTests f, Flt.eq po.n (Flt.ofNat b64 k) = Flt.eq x (Flt.ofNat b64 k)) : f.call po = f.call { po with n := x } := by
  obtain ⟨arms, last⟩ := f
  simp only [Closure.call]
  induction arms with
  | nil => rfl
  | cons a arms ih =>
    simp only [List.all_cons, Bool.and_eq_true] at hf
    simp only [armTests, List.map_cons, List.flatten_cons, List.mem_append] at h
    simp only [evalArms, eval_tests a.1 hf.1 fun k hk => h k (.inl hk), ih hf.2 fun k hk => h k (.inr hk)]

theorem cut_table (t : PluralRuleType) : ∀ e ∈ table t, ∀ x ∈ cutExceptions t, (∃ key ∈ x.1, LangId.parse key = some e.1) →
    ∀ y ∈ x.2, e.2.call ⟨.nan, y.1, 0, 0, 0, 0⟩ = some y.2 := by
  cases t <;> decide +kernel

theorem uncut_table (t : PluralRuleType) : ∀ e ∈ table t, ∀ i ∈ armTests e.2,
    e.2.call ⟨.nan, i, 0, 0, 0, 0⟩ = e.2.call (fromUnsigned i) ∨
      ∃ x ∈ cutExceptions t, (∃ y ∈ x.2, y.1 = i) ∧ ∃ key ∈ x.1, LangId.parse key = some e.1 := by
  cases t <;> decide +kernel

theorem tests_few (t : PluralRuleType) : ∀ e ∈ table t, ∀ k ∈ armTests e.2, k ≤ 800 := by
  cases t <;> decide +kernel

/-- Operands of which `n` is no integer up to 800 and only `i` is not zero. -/
theorem select_cut (t : PluralRuleType) (id : LangId) (pr : PluralRules) (h : create id t = .ok pr) (x : Flt) (i : Nat)
    (hx : ∀ k ≤ 800, Flt.eq x (Flt.ofNat b64 k) = false) (c : PluralCategory) :
    select (ε := OpsErr) pr (.ok ⟨x, i, 0, 0, 0, 0⟩) = some (.ok c) ↔
      IsCut t id i c ∨ (∀ c', ¬ IsCut t id i c') ∧ select (ε := OpsErr) pr (.ok (fromUnsigned i)) = some (.ok c) := by
  have e := select_alike t id pr h (po := ⟨x, i, 0, 0, 0, 0⟩) (po' := ⟨.nan, i, 0, 0, 0, 0⟩)
    ⟨rfl, rfl, rfl, rfl, rfl, fun k hk => by rw [hx k hk]; cases Flt.ofNat b64 k <;> rfl⟩
  obtain ⟨h1, h2⟩ := (C02_create_own_rule id t pr).1 h
  have hfew := List.all_eq_true.1 (tables_few t) _ h2
  rw [e]
  have hcut : ∀ c', IsCut t id i c' → pr.function.call ⟨.nan, i, 0, 0, 0, 0⟩ = some c' :=
    fun c' ⟨y, h3, h4, h5⟩ => cut_table t _ h2 y h3 h4 _ h5
  have hsel : ∀ po c, select (ε := OpsErr) pr (.ok po) = some (.ok c) ↔ pr.function.call po = some c := by
    intro po c
    simp only [select]
    cases pr.function.call po <;> simp
  rw [hsel, hsel]
  by_cases hex : ∃ c', IsCut t id i c'
  · obtain ⟨c', hc'⟩ := hex
    constructor
    · intro h3
      rw [hcut c' hc'] at h3
      cases h3
      exact .inl hc'
    · rintro (h3 | ⟨h3, -⟩)
      · exact hcut c h3
      · exact absurd hc' (h3 c')
  · have hno : ∀ c', ¬ IsCut t id i c' := fun c' hc' => hex ⟨c', hc'⟩
    have heq : pr.function.call ⟨.nan, i, 0, 0, 0, 0⟩ = pr.function.call (fromUnsigned i) := by
      by_cases hi : i ∈ armTests pr.function
      · rcases uncut_table t _ h2 i hi with h3 | ⟨y, h3, ⟨z, h4, rfl⟩, h5⟩
        · exact h3
        · exact absurd ⟨y, h3, h5, h4⟩ (hno z.2)
      · exact (call_tests (po := fromUnsigned i) (x := .nan) pr.function hfew fun k hk => by
          have hk8 : k ≤ 800 := tests_few t _ h2 k hk
          simp only [fromUnsigned]
          rw [eq_small i k hk8, decide_eq_false (by rintro rfl; exact hi hk)]
          cases Flt.ofNat b64 k <;> rfl).symm
    rw [heq]
    exact ⟨fun h3 => .inr ⟨hno, h3⟩, fun h3 => h3.elim (fun h3 => absurd h3 (hno c)) (·.2)⟩

theorem Ieee.nonneg {F : Fmt} {y : ℚ} {n : Flt} (h : Ieee F y n) : n = .inf false ∨ ∃ m, n = .fin false m := by
  cases h with
  | overflow _ => exact .inl rfl
  | finite m _ _ _ _ => exact .inr ⟨m, rfl⟩

theorem operands_exponent (sign : Str) (hs : sign = [] ∨ sign = ['-']) (ip : List (Fin 10)) (hi : ip ≠ []) (x : Str) (e : Int)
    (hx : ExponentOf x e) (n : Flt) (hn : Ieee b64 (digitsNum ip * 10 ^ e) n) :
    tryFromStr (sign ++ digitText ip ++ x) = .ok ⟨n, truncated n, 0, 0, 0, 0⟩ := by
  rw [C78_operands, List.append_assoc]
  exact .plain sign _ _ hs (.number false ip x e n hi hx hn)

/-- C85: digits with an exponent, if the nearest `f64` is an integer or infinite: the category of that integer, or of the last `u64`. -/
theorem C85_integer (t : PluralRuleType) (id : LangId) (pr : PluralRules) (h : create id t = .ok pr) (sign : Str)
    (hs : sign = [] ∨ sign = ['-']) (ip : List (Fin 10)) (hi : ip ≠ []) (x : Str) (e : Int) (hx : ExponentOf x e) (n : Flt)
    (hn : Ieee b64 (digitsNum ip * 10 ^ e) n) :
    (n = .inf false → select pr (tryFromStr (sign ++ digitText ip ++ x)) = select (ε := OpsErr) pr (.ok (fromUnsigned (2 ^ 64 - 1)))) ∧
    ∀ k, n = .fin false (k * 2 ^ 1074) → select pr (tryFromStr (sign ++ digitText ip ++ x)) =
      select (ε := OpsErr) pr (.ok (fromUnsigned (min k (2 ^ 64 - 1)))) := by
  rw [operands_exponent sign hs ip hi x e hx n hn]
  constructor
  · rintro rfl
    refine select_alike t id pr h ⟨rfl, rfl, rfl, rfl, rfl, fun k hk => ?_⟩
    simp only [fromUnsigned]
    rw [eq_small _ k hk, ofNat_exact k (by omega), decide_eq_false (by omega)]
    rfl
  · rintro k rfl
    refine select_alike t id pr h ⟨?_, rfl, rfl, rfl, rfl, fun j hj => ?_⟩
    · simp only [truncated, fromUnsigned, Nat.mul_div_cancel _ (Nat.two_pow_pos 1074)]
    · simp only [fromUnsigned]
      rw [eq_small _ j hj, Bool.eq_iff_iff, eq_ofNat _ j (by omega), decide_eq_true_eq]
      constructor
      · intro h; have := Nat.eq_of_mul_eq_mul_right (Nat.two_pow_pos 1074) h; omega
      · intro h; have : k = j := by omega
        rw [this]

example : ∃ pr, create { language := some c!"pl", script := none, region := none, variants := none } .CARDINAL = .ok pr ∧
    select pr (tryFromStr c!"12e1") = select (ε := OpsErr) pr (.ok (fromUnsigned 120)) := by
  obtain ⟨pr, h⟩ : ∃ pr, create { language := some c!"pl", script := none, region := none, variants := none } .CARDINAL = .ok pr :=
    (C01_create_iff_listed _ _).1.2 (by decide +kernel)
  have hi := ieee_ofDec b64 (.inl rfl) (digitsNum [1, 2]) 1
  have e : Flt.ofDec b64 false (digitsNum [1, 2]) 1 = .fin false (120 * 2 ^ 1074) := by decide +kernel
  rw [e] at hi
  exact ⟨pr, h, (C85_integer _ _ pr h [] (.inl rfl) [1, 2] (by simp) c!"e1" 1 (.plus 'e' [] [1] (.inl rfl) (.inl rfl) (by simp)) _ hi).2 120 rfl⟩

/-- C85: if it is no integer: the category of its integer part, except in the listed locales, for the listed integer parts. -/
theorem C85_fraction (t : PluralRuleType) (id : LangId) (pr : PluralRules) (h : create id t = .ok pr) (sign : Str)
    (hs : sign = [] ∨ sign = ['-']) (ip : List (Fin 10)) (hi : ip ≠ []) (x : Str) (e : Int) (hx : ExponentOf x e) (m : Nat)
    (hn : Ieee b64 (digitsNum ip * 10 ^ e) (.fin false m)) (hm : ¬ 2 ^ 1074 ∣ m) (c : PluralCategory) :
    select pr (tryFromStr (sign ++ digitText ip ++ x)) = some (.ok c) ↔ IsCut t id (m / 2 ^ 1074) c ∨
      (∀ c', ¬ IsCut t id (m / 2 ^ 1074) c') ∧ select (ε := OpsErr) pr (.ok (fromUnsigned (m / 2 ^ 1074))) = some (.ok c) := by
  rw [operands_exponent sign hs ip hi x e hx _ hn]
  have hlt : m / 2 ^ 1074 < 2 ^ 53 := by
    cases hn with
    | finite _ _ hr _ _ =>
      obtain ⟨a, b, ha, rfl⟩ := hr
      have hb : b < 1074 := by
        by_contra hb
        exact hm (Dvd.dvd.mul_left (Nat.pow_dvd_pow 2 (by omega)) a)
      rw [Nat.div_lt_iff_lt_mul (Nat.two_pow_pos _)]
      exact Nat.mul_lt_mul'' ha (Nat.pow_lt_pow_right (by omega) hb)
  have htr : truncated (.fin false m) = m / 2 ^ 1074 := by
    simp only [truncated]; omega
  rw [htr]
  refine select_cut t id pr h _ _ (fun k hk => ?_) c
  rw [← Bool.not_eq_true, eq_ofNat _ k (by omega)]
  exact fun h => hm ⟨k, h.trans (Nat.mul_comm _ _)⟩

/-- "15e-1" is ONE in English, as 1 is, although 1.5 is OTHER; in Danish it is OTHER, by an exception, although 1.5 is ONE. -/
example :
    let chosen (key text : Str) := ((LangId.parse key).bind fun id => (create id .CARDINAL).toOption).bind fun pr =>
      (select pr (tryFromStr text)).bind Except.toOption
    chosen c!"en" c!"15e-1" = some .ONE ∧ chosen c!"en" c!"1.5" = some .OTHER ∧ chosen c!"da" c!"15e-1" = some .OTHER ∧
    chosen c!"da" c!"1.5" = some .ONE ∧ chosen c!"da" c!"10e-1" = some .ONE ∧ chosen c!"fr" c!"1e99" = some .OTHER := by decide +kernel
/-- The hypotheses hold of 15e-1. -/
example : ExponentOf c!"e-1" (-1) ∧ Ieee b64 (digitsNum [1, 5] * 10 ^ (-1 : Int)) (.fin false (3 * 2 ^ 1073)) ∧ ¬ 2 ^ 1074 ∣ 3 * 2 ^ 1073 ∧
    3 * 2 ^ 1073 / 2 ^ 1074 = 1 ∧ (∃ id, LangId.parse c!"da" = some id ∧ IsCut .CARDINAL id 1 .OTHER) := by
  refine ⟨.minus 'e' [1] (.inl rfl) (by simp), ?_, by decide +kernel, by decide +kernel, _, rfl, ?_⟩
  · have h := ieee_ofDec b64 (.inl rfl) (digitsNum [1, 5]) (-1)
    have e : Flt.ofDec b64 false (digitsNum [1, 5]) (-1) = .fin false (3 * 2 ^ 1073) := by decide +kernel
    rwa [e] at h
  · exact ⟨_, List.mem_cons_self, ⟨c!"da", by decide +kernel, rfl⟩, by simp⟩

end Verif.Props
