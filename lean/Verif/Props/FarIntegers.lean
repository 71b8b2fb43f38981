import Verif.Props.Rounded

/-!
# C112: where the rounding of large integers matters

A text of digits is read as an `f64` (C12), which is not exact from 2^53 on.  In which locales a text below 2^64 gets another category
for it than the same integer as `u64`.
-/

namespace Verif.Props
open Verif Api Rust Uts35 Spec Sem PluralOperands RulesTable CldrData Verif.Grammar

attribute [local irreducible] Flt.ofRat Flt.roundMag Flt.ofDec

/-- The text of an integer below 2^64 gets another answer than the integer. -/
def TextDiffers (pr : PluralRules) (ip : List (Fin 10)) : Prop :=
  ip ≠ [] ∧ digitsNum ip < 2 ^ 64 ∧ select pr (tryFromStr (digitText ip)) ≠ select (ε := OpsErr) pr (.ok (fromUnsigned (digitsNum ip)))

/-- Two integers from 2^53 on get different answers. -/
def FarDiffer (pr : PluralRules) : Prop := ∃ k k', 2 ^ 53 ≤ k ∧ k < 2 ^ 64 ∧ 2 ^ 53 ≤ k' ∧ k' < 2 ^ 64 ∧
  select (ε := OpsErr) pr (.ok (fromUnsigned k)) ≠ select (ε := OpsErr) pr (.ok (fromUnsigned k'))

/-- The relation is on the integer or the number, by a modulus that the generator does not lose: it is lost for `n` and ranges only. -/
def KeepsModulus (r : Relation) : Prop :=
  r.expression.modulus ≠ none ∧ (r.expression.operand = .I ∨ r.expression.operand = .N ∧ ∃ k, RangeListItem.value k ∈ r.rangeList)

/-! ## Proofs -/

/-- The code tests `n` and `i` only against small integers. -/
def farTests : RExpr → Bool
  | .int _ | .flt _ => true
  | .field x => x != .N && x != .I
  | .cmp op (.field .N) (.flt k) => (op == .eq || op == .ne) && decide (k ≤ 800)
  | .cmp op (.field .I) (.int k) => (op == .eq || op == .ne) && decide (k ≤ 800)
  | .contains _ hi (.field .I) => decide (hi ≤ 20000)
  | .rem a b | .cmp _ a b | .and a b | .or a b => farTests a && farTests b
  | .not a | .contains _ _ a => farTests a

/-- Operands of a large integer. -/
structure Far (po : PluralOperands) : Prop where
  n : ∀ j ≤ 800, Flt.eq po.n (Flt.ofNat b64 j) = false
  i : 2 ^ 53 ≤ po.i
  v : po.v = 0
  w : po.w = 0
  f : po.f = 0
  t : po.t = 0

theorem far_unsigned (k : Nat) (hk : 2 ^ 53 ≤ k) (h : k < 2 ^ 64) : Far (fromUnsigned k) := by
  refine ⟨fun j hj => ?_, hk, rfl, rfl, rfl, rfl⟩
  have h1 := flt_eq_iff (represents_of _ _ (C08_operands k) (fits_nat k h)) trivial j (by omega)
  rw [← Bool.not_eq_true, h1]
  rintro ⟨-, h2⟩
  have : (⟨k, []⟩ : Dec).i = k := rfl
  omega

theorem eval_far {po po' : PluralOperands} (h : Far po) (h' : Far po') (e : RExpr) (he : farTests e = true) : e.eval po = e.eval po' := by
  have hi := h.i
  have hi' := h'.i
  induction e using farTests.induct with
  | case1 | case2 => rfl
  | case3 x =>
    simp only [farTests, Bool.and_eq_true, bne_iff_ne] at he
    cases x <;> simp_all [RExpr.eval, readField, h.v, h.w, h.f, h.t, h'.v, h'.w, h'.f, h'.t]
  | case4 op j =>
    simp only [farTests, Bool.and_eq_true, Bool.or_eq_true, beq_iff_eq, decide_eq_true_eq] at he
    rcases he.1 with rfl | rfl <;> simp only [RExpr.eval, readField, cmpFlt, h.n j he.2, h'.n j he.2]
  | case5 op j =>
    simp only [farTests, Bool.and_eq_true, Bool.or_eq_true, beq_iff_eq, decide_eq_true_eq] at he
    have h1 : (po.i == j) = false := by rw [beq_eq_false_iff_ne]; omega
    have h2 : (po'.i == j) = false := by rw [beq_eq_false_iff_ne]; omega
    rcases he.1 with rfl | rfl <;> simp only [RExpr.eval, readField, cmpInt, bne, h1, h2]
  | case6 lo hi =>
    simp only [farTests, decide_eq_true_eq] at he
    have h1 : decide (po.i ≤ hi) = false := by rw [decide_eq_false_iff_not]; omega
    have h2 : decide (po'.i ≤ hi) = false := by rw [decide_eq_false_iff_not]; omega
    simp only [RExpr.eval, readField, h1, h2, Bool.and_false]
  | _ => simp_all [farTests, RExpr.eval]

theorem call_far {po po' : PluralOperands} (h : Far po) (h' : Far po')
    (arms : List (RExpr × PluralCategory)) (last : PluralCategory) (ha : arms.all (fun a => farTests a.1) = true) :
    evalArms po arms last = evalArms po' arms last := by
  induction arms with
  | nil => rfl
  | cons a arms ih =>
    simp only [List.all_cons, Bool.and_eq_true] at ha
    simp only [evalArms, eval_far h h' a.1 ha.1, ih ha.2]

/-- The odd integers after 2^53. -/
def afterLimit : List (List (Fin 10)) := (List.range 15).map fun j => Verif.Grammar.natDigits (2 ^ 53 + 1 + 2 * j)

theorem afterLimit_fine : ∀ l ∈ afterLimit, l ≠ [] ∧ 2 ^ 53 < digitsNum l ∧ digitsNum l < 2 ^ 53 + 30 := by decide +kernel

def farCheck (f : Closure) : Bool :=
  f.arms.all (fun a => farTests a.1) || afterLimit.any fun l =>
    match tryFromStr (digitText l) with
    | .ok po => f.call po != f.call (fromUnsigned (digitsNum l))
    | .error _ => false

theorem far_checked : ∀ t : PluralRuleType, (kinds t).all (fun x => farCheck x.1) = true := by
  intro t; cases t <;> decide +kernel

def keepsModulus (r : Relation) : Bool :=
  r.expression.modulus.isSome && (r.expression.operand == .I || r.expression.operand == .N && r.rangeList.any fun
    | .value _ => true
    | .range _ _ => false)

theorem keepsModulus_iff (r : Relation) : keepsModulus r = true ↔ KeepsModulus r := by
  have h : (r.rangeList.any fun | .value _ => true | .range _ _ => false) = true ↔ ∃ k, RangeListItem.value k ∈ r.rangeList := by
    rw [List.any_eq_true]
    constructor
    · rintro ⟨x, hx, h⟩
      cases x with
      | value k => exact ⟨k, hx⟩
      | range a b => cases h
    · rintro ⟨k, hk⟩; exact ⟨_, hk, rfl⟩
  simp only [keepsModulus, KeepsModulus, Bool.and_eq_true, Bool.or_eq_true, beq_iff_eq, h, Option.isSome_iff_ne_none]

theorem keeps_checked : ∀ t : PluralRuleType, (kinds t).all (fun x => match GenPr.mapPanic readRule x.2.1 with
    | none => false
    | some l => (l.any fun r => r.2.any fun a => a.any keepsModulus) != x.1.arms.all (fun a => farTests a.1)) = true := by
  intro t; cases t <;> decide +kernel

theorem far_kind (t : PluralRuleType) (id : LangId) (pr : PluralRules) (h : create id t = .ok pr) : ∃ x ∈ kinds t, x.1 = pr.function := by
  obtain ⟨⟨key, rules⟩, hk, -, hid⟩ := ((C21_locales_are_keys t).1 id).1 (((C01_create_iff_listed id t).1).1 ⟨pr, h⟩)
  obtain ⟨x, hx, hfun, -⟩ := kind_of t id pr h key rules hk hid
  exact ⟨x, hx, hfun⟩

theorem not_far {pr : PluralRules} (ha : pr.function.arms.all (fun a => farTests a.1) = true) : ¬ FarDiffer pr := by
  rintro ⟨k, k', h1, h2, h3, h4, h5⟩
  apply h5
  simp only [select, Closure.call, call_far (far_unsigned k h1 h2) (far_unsigned k' h3 h4) _ _ ha]

theorem far_witness (t : PluralRuleType) (id : LangId) (pr : PluralRules) (h : create id t = .ok pr)
    (hf : pr.function.arms.all (fun a => farTests a.1) = false) :
    ∃ ip, TextDiffers pr ip ∧ 2 ^ 53 < digitsNum ip ∧ digitsNum ip < 2 ^ 53 + 30 := by
  obtain ⟨x, hx, hfun⟩ := far_kind t id pr h
  have hc := List.all_eq_true.1 (far_checked t) _ hx
  rw [hfun] at hc
  simp only [farCheck, hf, Bool.false_or] at hc
  obtain ⟨l, hl, h1⟩ := List.any_eq_true.1 hc
  obtain ⟨f1, f2, f3⟩ := afterLimit_fine l hl
  refine ⟨l, ⟨f1, by omega, fun he => ?_⟩, f2, f3⟩
  cases hpo : tryFromStr (digitText l) with
  | error e => simp [hpo] at h1
  | ok po =>
    simp only [hpo, bne_iff_ne] at h1
    rw [hpo] at he
    simp only [select] at he
    cases e1 : pr.function.call po <;> cases e2 : pr.function.call (fromUnsigned (digitsNum l)) <;> simp_all

/-- C112: if integers from 2^53 on have different answers, one of the fifteen first odd texts after 2^53 gets another answer than the
integer. -/
theorem C112_soon (t : PluralRuleType) (id : LangId) (pr : PluralRules) (h : create id t = .ok pr) (hd : FarDiffer pr) :
    ∃ ip, TextDiffers pr ip ∧ 2 ^ 53 < digitsNum ip ∧ digitsNum ip < 2 ^ 53 + 30 := by
  refine far_witness t id pr h ?_
  rw [← Bool.not_eq_true]
  exact fun ha => not_far ha hd

/-- C112: some text of an integer below 2^64 gets another answer than the integer exactly if integers from 2^53 on have different
answers. -/
theorem C112_where (t : PluralRuleType) (id : LangId) (pr : PluralRules) (h : create id t = .ok pr) :
    (∃ ip, TextDiffers pr ip) ↔ FarDiffer pr := by
  constructor
  · rintro ⟨ip, h1, h2, h3⟩
    by_cases hle : digitsNum ip ≤ 2 ^ 53
    · exact absurd (by rw [← C12_integer [] (.inl rfl) ip h1 hle]; rfl) h3
    · obtain ⟨r, hr, hs⟩ := C74_digits t id pr h [] (.inl rfl) ip h1
      rw [List.nil_append] at hs
      rw [hs] at h3
      have hr2 : 2 ^ 53 ≤ r := by
        by_contra hc
        have := hr.2 (2 ^ 52) 1 (by norm_num)
        push_cast at this
        rw [abs_of_neg (by omega), abs_of_nonpos (by omega)] at this
        omega
      exact ⟨min r (2 ^ 64 - 1), digitsNum ip, by omega, by omega, by omega, h2, h3⟩
  · intro hd
    obtain ⟨ip, h1, -⟩ := C112_soon t id pr h hd
    exact ⟨ip, h1⟩

/-- C112: and these are the locales where a CLDR rule has a modulus that the generator does not lose. -/
theorem C112_rules (t : PluralRuleType) (key : Str) (rules : List (Str × Str)) (hk : (key, rules) ∈ cldrData t) (id : LangId)
    (hid : LangId.parse key = some id) (pr : PluralRules) (h : create id t = .ok pr) :
    FarDiffer pr ↔ ∃ c text cond samples, (c!"pluralRule-count-" ++ cldrName c, text) ∈ rules ∧ RuleText 64 text ⟨cond, samples⟩ ∧
      ∃ a ∈ cond, ∃ r ∈ a, KeepsModulus r := by
  obtain ⟨x, hx, hfun, hrules⟩ := kind_of t id pr h key rules hk hid
  have hc := List.all_eq_true.1 (keeps_checked t) _ hx
  simp only [hrules, hfun] at hc
  cases hl : GenPr.mapPanic readRule rules with
  | none => simp [hl] at hc
  | some l =>
  simp only [hl, bne_iff_ne] at hc
  have hfar : FarDiffer pr ↔ pr.function.arms.all (fun a => farTests a.1) = false := by
    constructor
    · intro hd
      by_contra hn
      exact not_far (by simpa using hn) hd
    · intro hf
      obtain ⟨ip, h1, -⟩ := far_witness t id pr h hf
      exact (C112_where t id pr h).1 ⟨ip, h1⟩
  have hb : FarDiffer pr ↔ (l.any fun r => r.2.any fun a => a.any keepsModulus) = true := by
    rw [hfar]
    cases e1 : (l.any fun r => r.2.any fun a => a.any keepsModulus) <;> cases e2 : pr.function.arms.all (fun a => farTests a.1) <;> simp_all
  rw [hb]
  simp only [List.any_eq_true, keepsModulus_iff]
  constructor
  · rintro ⟨r, hr, a, ha, rel, hrel, hx⟩
    obtain ⟨⟨k, text⟩, h5, h6⟩ := (Gen.mem_mapPanic hl r).1 hr
    obtain ⟨h7, samples, h8⟩ := (readRule_iff _ _ _).1 h6
    simp only at h7 h8
    subst h7
    exact ⟨_, text, _, samples, h5, h8, a, ha, rel, hrel, hx⟩
  · rintro ⟨c, text, cond, samples, h5, h6, a, ha, rel, hrel, hx⟩
    exact ⟨(c, cond), (Gen.mem_mapPanic hl _).2 ⟨_, h5, (readRule_iff _ _ _).2 ⟨rfl, samples, h6⟩⟩, a, ha, rel, hrel, hx⟩

/-- In Russian 9007199254741001 is ONE (`i % 10 = 1`) and its text is MANY, as 9007199254741000 is.  English and Maltese have no such text:
English has no modulus, and that of Maltese (`n % 100 = 2..10`) is lost. -/
example : ∃ ru en mt, create (bareLanguage c!"ru") .CARDINAL = .ok ru ∧ create (bareLanguage c!"en") .CARDINAL = .ok en ∧
    create (bareLanguage c!"mt") .CARDINAL = .ok mt ∧ TextDiffers ru [9, 0, 0, 7, 1, 9, 9, 2, 5, 4, 7, 4, 1, 0, 0, 1] ∧ FarDiffer ru ∧
    (¬ ∃ ip, TextDiffers en ip) ∧ ¬ ∃ ip, TextDiffers mt ip := by
  obtain ⟨ru, h1⟩ := (C01_create_iff_listed (bareLanguage c!"ru") .CARDINAL).1.2 (by decide +kernel)
  obtain ⟨en, h2⟩ := (C01_create_iff_listed (bareLanguage c!"en") .CARDINAL).1.2 (by decide +kernel)
  obtain ⟨mt, h3⟩ := (C01_create_iff_listed (bareLanguage c!"mt") .CARDINAL).1.2 (by decide +kernel)
  have ht : ((table .CARDINAL).all fun e =>
      (e.1 != bareLanguage c!"ru" || (tryFromStr c!"9007199254741001").toOption.map (e.2.call ·) == some (some .MANY) &&
        e.2.call (fromUnsigned 9007199254741001) == some .ONE) &&
      (e.1 != bareLanguage c!"en" || e.2.arms.all (fun a => farTests a.1)) &&
      (e.1 != bareLanguage c!"mt" || e.2.arms.all (fun a => farTests a.1))) = true := by decide +kernel
  have g := fun id pr (h : create id .CARDINAL = .ok pr) => List.all_eq_true.1 ht _ ((C02_create_own_rule id _ pr).1 h).2
  have g1 := g _ _ h1
  have g2 := g _ _ h2
  have g3 := g _ _ h3
  simp only [Bool.and_eq_true, bne_self_eq_false, Bool.false_or, beq_iff_eq] at g1 g2 g3
  have hru : TextDiffers ru [9, 0, 0, 7, 1, 9, 9, 2, 5, 4, 7, 4, 1, 0, 0, 1] := by
    refine ⟨by simp, by decide, fun he => ?_⟩
    have e1 : digitText [9, 0, 0, 7, 1, 9, 9, 2, 5, 4, 7, 4, 1, 0, 0, 1] = c!"9007199254741001" := by decide
    have e2 : digitsNum [9, 0, 0, 7, 1, 9, 9, 2, 5, 4, 7, 4, 1, 0, 0, 1] = 9007199254741001 := by decide
    rw [e1, e2] at he
    obtain ⟨⟨⟨g4, g5⟩, -⟩, -⟩ := g1
    cases hpo : tryFromStr c!"9007199254741001" with
    | error e => rw [hpo] at g4; cases g4
    | ok po =>
      rw [hpo] at g4 he
      simp only [Except.toOption, Option.map_some, Option.some.injEq] at g4
      simp [select, g4, g5] at he
  refine ⟨ru, en, mt, h1, h2, h3, hru, (C112_where _ _ ru h1).1 ⟨_, hru⟩, ?_, ?_⟩
  · rw [C112_where _ _ en h2]; exact not_far g2.1.2
  · rw [C112_where _ _ mt h3]; exact not_far g3.2

end Verif.Props
