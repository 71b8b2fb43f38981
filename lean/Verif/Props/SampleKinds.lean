import Verif.Props.Periodic
import Verif.Props.Samples

/-!
# C108: which categories integers and decimals get

In the data the samples of a rule are in two lists, `@integer` and `@decimal`, either of which may be missing.
-/

namespace Verif.Props
open Verif Api Rust Uts35 Spec Sem Verif.Parser Grammar PluralOperands

/-! ## Integers -/

/-- Integers that are tried. -/
def wholeTried : List Nat := List.range 120 ++ [200, 1000, 1000000, 2000000]

/-- A category with integer samples is got by one of the integers above; one without by none up to 120,
after which the conditions repeat. -/
def wholeCheck (t : PluralRuleType) (p : Str × List (Str × Str)) : Bool :=
  match GenPr.mapPanic readRule p.2 with
  | none => false
  | some l => l.all (fun x => noWithin x.2) && p.2.all fun r =>
      match nameCategory r.1 with
      | some c =>
        if c!"@integer" <:+: r.2 ∨ (t = .CARDINAL ∧ p.1 = c!"be" ∧ c = .OTHER) then wholeTried.any fun k => actB l ⟨k, []⟩ == c
        else l.all (fun x => condRepeats 20 100 x.2) && (List.range 121).all fun k => actB l ⟨k, []⟩ != c
      | none => false

theorem whole_checked : ∀ t : PluralRuleType, (cldrData t).all (wholeCheck t) = true := by
  intro t; cases t <;> decide +kernel

theorem whole_small : wholeTried.all (fun k => decide (k < 2 ^ 64)) = true := by decide +kernel

/-- C108: a category with a rule is got by an integer exactly if the rule has integer samples; the one exception is OTHER of the
cardinals of be, which has none. -/
theorem C108_integers (t : PluralRuleType) (id : LangId) (pr : PluralRules) (h : create id t = .ok pr) (key : Str)
    (rules : List (Str × Str)) (hk : (key, rules) ∈ cldrData t) (hid : LangId.parse key = some id) (c : PluralCategory) (text : Str)
    (hr : (c!"pluralRule-count-" ++ cldrName c, text) ∈ rules) :
    (∃ k, k < 2 ^ 64 ∧ select (ε := OpsErr) pr (.ok (fromUnsigned k)) = some (.ok c)) ↔
      c!"@integer" <:+: text ∨ (t = .CARDINAL ∧ key = c!"be" ∧ c = .OTHER) := by
  have hc := List.all_eq_true.1 (whole_checked t) _ hk
  simp only [wholeCheck] at hc
  cases hl : GenPr.mapPanic readRule rules with
  | none => simp [hl] at hc
  | some l =>
    simp only [hl, Bool.and_eq_true] at hc
    have hx := List.all_eq_true.1 hc.2 _ hr
    simp only [(nameCategory_iff _ c).2 rfl] at hx
    have hsel : ∀ k, k < 2 ^ 64 → select (ε := OpsErr) pr (.ok (fromUnsigned k)) = some (.ok (actB l ⟨k, []⟩)) := by
      intro k hk64
      obtain ⟨c', key', rules', h1, h2, h3, h4⟩ := C65_select t id pr h (fromUnsigned k) ⟨k, []⟩ (C08_operands k) (fits_nat k hk64)
      obtain ⟨-, rfl⟩ := key_unique t id _ _ _ _ hk h2 hid h3
      rw [h1, actB_category hl hc.1 _ c' h4]
    by_cases hi : c!"@integer" <:+: text ∨ (t = .CARDINAL ∧ key = c!"be" ∧ c = .OTHER)
    · rw [if_pos hi] at hx
      obtain ⟨k, hk', he⟩ := List.any_eq_true.1 hx
      have hk64 := of_decide_eq_true (List.all_eq_true.1 whole_small k hk')
      refine iff_of_true ⟨k, hk64, ?_⟩ hi
      rw [hsel k hk64, beq_iff_eq.1 he]
    · rw [if_neg hi, Bool.and_eq_true] at hx
      refine iff_of_false ?_ hi
      rintro ⟨k, hk64, hkc⟩
      rw [hsel k hk64] at hkc
      simp only [Option.some.injEq, Except.ok.injEq] at hkc
      have key : ∃ k', k' < 121 ∧ actB l ⟨k', []⟩ = c := by
        by_cases hle : k ≤ 20
        · exact ⟨k, by omega, hkc⟩
        · refine ⟨21 + (k - 21) % 100, by omega, ?_⟩
          rw [← hkc]
          exact actB_repeats 20 100 _ _ (by omega) (by omega) (by omega) l hx.1
      obtain ⟨k', hk1, he⟩ := key
      have := List.all_eq_true.1 hx.2 k' (List.mem_range.2 hk1)
      simp [he] at this

/-- The cardinals of English: ONE and OTHER, both with integers. -/
example : ∃ pr text, create ⟨some c!"en", none, none, none⟩ .CARDINAL = .ok pr ∧
    (c!"pluralRule-count-" ++ cldrName .ONE, text) ∈ CldrData.cardinalRules4 ∧ c!"@integer" <:+: text ∧
    ∃ k, k < 2 ^ 64 ∧ select (ε := OpsErr) pr (.ok (fromUnsigned k)) = some (.ok .ONE) := by
  obtain ⟨pr, h⟩ := (C01_create_iff_listed ⟨some c!"en", none, none, none⟩ .CARDINAL).1.2 (by decide +kernel)
  have hm : (CldrData.cardinalRules4.any fun r => r.1 == c!"pluralRule-count-" ++ cldrName .ONE && decide (c!"@integer" <:+: r.2)) = true := by
    decide +kernel
  obtain ⟨⟨name, text⟩, hm, hx⟩ := List.any_eq_true.1 hm
  simp only [Bool.and_eq_true, beq_iff_eq, decide_eq_true_eq] at hx
  obtain ⟨rfl, hi⟩ := hx
  exact ⟨pr, text, h, hm, hi, (C108_integers _ _ pr h c!"en" CldrData.cardinalRules4 (by decide +kernel) (by decide +kernel) .ONE text hm).2 (.inl hi)⟩

/-- A rule without integer samples, and the category is got by no integer: OTHER of the cardinals of Russian. -/
example : ∃ pr, create ⟨some c!"ru", none, none, none⟩ .CARDINAL = .ok pr ∧
    ∀ k, k < 2 ^ 64 → select (ε := OpsErr) pr (.ok (fromUnsigned k)) ≠ some (.ok .OTHER) := by
  obtain ⟨pr, h⟩ := (C01_create_iff_listed ⟨some c!"ru", none, none, none⟩ .CARDINAL).1.2 (by decide +kernel)
  have hk : ((cldrData .CARDINAL).any fun p => p.1 == c!"ru" && p.2.any fun r =>
      r.1 == c!"pluralRule-count-" ++ cldrName .OTHER && decide (¬ c!"@integer" <:+: r.2)) = true := by decide +kernel
  obtain ⟨⟨key, rules⟩, hk, hx⟩ := List.any_eq_true.1 hk
  simp only [Bool.and_eq_true, beq_iff_eq, List.any_eq_true, decide_eq_true_eq] at hx
  obtain ⟨rfl, ⟨name, text⟩, hm, rfl, hi⟩ := hx
  refine ⟨pr, h, fun k hk64 he => ?_⟩
  rcases (C108_integers _ _ pr h c!"ru" rules hk (by decide +kernel) .OTHER text hm).1 ⟨k, hk64, he⟩ with h1 | h1
  · exact hi h1
  · exact absurd h1.2.1 (by decide)

/-! ## Decimals -/

/-- With fraction digits the condition is false: `v == 0` is part of it. -/
def wholeOnly : RExpr → Bool
  | .cmp .eq (.field .V) (.int 0) => true
  | .and a b => wholeOnly a || wholeOnly b
  | .or a b => wholeOnly a && wholeOnly b
  | _ => false

/-- With fraction digits the condition is true: `v != 0` is an alternative. -/
def anyFraction : RExpr → Bool
  | .cmp .ne (.field .V) (.int 0) => true
  | .or a b => anyFraction a || anyFraction b
  | _ => false

theorem wholeOnly_false (po : PluralOperands) (hv : po.v ≠ 0) (e : RExpr) (h : wholeOnly e = true) : e.eval po ≠ some (.bool true) := by
  induction e using wholeOnly.induct with
  | case1 => simp [RExpr.eval, readField, cmpInt, hv]
  | case2 a b iha ihb =>
    simp only [wholeOnly, Bool.or_eq_true] at h
    intro he
    simp only [RExpr.eval] at he
    rcases h with h | h
    · have := iha h
      split at he <;> simp_all
    · have := ihb h
      split at he <;> simp_all
      split at he <;> simp_all
  | case3 a b iha ihb =>
    simp only [wholeOnly, Bool.and_eq_true] at h
    intro he
    have ha := iha h.1
    have hb := ihb h.2
    simp only [RExpr.eval] at he
    split at he <;> simp_all
    split at he <;> simp_all
  | case4 e h1 h2 h3 => rw [wholeOnly] at h <;> simp_all

theorem anyFraction_true (po : PluralOperands) (hv : po.v ≠ 0) (e : RExpr) (h : anyFraction e = true) : e.eval po ≠ some (.bool false) := by
  induction e using anyFraction.induct with
  | case1 => simp [RExpr.eval, readField, cmpInt, hv]
  | case2 a b iha ihb =>
    simp only [anyFraction, Bool.or_eq_true] at h
    intro he
    simp only [RExpr.eval] at he
    rcases h with h | h
    · have := iha h
      split at he <;> simp_all
    · have := ihb h
      split at he <;> simp_all
      split at he <;> simp_all
  | case3 e h1 h2 => rw [anyFraction] at h <;> simp_all

/-- The chain does not give the category for operands with fraction digits. -/
def notWithFraction (c : PluralCategory) : List (RExpr × PluralCategory) → PluralCategory → Bool
  | [], last => last != c
  | (e, c') :: rest, last => (c' != c && anyFraction e) || ((c' != c || wholeOnly e) && notWithFraction c rest last)

theorem notWithFraction_ne (po : PluralOperands) (hv : po.v ≠ 0) (c : PluralCategory) (arms : List (RExpr × PluralCategory))
    (last : PluralCategory) (h : notWithFraction c arms last = true) : evalArms po arms last ≠ some c := by
  induction arms with
  | nil => simpa [notWithFraction, evalArms] using h
  | cons a rest ih =>
    obtain ⟨e, c'⟩ := a
    simp only [notWithFraction, Bool.or_eq_true, Bool.and_eq_true, bne_iff_ne, ne_eq] at h
    simp only [evalArms]
    split
    · rename_i he
      rcases h with ⟨h, -⟩ | ⟨h | h, -⟩
      · simpa using h
      · simpa using h
      · exact absurd he (wholeOnly_false po hv e h)
    · rename_i he
      rcases h with ⟨-, h⟩ | ⟨-, h⟩
      · exact absurd he (anyFraction_true po hv e h)
      · exact ih h
    · simp

/-- A category with decimal samples is got by one of them, 15.5 or 25.5; for one without, the chain is as above. -/
def fractionCheck (p : Str × List (Str × Str)) : Bool :=
  match GenPr.mapPanic readRule p.2 with
  | none => false
  | some l => l.all (fun x => noWithin x.2) && p.2.all fun r =>
      match nameCategory r.1 with
      | some c =>
        if c!"@decimal" <:+: r.2 then
          match samples r.2 with
          | none => false
          | some ds => (ds ++ [Dec.mk 15 [5], ⟨25, [5]⟩]).any fun d =>
              actB l d == c && decide (d.frac ≠ []) && decide (allDigits d < 2 ^ 53) && decide (d.v ≤ 300)
        else (table .CARDINAL).all fun e => LangId.parse p.1 != some e.1 || notWithFraction c e.2.arms e.2.last
      | none => false

theorem fraction_checked : (cldrData .CARDINAL).all fractionCheck = true := by decide +kernel

/-- C108: a category of the cardinals whose rule has decimal samples is got by a number with a fraction; one whose rule has none is
got by no operands with fraction digits, whatever the other operands are. -/
theorem C108_decimals (id : LangId) (pr : PluralRules) (h : create id .CARDINAL = .ok pr) (key : Str)
    (rules : List (Str × Str)) (hk : (key, rules) ∈ cldrData .CARDINAL) (hid : LangId.parse key = some id) (c : PluralCategory) (text : Str)
    (hr : (c!"pluralRule-count-" ++ cldrName c, text) ∈ rules) :
    (c!"@decimal" <:+: text → ∃ ip fp, ip ≠ [] ∧ fp ≠ [] ∧ select pr (tryFromStr (decText ip fp)) = some (.ok c)) ∧
    (¬ c!"@decimal" <:+: text → ∀ po : PluralOperands, po.v ≠ 0 → select (ε := OpsErr) pr (.ok po) ≠ some (.ok c)) := by
  have hc := List.all_eq_true.1 fraction_checked _ hk
  simp only [fractionCheck] at hc
  cases hl : GenPr.mapPanic readRule rules with
  | none => simp [hl] at hc
  | some l =>
    simp only [hl, Bool.and_eq_true] at hc
    have hx := List.all_eq_true.1 hc.2 _ hr
    simp only [(nameCategory_iff _ c).2 rfl] at hx
    refine ⟨fun hi => ?_, fun hi po hv he => ?_⟩
    · rw [if_pos hi] at hx
      split at hx
      · cases hx
      · obtain ⟨d, -, hd⟩ := List.any_eq_true.1 hx
        simp only [Bool.and_eq_true, beq_iff_eq, decide_eq_true_eq] at hd
        obtain ⟨⟨⟨h6, h7⟩, h8⟩, h9⟩ := hd
        have hd : decOf (natDigits d.int) d.frac = d := by simp [decOf, digitsNum_natDigits]
        refine ⟨natDigits d.int, d.frac, natDigits_ne _, h7, ?_⟩
        obtain ⟨c', key', rules', h10, h11, h12, h13⟩ := C65_strings .CARDINAL id pr h [] (.inl rfl) (natDigits d.int) d.frac (natDigits_ne _)
          (by rw [hd]; exact h8) h9
        obtain ⟨-, rfl⟩ := key_unique .CARDINAL id _ _ _ _ hk h11 hid h12
        rw [hd] at h13
        rw [← actB_category hl hc.1 d c' h13, h6, List.nil_append, plainText, if_neg h7] at h10
        exact h10
    · rw [if_neg hi] at hx
      have hmem := ((C02_create_own_rule id .CARDINAL pr).1 h).2
      have := List.all_eq_true.1 hx _ hmem
      simp only [hid, bne_self_eq_false, Bool.false_or] at this
      refine notWithFraction_ne po hv c _ _ this ?_
      simp only [select, Closure.call] at he
      split at he <;> simp_all

/-- English: OTHER is got by decimals, ONE by none. -/
example : ∃ pr, create ⟨some c!"en", none, none, none⟩ .CARDINAL = .ok pr ∧
    (∃ ip fp, ip ≠ [] ∧ fp ≠ [] ∧ select pr (tryFromStr (decText ip fp)) = some (.ok .OTHER)) ∧
    ∀ po : PluralOperands, po.v ≠ 0 → select (ε := OpsErr) pr (.ok po) ≠ some (.ok .ONE) := by
  obtain ⟨pr, h⟩ := (C01_create_iff_listed ⟨some c!"en", none, none, none⟩ .CARDINAL).1.2 (by decide +kernel)
  have h1 : (CldrData.cardinalRules4.any fun r => r.1 == c!"pluralRule-count-" ++ cldrName .OTHER && decide (c!"@decimal" <:+: r.2)) = true := by
    decide +kernel
  have h2 : (CldrData.cardinalRules4.any fun r => r.1 == c!"pluralRule-count-" ++ cldrName .ONE && decide (¬ c!"@decimal" <:+: r.2)) = true := by
    decide +kernel
  obtain ⟨⟨n1, t1⟩, hm1, hx1⟩ := List.any_eq_true.1 h1
  obtain ⟨⟨n2, t2⟩, hm2, hx2⟩ := List.any_eq_true.1 h2
  simp only [Bool.and_eq_true, beq_iff_eq, decide_eq_true_eq] at hx1 hx2
  obtain ⟨rfl, hx1⟩ := hx1
  obtain ⟨rfl, hx2⟩ := hx2
  have hd := fun c => C108_decimals _ pr h c!"en" CldrData.cardinalRules4 (by decide +kernel) (by decide +kernel) c
  exact ⟨pr, h, (hd _ _ hm1).1 hx1, (hd _ _ hm2).2 hx2⟩

end Verif.Props
