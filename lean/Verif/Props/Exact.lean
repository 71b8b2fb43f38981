import Verif.Props.Categories
import Verif.Lemmas.Actual

/-!
# C64–C66: what the generated and the shipped code computes, exactly
-/

namespace Verif.Props
open Verif Api Rust Uts35 Spec Sem Verif.Parser Grammar PluralOperands

/-! ## C64: the code of every condition -/

/-- The condition mentions the operand `n`. -/
def UsesN (c : Condition) : Prop := ∃ a ∈ c, ∃ r ∈ a, r.expression.operand = .N

/-- C64: the code of every condition, with lists as the parser makes them and no modulus zero, evaluates on the operands of a
number to whether `Actual.Holds`. -/
theorem C64_generated_code (c : Condition) (hc : AllRelations Listed c) (hm : AllRelations (fun r => r.expression.modulus ≠ some 0) c)
    (hx : AllRelations Actual.Exact c) (po : PluralOperands) (d : Dec) (ho : OperandsOf po d) (hd : UsesN c → Fits d) :
    ∃ e b, Code c e ∧ e.eval po = some (.bool b) ∧ (b = true ↔ Actual.Holds d c) := by
  obtain ⟨e, h1, h2⟩ := code_of_condition c hc
  have hr : Represents (UsesN c) po d := represents_of_fits po d ho.i ho.v ho.w ho.f ho.t (fun _ => ho.n_eq) hd
  obtain ⟨e', b, h3, h4, h5⟩ := condition_actual hr c hc.1 fun a ha => ⟨(hc.2 a ha).1, fun r hra =>
    ⟨(hm.2 a ha).2 r hra, fun hn => ⟨a, ha, r, hra, hn⟩, (hc.2 a ha).2 r hra, (hx.2 a ha).2 r hra⟩⟩
  rw [h2] at h3
  cases h3
  exact ⟨e, b, h1, h4, h5⟩

/-- C64 covers conditions that UTS #35 reads differently: `n % 10 = 2..4` on 22 (true, but the code is false), on 2.5 (false, but
the code is true), and `n not in 1..3` on 0.5 (true, but the code is false). -/
example : Holds ⟨22, []⟩ [[⟨⟨.N, some 10⟩, .EQ, [.range 2 4]⟩]] ∧ ¬ Actual.Holds ⟨22, []⟩ [[⟨⟨.N, some 10⟩, .EQ, [.range 2 4]⟩]] ∧
    ¬ Holds ⟨2, [5]⟩ [[⟨⟨.N, some 10⟩, .EQ, [.range 2 4]⟩]] ∧ Actual.Holds ⟨2, [5]⟩ [[⟨⟨.N, some 10⟩, .EQ, [.range 2 4]⟩]] ∧
    Holds ⟨0, [5]⟩ [[⟨⟨.N, none⟩, .NotIn, [.range 1 3]⟩]] ∧ ¬ Actual.Holds ⟨0, [5]⟩ [[⟨⟨.N, none⟩, .NotIn, [.range 1 3]⟩]] := by
  refine ⟨(holdsB_iff _ _ (by decide)).1 (by decide), ?_, fun h => absurd ((holdsB_iff _ _ (by decide)).2 h) (by decide), ?_,
    (holdsB_iff _ _ (by decide)).1 (by decide), ?_⟩ <;>
  simp [Actual.Holds, Actual.RelationHolds, Actual.Accepts, Actual.Rejects, Dec.i, Dec.f, digitsNum]

/-! ## C65: the shipped functions -/

/-- The code of the rule that the CLDR rules have for the category is true on the number. -/
def ActuallySatisfies (rules : List (Str × Str)) (d : Dec) (c : PluralCategory) : Prop :=
  ∃ text condition samples, (c!"pluralRule-count-" ++ cldrName c, text) ∈ rules ∧
    RuleText 64 text ⟨condition, samples⟩ ∧ Actual.Holds d condition

/-- The order in which categories are tested: by their CLDR names. -/
def selectOrder : List PluralCategory := [.FEW, .MANY, .ONE, .TWO, .ZERO]

/-- The first category in this order whose code is true, or OTHER if there is none. -/
def ActualCategory (rules : List (Str × Str)) (d : Dec) (c : PluralCategory) : Prop :=
  (∃ before after, selectOrder = before ++ c :: after ∧ ActuallySatisfies rules d c ∧ ∀ c' ∈ before, ¬ ActuallySatisfies rules d c') ∨
  (c = .OTHER ∧ ∀ c' ∈ selectOrder, ¬ ActuallySatisfies rules d c')

theorem actuallySatisfies_iff {rules : List (Str × Str)} {l : List (PluralCategory × Condition)}
    (h : GenPr.mapPanic readRule rules = some l) (d : Dec) (c : PluralCategory) :
    ActuallySatisfies rules d c ↔ ∃ cond, (c, cond) ∈ l ∧ Actual.Holds d cond := by
  obtain ⟨h1, h2⟩ := mapPanic_mem h
  constructor
  · rintro ⟨text, cond, samples, hm, ht, hh⟩
    obtain ⟨b, hb, hr⟩ := h1 _ hm
    rw [(readRule_iff _ c cond).2 ⟨rfl, samples, ht⟩] at hr
    cases hr
    exact ⟨cond, hb, hh⟩
  · rintro ⟨cond, hm, hh⟩
    obtain ⟨⟨k, text⟩, ha, hr⟩ := h2 _ hm
    obtain ⟨hk, samples, ht⟩ := (readRule_iff _ c cond).1 hr
    simp only at hk; subst hk
    exact ⟨text, cond, samples, ha, ht, hh⟩

/-- The condition of a category among rules that have been read. -/
def ruleOf (l : List (PluralCategory × Condition)) (c : PluralCategory) : Option Condition :=
  (l.find? fun x => x.1 == c).map (·.2)

/-- The tests that a function for these rules has. -/
def armsOf (l : List (PluralCategory × Condition)) (order : List PluralCategory) : List (RExpr × PluralCategory) :=
  order.filterMap fun c => (ruleOf l c).bind fun cond => (Intended.condition cond).map fun e => (e, c)

/-- What C64 asks of a condition, decided. -/
def exactB (c : Condition) : Bool :=
  !c.isEmpty && c.all fun a => !a.isEmpty && a.all fun r =>
    r.expression.modulus != some 0 && !r.rangeList.isEmpty && (positiveRel r || negativeRel r) &&
    r.rangeList.all fun x => match x with
      | .value k => k < 2 ^ 53
      | .range _ _ => true

theorem exactB_spec {c : Condition} (h : exactB c = true) : c ≠ [] ∧ ∀ a ∈ c, a ≠ [] ∧ ∀ r ∈ a,
    r.expression.modulus ≠ some 0 ∧ (r.expression.operand = .N → True) ∧ Listed r ∧ Actual.Exact r := by
  simp only [exactB, Bool.and_eq_true, Bool.not_eq_true', List.all_eq_true, List.isEmpty_eq_false_iff, bne_iff_ne] at h
  refine ⟨h.1, fun a ha => ⟨(h.2 a ha).1, fun r hr => ?_⟩⟩
  obtain ⟨⟨⟨h1, h2⟩, h3⟩, h4⟩ := (h.2 a ha).2 r hr
  have hw : ¬ IsWithin r.operator := by
    rintro (hw | hw) <;> simp [positiveRel, negativeRel, hw] at h3
  refine ⟨h1, fun _ => trivial, ⟨h2, fun h => absurd h hw⟩, fun _ _ => ?_⟩
  have hv : ∀ k, .value k ∈ r.rangeList → k < 2 ^ 53 := fun k hk => by simpa using h4 _ hk
  cases ho : r.operator <;> first | exact hv | exact absurd (by simp [IsWithin, ho]) hw

/-- One rule for each category, tests in order, and conditions for which C64 holds. -/
def entryExact (t : PluralRuleType) (e : LangId × Closure) : Bool :=
  match (cldrData t).find? fun p => p.1 == keyOf e.1 with
  | none => false
  | some p =>
    match GenPr.mapPanic readRule p.2 with
    | none => false
    | some l => e.2.last == .OTHER && e.2.arms == armsOf l selectOrder && decide (l.map (·.1)).Nodup &&
        l.all fun x => x.1 == .OTHER || exactB x.2

theorem entries_exact : ∀ t : PluralRuleType, (table t).all (entryExact t) = true := by
  intro t; cases t <;> decide +kernel

theorem ruleOf_mem {l : List (PluralCategory × Condition)} (hn : (l.map (·.1)).Nodup) (c : PluralCategory) (cond : Condition) :
    ruleOf l c = some cond ↔ (c, cond) ∈ l := by
  simp only [ruleOf, Option.map_eq_some_iff]
  constructor
  · rintro ⟨x, h1, rfl⟩
    have := List.find?_some h1
    simp only [beq_iff_eq] at this
    exact this ▸ List.mem_of_find?_eq_some h1
  · intro h
    cases hf : l.find? fun x => x.1 == c with
    | none => exact absurd (List.find?_eq_none.1 hf _ h) (by simp)
    | some x =>
      have h1 := List.find?_some hf
      simp only [beq_iff_eq] at h1
      exact ⟨x, rfl, by rw [List.inj_on_of_nodup_map hn (List.mem_of_find?_eq_some hf) h h1]⟩

theorem call_with (l : List (PluralCategory × Condition)) (hn : (l.map (·.1)).Nodup) (po : PluralOperands) (H : Condition → Prop)
    (hH : ∀ x ∈ l, x.1 ≠ .OTHER → ∃ e b, Intended.condition x.2 = some e ∧ Ev po e b ∧ (b = true ↔ H x.2))
    (order : List PluralCategory) (ho : .OTHER ∉ order) :
    ∃ c, evalArms po (armsOf l order) .OTHER = some c ∧
      ((∃ before after, order = before ++ c :: after ∧ (∃ cond, (c, cond) ∈ l ∧ H cond) ∧
          ∀ c' ∈ before, ¬ ∃ cond, (c', cond) ∈ l ∧ H cond) ∨
        (c = .OTHER ∧ ∀ c' ∈ order, ¬ ∃ cond, (c', cond) ∈ l ∧ H cond)) := by
  induction order with
  | nil => exact ⟨.OTHER, rfl, .inr ⟨rfl, by simp⟩⟩
  | cons c order ih =>
    simp only [List.mem_cons, not_or] at ho
    obtain ⟨c', h1, h2⟩ := ih ho.2
    have skip : (¬ ∃ cond, (c, cond) ∈ l ∧ H cond) →
        ((∃ before after, c :: order = before ++ c' :: after ∧ (∃ cond, (c', cond) ∈ l ∧ H cond) ∧
          ∀ c'' ∈ before, ¬ ∃ cond, (c'', cond) ∈ l ∧ H cond) ∨
        (c' = .OTHER ∧ ∀ c'' ∈ c :: order, ¬ ∃ cond, (c'', cond) ∈ l ∧ H cond)) := by
      intro hno
      rcases h2 with ⟨before, after, rfl, h3, h4⟩ | ⟨rfl, h3⟩
      · refine .inl ⟨c :: before, after, rfl, h3, ?_⟩
        intro c'' hc
        rcases List.mem_cons.1 hc with rfl | hc
        · exact hno
        · exact h4 c'' hc
      · refine .inr ⟨rfl, ?_⟩
        intro c'' hc
        rcases List.mem_cons.1 hc with rfl | hc
        · exact hno
        · exact h3 c'' hc
    cases hru : ruleOf l c with
    | none =>
      refine ⟨c', by simpa only [armsOf, List.filterMap_cons, hru, Option.bind_none] using h1, skip ?_⟩
      rintro ⟨cond, hm, -⟩
      rw [(ruleOf_mem hn c cond).2 hm] at hru
      cases hru
    | some cond =>
      have hm := (ruleOf_mem hn c cond).1 hru
      obtain ⟨e, b, h5, h6, h7⟩ := hH _ hm (fun h => ho.1 h.symm)
      have harms : armsOf l (c :: order) = (e, c) :: armsOf l order := by
        simp only [armsOf, List.filterMap_cons, hru, Option.bind_some, h5, Option.map_some]
      rw [harms]
      simp only [Ev] at h6
      cases b with
      | true =>
        exact ⟨c, by simp only [evalArms, h6], .inl ⟨[], order, rfl, ⟨cond, hm, h7.1 rfl⟩, by simp⟩⟩
      | false =>
        refine ⟨c', by simp only [evalArms, h6, h1], skip ?_⟩
        rintro ⟨cond', hm', hh⟩
        have : some cond = some cond' := ((ruleOf_mem hn c cond).2 hm).symm.trans ((ruleOf_mem hn c cond').2 hm')
        cases this
        simpa using h7.2 hh

theorem select_actual (t : PluralRuleType) (id : LangId) (pr : PluralRules) (h : create id t = .ok pr) (po : PluralOperands)
    (d : Dec) (hr : Represents True po d) : ∃ c key rules, select (ε := OpsErr) pr (.ok po) = some (.ok c) ∧
      (key, rules) ∈ cldrData t ∧ LangId.parse key = some id ∧ ActualCategory rules d c := by
  have hmem := ((C02_create_own_rule id t pr).1 h).2
  have hd := List.all_eq_true.1 (declares_checked t) _ hmem
  have he := List.all_eq_true.1 (entries_exact t) _ hmem
  simp only [declaresCheck] at hd
  simp only [entryExact] at he
  cases hp : (cldrData t).find? fun p => p.1 == keyOf id with
  | none => simp [hp] at he
  | some p =>
    simp only [hp] at hd he
    cases hm : GenPr.mapPanic readRule p.2 with
    | none => simp [hm] at he
    | some l =>
      simp only [hm, Bool.and_eq_true, beq_iff_eq, decide_eq_true_eq, List.all_eq_true, Bool.or_eq_true] at hd he
      have hpm := List.mem_of_find?_eq_some hp
      obtain ⟨⟨⟨h1, h2⟩, h3⟩, h4⟩ := he
      obtain ⟨c, hc, hcat⟩ := call_with l h3 po (Actual.Holds d) (fun x hx h =>
        have := exactB_spec ((h4 x hx).resolve_left h)
        condition_actual hr x.2 this.1 this.2) selectOrder (by decide)
      refine ⟨c, p.1, p.2, by simp only [select, Closure.call, h1, h2, hc], hpm, hd.1, ?_⟩
      simp only [ActualCategory, actuallySatisfies_iff hm]
      exact hcat

/-- C65: on every number with few enough digits (and every integer below 2^64), `select` gives the first category of the order
whose code is true on the number, and OTHER if there is none. -/
theorem C65_select (t : PluralRuleType) (id : LangId) (pr : PluralRules) (h : create id t = .ok pr) (po : PluralOperands) (d : Dec)
    (ho : OperandsOf po d) (hd : Fits d) : ∃ c key rules, select (ε := OpsErr) pr (.ok po) = some (.ok c) ∧
      (key, rules) ∈ cldrData t ∧ LangId.parse key = some id ∧ ActualCategory rules d c :=
  select_actual t id pr h po d (represents_of po d ho hd)

example : ∃ pr c key rules, create ⟨some c!"be", none, none, none⟩ .CARDINAL = .ok pr ∧
    select (ε := OpsErr) pr (.ok (fromUnsigned 25)) = some (.ok c) ∧ (key, rules) ∈ cldrData .CARDINAL ∧
    LangId.parse key = some ⟨some c!"be", none, none, none⟩ ∧ ActualCategory rules ⟨25, []⟩ c := by
  obtain ⟨pr, h⟩ := (C01_create_iff_listed ⟨some c!"be", none, none, none⟩ .CARDINAL).1.2 (by decide +kernel)
  obtain ⟨c, key, rules, hc⟩ := C65_select _ _ pr h (fromUnsigned 25) ⟨25, []⟩
    ⟨rfl, rfl, rfl, rfl, rfl, (ieee_value_iff _ _).2 (by decide +kernel)⟩ (.inl (by decide))
  exact ⟨pr, c, key, rules, h, hc⟩

/-- C65: the same for decimal texts. -/
theorem C65_strings (t : PluralRuleType) (id : LangId) (pr : PluralRules) (h : create id t = .ok pr) (sign : Str)
    (hs : sign = [] ∨ sign = ['-']) (ip fp : List (Fin 10)) (hi : ip ≠ []) (h1 : allDigits (decOf ip fp) < 2 ^ 53)
    (h2 : fp.length ≤ 300) : ∃ c key rules, select pr (tryFromStr (sign ++ plainText ip fp)) = some (.ok c) ∧
      (key, rules) ∈ cldrData t ∧ LangId.parse key = some id ∧ ActualCategory rules (decOf ip fp) c := by
  obtain ⟨po, h3, h4⟩ := plain_operands sign hs ip fp hi h1 h2
  rw [h3]
  exact select_actual t id pr h po _ h4

example : ∃ pr c key rules, create ⟨some c!"be", none, none, none⟩ .CARDINAL = .ok pr ∧
    select pr (tryFromStr c!"-1000.0") = some (.ok c) ∧ (key, rules) ∈ cldrData .CARDINAL ∧
    LangId.parse key = some ⟨some c!"be", none, none, none⟩ ∧ ActualCategory rules (decOf [1, 0, 0, 0] [0]) c := by
  obtain ⟨pr, h⟩ := (C01_create_iff_listed ⟨some c!"be", none, none, none⟩ .CARDINAL).1.2 (by decide +kernel)
  obtain ⟨c, key, rules, hc⟩ := C65_strings _ _ pr h ['-'] (.inr rfl) [1, 0, 0, 0] [0] (by simp) (by decide) (by decide)
  exact ⟨pr, c, key, rules, h, hc⟩

/-! ## C66: exactly which numbers get a wrong category -/

/-- The wrong numbers of a locale, by the integer part `i`, the number `v` of fraction digits and the number `f` that these write. -/
def wrongNumbers : PluralRuleType → List (Str × (Nat → Nat → Nat → Prop))
  | .CARDINAL => [
  (c!"ar", fun i _ f => 
    (f = 0 ∧ 100 ≤ i ∧ 3 ≤ i % 100) ∨ (f ≠ 0 ∧ 3 ≤ i ∧ i ≤ 99)),
  (c!"ars", fun i _ f => 
    (f = 0 ∧ 100 ≤ i ∧ 3 ≤ i % 100) ∨ (f ≠ 0 ∧ 3 ≤ i ∧ i ≤ 99)),
  (c!"be", fun i _ f => 
    (f = 0 ∧ 15 ≤ i ∧ i % 10 ≠ 0 ∧ ¬ (i % 10 = 1 ∧ i % 100 ≠ 11)) ∨
    (f ≠ 0 ∧ (i % 10 = 0 ∨ (i % 10 = 1 ∧ i % 100 ≠ 11) ∨ (2 ≤ i ∧ i ≤ 14)))),
  (c!"br", fun i _ f => 
    (f = 0 ∧ 5 ≤ i ∧ (i % 10 = 3 ∨ i % 10 = 4) ∧ ¬ (10 ≤ i % 100 ∧ i % 100 ≤ 19) ∧ ¬ (70 ≤ i % 100 ∧ i % 100 ≤ 79) ∧
      ¬ (90 ≤ i % 100 ∧ i % 100 ≤ 99)) ∨
    (f = 0 ∧ 100 ≤ i ∧ (i % 100 = 19 ∨ i % 100 = 79 ∨ i % 100 = 99)) ∨
    (f ≠ 0 ∧ ((i % 10 = 1 ∧ i % 100 ≠ 11 ∧ i % 100 ≠ 71 ∧ i % 100 ≠ 91) ∨ (i % 10 = 2 ∧ i % 100 ≠ 12 ∧ i % 100 ≠ 72 ∧ i % 100 ≠ 92) ∨
      i = 3 ∨ i = 4 ∨ (i % 10 = 9 ∧ i ≠ 19 ∧ i ≠ 79 ∧ i ≠ 99) ∨ i % 1000000 = 0))),
  (c!"kw", fun i _ f => 
    (f = 0 ∧ 20000 < i ∧ i % 1000 = 0 ∧ 1000 ≤ i % 100000 ∧ i % 100000 ≤ 20000) ∨
    (f ≠ 0 ∧ ((i % 20 = 1 ∨ i % 20 = 2 ∨ i % 20 = 3) ∨ i % 1000000 = 100000 ∨
      (i % 1000 = 0 ∧ ((1000 ≤ i ∧ i ≤ 20000) ∨ i % 100000 = 40000 ∨ i % 100000 = 60000 ∨ i % 100000 = 80000))))),
  (c!"lt", fun i _ f => 
    (f = 0 ∧ 10 ≤ i ∧ 2 ≤ i % 10 ∧ ¬ (11 ≤ i % 100 ∧ i % 100 ≤ 19)) ∨ (f = 0 ∧ 100 ≤ i ∧ i % 100 = 11) ∨
    (f ≠ 0 ∧ 2 ≤ i ∧ i ≤ 9)),
  (c!"lv", fun i v f => 
    (f = 0 ∧ 100 ≤ i ∧ 11 ≤ i % 100 ∧ i % 100 ≤ 19) ∨
    (f ≠ 0 ∧ i % 10 = 1 ∧ i % 100 ≠ 11 ∧ (f % 10 = 1 → v = 2 ∧ f % 100 = 11)) ∨
    (f ≠ 0 ∧ (i % 10 = 0 ∨ (11 ≤ i ∧ i ≤ 19)) ∧ ¬ (v = 2 ∧ 11 ≤ f % 100 ∧ f % 100 ≤ 19) ∧ f % 10 ≠ 1)),
  (c!"mo", fun i v _ => 
    v = 0 ∧ 100 ≤ i ∧ 2 ≤ i % 100 ∧ i % 100 ≤ 19),
  (c!"mt", fun i _ f => 
    (f = 0 ∧ 100 ≤ i ∧ 2 ≤ i % 100 ∧ i % 100 ≤ 19) ∨ (f ≠ 0 ∧ 2 ≤ i ∧ i ≤ 19)),
  (c!"prg", fun i v f => 
    (f = 0 ∧ 100 ≤ i ∧ 11 ≤ i % 100 ∧ i % 100 ≤ 19) ∨
    (f ≠ 0 ∧ i % 10 = 1 ∧ i % 100 ≠ 11 ∧ (f % 10 = 1 → v = 2 ∧ f % 100 = 11)) ∨
    (f ≠ 0 ∧ (i % 10 = 0 ∨ (11 ≤ i ∧ i ≤ 19)) ∧ ¬ (v = 2 ∧ 11 ≤ f % 100 ∧ f % 100 ≤ 19) ∧ f % 10 ≠ 1)),
  (c!"ro", fun i v _ => 
    v = 0 ∧ 100 ≤ i ∧ 2 ≤ i % 100 ∧ i % 100 ≤ 19)]
  | .ORDINAL => [
  (c!"be", fun i _ f => 
    f ≠ 0 ∧ (i % 10 = 2 ∨ i % 10 = 3) ∧ i % 100 ≠ 12 ∧ i % 100 ≠ 13),
  (c!"en", fun i _ f => 
    f ≠ 0 ∧ (i % 10 = 1 ∨ i % 10 = 2 ∨ i % 10 = 3) ∧ i % 100 ≠ 11 ∧ i % 100 ≠ 12 ∧ i % 100 ≠ 13),
  (c!"kk", fun i _ f => 
    f ≠ 0 ∧ (i % 10 = 0 ∨ i % 10 = 6 ∨ i % 10 = 9)),
  (c!"kw", fun i _ f => 
    (f = 0 ∧ 100 ≤ i ∧ 1 ≤ i % 20 ∧ i % 20 ≤ 4) ∨
    (f ≠ 0 ∧ ((i ≤ 100 ∧ 1 ≤ i % 20 ∧ i % 20 ≤ 4) ∨ i % 100 = 5))),
  (c!"sq", fun i _ f => 
    f ≠ 0 ∧ i % 10 = 4 ∧ i % 100 ≠ 14),
  (c!"sv", fun i _ f => 
    f ≠ 0 ∧ (i % 10 = 1 ∨ i % 10 = 2) ∧ i % 100 ≠ 11 ∧ i % 100 ≠ 12),
  (c!"tk", fun i _ f => 
    f ≠ 0 ∧ (i % 10 = 6 ∨ i % 10 = 9)),
  (c!"uk", fun i _ f => 
    f ≠ 0 ∧ i % 10 = 3 ∧ i % 100 ≠ 13)]

/-- The integer that a relation without `within` looks at, decided. -/
def acceptsB (d : Dec) (e : Expression) : RangeListItem → Bool
  | .value k => Actual.look d e == k && (e.operand != .N || e.modulus != none || d.f == 0)
  | .range lo hi =>
    if e.operand = .N then decide (lo ≤ d.i) && decide (d.i ≤ hi) && (e.modulus != none || d.f == 0)
    else decide (lo ≤ Actual.look d e) && decide (Actual.look d e ≤ hi)

def rejectsB (d : Dec) (e : Expression) : RangeListItem → Bool
  | .value k => !(Actual.look d e == k && (e.operand != .N || e.modulus != none || d.f == 0))
  | .range lo hi =>
    if e.operand = .N then !(decide (lo ≤ d.i) && decide (d.i ≤ hi)) && (e.modulus != none || d.f == 0)
    else !(decide (lo ≤ Actual.look d e) && decide (Actual.look d e ≤ hi))

def actRelB (d : Dec) (r : Relation) : Bool :=
  if positiveRel r then r.rangeList.any (acceptsB d r.expression) else r.rangeList.all (rejectsB d r.expression)

def actHoldsB (d : Dec) (c : Condition) : Bool := c.any fun a => a.all (actRelB d)

theorem acceptsB_iff (d : Dec) (e : Expression) (x : RangeListItem) : acceptsB d e x = true ↔ Actual.Accepts d e x := by
  cases x <;> simp only [acceptsB, Actual.Accepts] <;> (try split_ifs) <;> simp <;> grind

theorem rejectsB_iff (d : Dec) (e : Expression) (x : RangeListItem) : rejectsB d e x = true ↔ Actual.Rejects d e x := by
  cases x <;> simp only [rejectsB, Actual.Rejects] <;> (try split_ifs) <;> simp <;> grind

theorem actHoldsB_iff (d : Dec) (c : Condition) (hc : noWithin c = true) : actHoldsB d c = true ↔ Actual.Holds d c := by
  simp only [noWithin, List.all_eq_true] at hc
  simp only [actHoldsB, Actual.Holds, List.any_eq_true, List.all_eq_true]
  refine exists_congr fun a => and_congr_right fun ha => forall_congr' fun r => forall_congr' fun hr => ?_
  have h := hc a ha r hr
  unfold actRelB Actual.RelationHolds
  cases ho : r.operator <;>
    simp [positiveRel, negativeRel, ho, acceptsB_iff, rejectsB_iff] at h ⊢

/-- The first category marked true. -/
def firstOf : List (PluralCategory × Bool) → PluralCategory
  | [] => .OTHER
  | (c, b) :: l => if b = true then c else firstOf l

/-- The category by C65, computed. -/
def actB (l : List (PluralCategory × Condition)) (d : Dec) : PluralCategory :=
  firstOf (selectOrder.map fun c => (c, l.any fun x => x.1 == c && actHoldsB d x.2))

theorem firstOf_map (p : PluralCategory → Bool) (P : PluralCategory → Prop) (order : List PluralCategory)
    (h : ∀ c, p c = true ↔ P c) (c : PluralCategory)
    (hc : (∃ before after, order = before ++ c :: after ∧ P c ∧ ∀ c' ∈ before, ¬ P c') ∨ (c = .OTHER ∧ ∀ c' ∈ order, ¬ P c')) :
    firstOf (order.map fun c => (c, p c)) = c := by
  induction order with
  | nil => simpa [firstOf, eq_comm] using hc
  | cons x order ih =>
    simp only [List.map_cons, firstOf]
    rcases hc with ⟨before, after, h1, h2, h3⟩ | ⟨rfl, h3⟩
    · cases before with
      | nil => simp only [List.nil_append, List.cons.injEq] at h1; rw [if_pos ((h x).2 (h1.1 ▸ h2)), h1.1]
      | cons y before =>
        simp only [List.cons_append, List.cons.injEq] at h1
        obtain ⟨rfl, rfl⟩ := h1
        rw [if_neg (fun hx => h3 x (by simp) ((h x).1 hx))]
        exact ih (.inl ⟨before, after, rfl, h2, fun c' hc => h3 c' (by simp [hc])⟩)
    · rw [if_neg (fun hx => h3 x (by simp) ((h x).1 hx))]
      exact ih (.inr ⟨rfl, fun c' hc => h3 c' (by simp [hc])⟩)

theorem actB_category {rules : List (Str × Str)} {l : List (PluralCategory × Condition)}
    (h : GenPr.mapPanic readRule rules = some l) (hw : l.all (fun x => noWithin x.2) = true) (d : Dec) (c : PluralCategory)
    (hc : ActualCategory rules d c) : actB l d = c := by
  simp only [List.all_eq_true] at hw
  refine firstOf_map _ (ActuallySatisfies rules d) selectOrder (fun c => ?_) c hc
  rw [actuallySatisfies_iff h]
  simp only [List.any_eq_true, Bool.and_eq_true, beq_iff_eq]
  constructor
  · rintro ⟨⟨c', cond⟩, hm, h1, h2⟩
    simp only at h1; subst h1
    exact ⟨cond, hm, (actHoldsB_iff d cond (hw _ hm)).1 h2⟩
  · rintro ⟨cond, hm, h2⟩
    exact ⟨(c, cond), hm, rfl, (actHoldsB_iff d cond (hw _ hm)).2 h2⟩

theorem catB_firstOf (l : List (PluralCategory × Condition)) (d : Dec) :
    catB l d = firstOf (l.map fun x => (x.1, x.1 != .OTHER && holdsB d x.2)) := by
  induction l with
  | nil => rfl
  | cons x l ih =>
    simp only [catB, List.find?_cons, List.map_cons, firstOf] at ih ⊢
    by_cases h : (x.1 != .OTHER && holdsB d x.2) = true
    · simp [h]
    · simp only [h, ih]; simp

/-- The rules of a locale, read. -/
def rulesRead (t : PluralRuleType) (key : Str) : Option (List (PluralCategory × Condition)) :=
  ((cldrData t).find? fun p => p.1 == key).bind fun p => GenPr.mapPanic readRule p.2

/-- The wrong numbers of rules. -/
def WrongOn (l : List (PluralCategory × Condition)) (wrong : Nat → Nat → Nat → Prop) : Prop :=
  l.all (fun x => noWithin x.2) = true ∧ ∀ d : Dec, (d.v = 0 → d.f = 0) → (actB l d = catB l d ↔ ¬ wrong d.i d.v d.f)

abbrev eq (o : Operand) (m : Option Nat) (l : List RangeListItem) : Relation := ⟨⟨o, m⟩, .EQ, l⟩
abbrev ne (o : Operand) (m : Option Nat) (l : List RangeListItem) : Relation := ⟨⟨o, m⟩, .NotEQ, l⟩

macro "wrong_on" : tactic => `(tactic| (
  refine ⟨by decide, fun d hd => ?_⟩
  simp only [catB_firstOf, actB, selectOrder, firstOf, List.map_cons, List.map_nil, List.any_cons, List.any_nil, List.all_cons,
    List.all_nil, actHoldsB, holdsB, actRelB, relB, acceptsB, rejectsB, positiveRel, Actual.look, intExpr, intOperand, itemNat]
  simp
  grind (splits := 40)))

def rulesCard_ar : List (PluralCategory × Condition) :=
  [(.ZERO, [[eq .N none [.value 0]]]),
    (.ONE, [[eq .N none [.value 1]]]),
    (.TWO, [[eq .N none [.value 2]]]),
    (.FEW, [[eq .N (some 100) [.range 3 10]]]),
    (.MANY, [[eq .N (some 100) [.range 11 99]]]),
    (.OTHER, [])]

theorem wrongCard_ar : WrongOn rulesCard_ar (fun i _ f => (f = 0 ∧ 100 ≤ i ∧ 3 ≤ i % 100) ∨ (f ≠ 0 ∧ 3 ≤ i ∧ i ≤ 99)) := by
  unfold rulesCard_ar; wrong_on

def rulesCard_be : List (PluralCategory × Condition) :=
  [(.ONE, [[eq .N (some 10) [.value 1], ne .N (some 100) [.value 11]]]),
    (.FEW, [[eq .N (some 10) [.range 2 4], ne .N (some 100) [.range 12 14]]]),
    (.MANY, [[eq .N (some 10) [.value 0]], [eq .N (some 10) [.range 5 9]], [eq .N (some 100) [.range 11 14]]]),
    (.OTHER, [])]

theorem wrongCard_be : WrongOn rulesCard_be (fun i _ f => (f = 0 ∧ 15 ≤ i ∧ i % 10 ≠ 0 ∧ ¬ (i % 10 = 1 ∧ i % 100 ≠ 11)) ∨
    (f ≠ 0 ∧ (i % 10 = 0 ∨ (i % 10 = 1 ∧ i % 100 ≠ 11) ∨ (2 ≤ i ∧ i ≤ 14)))) := by
  unfold rulesCard_be; wrong_on

def rulesCard_br : List (PluralCategory × Condition) :=
  [(.ONE, [[eq .N (some 10) [.value 1], ne .N (some 100) [.value 11, .value 71, .value 91]]]),
    (.TWO, [[eq .N (some 10) [.value 2], ne .N (some 100) [.value 12, .value 72, .value 92]]]),
    (.FEW, [[eq .N (some 10) [.range 3 4, .value 9], ne .N (some 100) [.range 10 19, .range 70 79, .range 90 99]]]),
    (.MANY, [[ne .N none [.value 0], eq .N (some 1000000) [.value 0]]]),
    (.OTHER, [])]

theorem wrongCard_br : WrongOn rulesCard_br (fun i _ f => (f = 0 ∧ 5 ≤ i ∧ (i % 10 = 3 ∨ i % 10 = 4) ∧ ¬ (10 ≤ i % 100 ∧ i % 100 ≤ 19) ∧ ¬ (70 ≤ i % 100 ∧ i % 100 ≤ 79) ∧
      ¬ (90 ≤ i % 100 ∧ i % 100 ≤ 99)) ∨
    (f = 0 ∧ 100 ≤ i ∧ (i % 100 = 19 ∨ i % 100 = 79 ∨ i % 100 = 99)) ∨
    (f ≠ 0 ∧ ((i % 10 = 1 ∧ i % 100 ≠ 11 ∧ i % 100 ≠ 71 ∧ i % 100 ≠ 91) ∨ (i % 10 = 2 ∧ i % 100 ≠ 12 ∧ i % 100 ≠ 72 ∧ i % 100 ≠ 92) ∨
      i = 3 ∨ i = 4 ∨ (i % 10 = 9 ∧ i ≠ 19 ∧ i ≠ 79 ∧ i ≠ 99) ∨ i % 1000000 = 0))) := by
  unfold rulesCard_br; wrong_on

def rulesCard_kw : List (PluralCategory × Condition) :=
  [(.ZERO, [[eq .N none [.value 0]]]),
    (.ONE, [[eq .N none [.value 1]]]),
    (.TWO, [[eq .N (some 100) [.value 2, .value 22, .value 42, .value 62, .value 82]], [eq .N (some 1000) [.value 0], eq .N (some 100000) [.range 1000 20000, .value 40000, .value 60000, .value 80000]], [ne .N none [.value 0], eq .N (some 1000000) [.value 100000]]]),
    (.FEW, [[eq .N (some 100) [.value 3, .value 23, .value 43, .value 63, .value 83]]]),
    (.MANY, [[ne .N none [.value 1], eq .N (some 100) [.value 1, .value 21, .value 41, .value 61, .value 81]]]),
    (.OTHER, [])]

theorem wrongCard_kw : WrongOn rulesCard_kw (fun i _ f => (f = 0 ∧ 20000 < i ∧ i % 1000 = 0 ∧ 1000 ≤ i % 100000 ∧ i % 100000 ≤ 20000) ∨
    (f ≠ 0 ∧ ((i % 20 = 1 ∨ i % 20 = 2 ∨ i % 20 = 3) ∨ i % 1000000 = 100000 ∨
      (i % 1000 = 0 ∧ ((1000 ≤ i ∧ i ≤ 20000) ∨ i % 100000 = 40000 ∨ i % 100000 = 60000 ∨ i % 100000 = 80000))))) := by
  unfold rulesCard_kw; wrong_on

def rulesCard_lt : List (PluralCategory × Condition) :=
  [(.ONE, [[eq .N (some 10) [.value 1], ne .N (some 100) [.range 11 19]]]),
    (.FEW, [[eq .N (some 10) [.range 2 9], ne .N (some 100) [.range 11 19]]]),
    (.MANY, [[ne .F none [.value 0]]]),
    (.OTHER, [])]

theorem wrongCard_lt : WrongOn rulesCard_lt (fun i _ f => (f = 0 ∧ 10 ≤ i ∧ 2 ≤ i % 10 ∧ ¬ (11 ≤ i % 100 ∧ i % 100 ≤ 19)) ∨ (f = 0 ∧ 100 ≤ i ∧ i % 100 = 11) ∨
    (f ≠ 0 ∧ 2 ≤ i ∧ i ≤ 9)) := by
  unfold rulesCard_lt; wrong_on

def rulesCard_lv : List (PluralCategory × Condition) :=
  [(.ZERO, [[eq .N (some 10) [.value 0]], [eq .N (some 100) [.range 11 19]], [eq .V none [.value 2], eq .F (some 100) [.range 11 19]]]),
    (.ONE, [[eq .N (some 10) [.value 1], ne .N (some 100) [.value 11]], [eq .V none [.value 2], eq .F (some 10) [.value 1], ne .F (some 100) [.value 11]], [ne .V none [.value 2], eq .F (some 10) [.value 1]]]),
    (.OTHER, [])]

theorem wrongCard_lv : WrongOn rulesCard_lv (fun i v f => (f = 0 ∧ 100 ≤ i ∧ 11 ≤ i % 100 ∧ i % 100 ≤ 19) ∨
    (f ≠ 0 ∧ i % 10 = 1 ∧ i % 100 ≠ 11 ∧ (f % 10 = 1 → v = 2 ∧ f % 100 = 11)) ∨
    (f ≠ 0 ∧ (i % 10 = 0 ∨ (11 ≤ i ∧ i ≤ 19)) ∧ ¬ (v = 2 ∧ 11 ≤ f % 100 ∧ f % 100 ≤ 19) ∧ f % 10 ≠ 1)) := by
  unfold rulesCard_lv; wrong_on

def rulesCard_mo : List (PluralCategory × Condition) :=
  [(.ONE, [[eq .I none [.value 1], eq .V none [.value 0]]]),
    (.FEW, [[ne .V none [.value 0]], [eq .N none [.value 0]], [eq .N (some 100) [.range 2 19]]]),
    (.OTHER, [])]

theorem wrongCard_mo : WrongOn rulesCard_mo (fun i v _ => v = 0 ∧ 100 ≤ i ∧ 2 ≤ i % 100 ∧ i % 100 ≤ 19) := by
  unfold rulesCard_mo; wrong_on

def rulesCard_mt : List (PluralCategory × Condition) :=
  [(.ONE, [[eq .N none [.value 1]]]),
    (.FEW, [[eq .N none [.value 0]], [eq .N (some 100) [.range 2 10]]]),
    (.MANY, [[eq .N (some 100) [.range 11 19]]]),
    (.OTHER, [])]

theorem wrongCard_mt : WrongOn rulesCard_mt (fun i _ f => (f = 0 ∧ 100 ≤ i ∧ 2 ≤ i % 100 ∧ i % 100 ≤ 19) ∨ (f ≠ 0 ∧ 2 ≤ i ∧ i ≤ 19)) := by
  unfold rulesCard_mt; wrong_on

def rulesOrd_be : List (PluralCategory × Condition) :=
  [(.FEW, [[eq .N (some 10) [.value 2, .value 3], ne .N (some 100) [.value 12, .value 13]]]),
    (.OTHER, [])]

theorem wrongOrd_be : WrongOn rulesOrd_be (fun i _ f => f ≠ 0 ∧ (i % 10 = 2 ∨ i % 10 = 3) ∧ i % 100 ≠ 12 ∧ i % 100 ≠ 13) := by
  unfold rulesOrd_be; wrong_on

def rulesOrd_en : List (PluralCategory × Condition) :=
  [(.ONE, [[eq .N (some 10) [.value 1], ne .N (some 100) [.value 11]]]),
    (.TWO, [[eq .N (some 10) [.value 2], ne .N (some 100) [.value 12]]]),
    (.FEW, [[eq .N (some 10) [.value 3], ne .N (some 100) [.value 13]]]),
    (.OTHER, [])]

theorem wrongOrd_en : WrongOn rulesOrd_en (fun i _ f => f ≠ 0 ∧ (i % 10 = 1 ∨ i % 10 = 2 ∨ i % 10 = 3) ∧ i % 100 ≠ 11 ∧ i % 100 ≠ 12 ∧ i % 100 ≠ 13) := by
  unfold rulesOrd_en; wrong_on

def rulesOrd_kk : List (PluralCategory × Condition) :=
  [(.MANY, [[eq .N (some 10) [.value 6]], [eq .N (some 10) [.value 9]], [eq .N (some 10) [.value 0], ne .N none [.value 0]]]),
    (.OTHER, [])]

theorem wrongOrd_kk : WrongOn rulesOrd_kk (fun i _ f => f ≠ 0 ∧ (i % 10 = 0 ∨ i % 10 = 6 ∨ i % 10 = 9)) := by
  unfold rulesOrd_kk; wrong_on

def rulesOrd_kw : List (PluralCategory × Condition) :=
  [(.ONE, [[eq .N none [.range 1 4]], [eq .N (some 100) [.range 1 4, .range 21 24, .range 41 44, .range 61 64, .range 81 84]]]),
    (.MANY, [[eq .N none [.value 5]], [eq .N (some 100) [.value 5]]]),
    (.OTHER, [])]

theorem wrongOrd_kw : WrongOn rulesOrd_kw (fun i _ f => (f = 0 ∧ 100 ≤ i ∧ 1 ≤ i % 20 ∧ i % 20 ≤ 4) ∨
    (f ≠ 0 ∧ ((i ≤ 100 ∧ 1 ≤ i % 20 ∧ i % 20 ≤ 4) ∨ i % 100 = 5))) := by
  unfold rulesOrd_kw; wrong_on

def rulesOrd_sq : List (PluralCategory × Condition) :=
  [(.ONE, [[eq .N none [.value 1]]]),
    (.MANY, [[eq .N (some 10) [.value 4], ne .N (some 100) [.value 14]]]),
    (.OTHER, [])]

theorem wrongOrd_sq : WrongOn rulesOrd_sq (fun i _ f => f ≠ 0 ∧ i % 10 = 4 ∧ i % 100 ≠ 14) := by
  unfold rulesOrd_sq; wrong_on

def rulesOrd_sv : List (PluralCategory × Condition) :=
  [(.ONE, [[eq .N (some 10) [.value 1, .value 2], ne .N (some 100) [.value 11, .value 12]]]),
    (.OTHER, [])]

theorem wrongOrd_sv : WrongOn rulesOrd_sv (fun i _ f => f ≠ 0 ∧ (i % 10 = 1 ∨ i % 10 = 2) ∧ i % 100 ≠ 11 ∧ i % 100 ≠ 12) := by
  unfold rulesOrd_sv; wrong_on

def rulesOrd_tk : List (PluralCategory × Condition) :=
  [(.FEW, [[eq .N (some 10) [.value 6, .value 9]], [eq .N none [.value 10]]]),
    (.OTHER, [])]

theorem wrongOrd_tk : WrongOn rulesOrd_tk (fun i _ f => f ≠ 0 ∧ (i % 10 = 6 ∨ i % 10 = 9)) := by
  unfold rulesOrd_tk; wrong_on

def rulesOrd_uk : List (PluralCategory × Condition) :=
  [(.FEW, [[eq .N (some 10) [.value 3], ne .N (some 100) [.value 13]]]),
    (.OTHER, [])]

theorem wrongOrd_uk : WrongOn rulesOrd_uk (fun i _ f => f ≠ 0 ∧ i % 10 = 3 ∧ i % 100 ≠ 13) := by
  unfold rulesOrd_uk; wrong_on

theorem wrong_rules (t : PluralRuleType) (x : Str × (Nat → Nat → Nat → Prop)) (hx : x ∈ wrongNumbers t) :
    ∃ l, rulesRead t x.1 = some l ∧ WrongOn l x.2 := by
  cases t with
  | CARDINAL =>
    simp only [wrongNumbers, List.mem_cons, List.not_mem_nil, or_false] at hx
    rcases hx with rfl | rfl | rfl | rfl | rfl | rfl | rfl | rfl | rfl | rfl | rfl
    · exact ⟨rulesCard_ar, by decide +kernel, wrongCard_ar⟩
    · exact ⟨rulesCard_ar, by decide +kernel, wrongCard_ar⟩
    · exact ⟨rulesCard_be, by decide +kernel, wrongCard_be⟩
    · exact ⟨rulesCard_br, by decide +kernel, wrongCard_br⟩
    · exact ⟨rulesCard_kw, by decide +kernel, wrongCard_kw⟩
    · exact ⟨rulesCard_lt, by decide +kernel, wrongCard_lt⟩
    · exact ⟨rulesCard_lv, by decide +kernel, wrongCard_lv⟩
    · exact ⟨rulesCard_mo, by decide +kernel, wrongCard_mo⟩
    · exact ⟨rulesCard_mt, by decide +kernel, wrongCard_mt⟩
    · exact ⟨rulesCard_lv, by decide +kernel, wrongCard_lv⟩
    · exact ⟨rulesCard_mo, by decide +kernel, wrongCard_mo⟩
  | ORDINAL =>
    simp only [wrongNumbers, List.mem_cons, List.not_mem_nil, or_false] at hx
    rcases hx with rfl | rfl | rfl | rfl | rfl | rfl | rfl | rfl
    · exact ⟨rulesOrd_be, by decide +kernel, wrongOrd_be⟩
    · exact ⟨rulesOrd_en, by decide +kernel, wrongOrd_en⟩
    · exact ⟨rulesOrd_kk, by decide +kernel, wrongOrd_kk⟩
    · exact ⟨rulesOrd_kw, by decide +kernel, wrongOrd_kw⟩
    · exact ⟨rulesOrd_sq, by decide +kernel, wrongOrd_sq⟩
    · exact ⟨rulesOrd_sv, by decide +kernel, wrongOrd_sv⟩
    · exact ⟨rulesOrd_tk, by decide +kernel, wrongOrd_tk⟩
    · exact ⟨rulesOrd_uk, by decide +kernel, wrongOrd_uk⟩

theorem wrong_keys (t : PluralRuleType) : (wrongNumbers t).map (·.1) = (decimalExceptions t).map (·.1) := by
  cases t <;> rfl

/-- The number is one of the wrong numbers of its locale. -/
def IsWrong (t : PluralRuleType) (id : LangId) (d : Dec) : Prop :=
  ∃ x ∈ wrongNumbers t, LangId.parse x.1 = some id ∧ x.2 d.i d.v d.f

theorem select_exactly (t : PluralRuleType) (id : LangId) (pr : PluralRules) (h : create id t = .ok pr) (po : PluralOperands) (d : Dec)
    (hr : Represents True po d) : ∃ c c', select (ε := OpsErr) pr (.ok po) = some (.ok c) ∧ CldrCategory t id d c' ∧
      (c = c' ↔ ¬ IsWrong t id d) := by
  by_cases hx : ∃ x ∈ wrongNumbers t, LangId.parse x.1 = some id
  · obtain ⟨c, key, rules, h1, h2, h3, h4⟩ := select_actual t id pr h po d hr
    have hread : ∀ x ∈ wrongNumbers t, LangId.parse x.1 = some id → ∃ l, GenPr.mapPanic readRule rules = some l ∧ WrongOn l x.2 := by
      intro x hx hid
      obtain ⟨l, h5, h6⟩ := wrong_rules t x hx
      simp only [rulesRead, Option.bind_eq_some_iff] at h5
      obtain ⟨p, h7, h8⟩ := h5
      have h9 := List.find?_some h7
      simp only [beq_iff_eq] at h9
      obtain ⟨-, rfl⟩ := key_unique t id _ _ _ _ (List.mem_of_find?_eq_some h7) h2 (h9 ▸ hid) h3
      exact ⟨l, h8, h6⟩
    have hv : d.v = 0 → d.f = 0 := by
      intro hv
      simp only [Dec.v, List.length_eq_zero_iff] at hv
      simp [Dec.f, hv, digitsNum]
    obtain ⟨x, hx, hid⟩ := hx
    obtain ⟨l, h5, h6⟩ := hread x hx hid
    refine ⟨c, catB l d, h1, ⟨key, rules, h2, h3, catB_category h5 h6.1 d⟩, ?_⟩
    rw [← actB_category h5 h6.1 d c h4]
    constructor
    · rintro he ⟨x', hx', hid', hw⟩
      obtain ⟨l', h5', h6'⟩ := hread x' hx' hid'
      rw [h5] at h5'
      cases h5'
      exact (h6'.2 d hv).1 he hw
    · intro hw
      exact (h6.2 d hv).2 fun hw' => hw ⟨x, hx, hid, hw'⟩
  · obtain ⟨c, h1, h2⟩ := select_category t id pr h .frac (by
      intro x hx' hid
      have : x.1 ∈ (wrongNumbers t).map (·.1) := by rw [wrong_keys]; exact List.mem_map.2 ⟨x, hx', rfl⟩
      obtain ⟨y, hy, hy'⟩ := List.mem_map.1 this
      exact hx ⟨y, hy, hy' ▸ hid⟩) po d hr trivial
    exact ⟨c, c, h1, h2, by simp only [true_iff]; rintro ⟨x, hx', hid, -⟩; exact hx ⟨x, hx', hid⟩⟩

/-- C66: `select` gives the CLDR category on a number exactly if the number is not one of the wrong numbers of the locale. -/
theorem C66_exactly (t : PluralRuleType) (id : LangId) (pr : PluralRules) (h : create id t = .ok pr) (po : PluralOperands) (d : Dec)
    (ho : OperandsOf po d) (hd : Fits d) : ∃ c c', select (ε := OpsErr) pr (.ok po) = some (.ok c) ∧ CldrCategory t id d c' ∧
      (c = c' ↔ ¬ IsWrong t id d) :=
  select_exactly t id pr h po d (represents_of po d ho hd)

/-- 1.5 in Belarusian. -/
example : ∃ pr c c', create ⟨some c!"be", none, none, none⟩ .CARDINAL = .ok pr ∧
    select (ε := OpsErr) pr (.ok ⟨Flt.ofRat b64 false 15 10, 1, 1, 1, 5, 5⟩) = some (.ok c) ∧
    CldrCategory .CARDINAL ⟨some c!"be", none, none, none⟩ ⟨1, [5]⟩ c' := by
  obtain ⟨pr, h⟩ := (C01_create_iff_listed ⟨some c!"be", none, none, none⟩ .CARDINAL).1.2 (by decide +kernel)
  obtain ⟨c, c', h1, h2, -⟩ := C66_exactly _ _ pr h ⟨Flt.ofRat b64 false 15 10, 1, 1, 1, 5, 5⟩ ⟨1, [5]⟩
    ⟨rfl, rfl, rfl, rfl, rfl, (ieee_value_iff _ _).2 (by decide +kernel)⟩ (.inl (by decide))
  exact ⟨pr, c, c', h, h1, h2⟩

/-- C66: all unsigned integers. -/
theorem C66_integers (t : PluralRuleType) (id : LangId) (pr : PluralRules) (h : create id t = .ok pr) (k : Nat) (hk : k < 2 ^ 64) :
    ∃ c c', select (ε := OpsErr) pr (.ok (fromUnsigned k)) = some (.ok c) ∧ CldrCategory t id ⟨k, []⟩ c' ∧
      (c = c' ↔ ¬ IsWrong t id ⟨k, []⟩) :=
  C66_exactly t id pr h _ _ (C08_operands k) (fits_nat k hk)

/-- Both cases of `C66_exactly` and `C66_integers`: 25 in Belarusian. -/
example : ∃ pr c c', create ⟨some c!"be", none, none, none⟩ .CARDINAL = .ok pr ∧
    select (ε := OpsErr) pr (.ok (fromUnsigned 25)) = some (.ok c) ∧ CldrCategory .CARDINAL ⟨some c!"be", none, none, none⟩ ⟨25, []⟩ c' ∧
      (c = c' ↔ ¬ IsWrong .CARDINAL ⟨some c!"be", none, none, none⟩ ⟨25, []⟩) := by
  obtain ⟨pr, h⟩ := (C01_create_iff_listed ⟨some c!"be", none, none, none⟩ .CARDINAL).1.2 (by decide +kernel)
  obtain ⟨c, c', hc⟩ := C66_integers _ _ pr h 25 (by decide)
  exact ⟨pr, c, c', h, hc⟩

/-- C66: decimal texts. -/
theorem C66_strings (t : PluralRuleType) (id : LangId) (pr : PluralRules) (h : create id t = .ok pr) (sign : Str)
    (hs : sign = [] ∨ sign = ['-']) (ip fp : List (Fin 10)) (hi : ip ≠ []) (h1 : allDigits (decOf ip fp) < 2 ^ 53)
    (h2 : fp.length ≤ 300) : ∃ c c', select pr (tryFromStr (sign ++ plainText ip fp)) = some (.ok c) ∧
      CldrCategory t id (decOf ip fp) c' ∧ (c = c' ↔ ¬ IsWrong t id (decOf ip fp)) := by
  obtain ⟨po, h3, h4⟩ := plain_operands sign hs ip fp hi h1 h2
  rw [h3]
  exact select_exactly t id pr h po _ h4

/-- C66 tells numbers apart: in Belarusian 25 and 0.5 are wrong, 21 and 1000.0 are right; in German no number is wrong. -/
example : ∃ be de, LangId.parse c!"be" = some be ∧ LangId.parse c!"de" = some de ∧ IsWrong .CARDINAL be ⟨25, []⟩ ∧
    IsWrong .CARDINAL be ⟨0, [5]⟩ ∧ ¬ IsWrong .CARDINAL be ⟨21, []⟩ ∧ ¬ IsWrong .CARDINAL be ⟨1000, [0]⟩ ∧
    (∀ d, ¬ IsWrong .CARDINAL de d) ∧ (∃ pr, create be .CARDINAL = .ok pr) ∧ Fits ⟨1000, [0]⟩ := by
  have keys : ((wrongNumbers .CARDINAL).map fun x => LangId.parse x.1) = [c!"ar", c!"ars", c!"be", c!"br", c!"kw", c!"lt", c!"lv",
      c!"mo", c!"mt", c!"prg", c!"ro"].map fun k => some ⟨some k, none, none, none⟩ := by decide +kernel
  simp only [wrongNumbers, List.map_cons, List.map_nil, List.cons.injEq] at keys
  obtain ⟨k1, k2, k3, k4, k5, k6, k7, k8, k9, k10, k11, -⟩ := keys
  have hc : (create ⟨some c!"be", none, none, none⟩ .CARDINAL).toBool = true := by decide +kernel
  have hc : ∃ pr, create ⟨some c!"be", none, none, none⟩ .CARDINAL = .ok pr := by
    cases h : create ⟨some c!"be", none, none, none⟩ .CARDINAL with
    | error e => rw [h] at hc; cases hc
    | ok pr => exact ⟨pr, rfl⟩
  refine ⟨⟨some c!"be", none, none, none⟩, ⟨some c!"de", none, none, none⟩, k3, by decide +kernel, ?_, ?_, ?_, ?_, ?_,
    hc, .inl ⟨by decide, by decide⟩⟩ <;>
  simp [IsWrong, wrongNumbers, k1, k2, k3, k4, k5, k6, k7, k8, k9, k10, k11, Dec.i, Dec.f, digitsNum]

end Verif.Props
