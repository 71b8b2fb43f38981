import Verif.Lemmas.Ieee
import Verif.Lemmas.Precedence

/-!
# C38–C44: the code generated for a condition
-/

namespace Verif.Props
open Verif Rust Uts35 Spec GenPr Sem Prec

/-! ## From tests to code -/

theorem positive_cases {o : Operator} (h : ¬ IsWithin o) : Positive o ∨ Negative o := by
  cases o <;> simp [IsWithin, Positive, Negative] at *

theorem isWithin_iff (o : Operator) : GenPr.isWithin o = true ↔ IsWithin o := by
  cases o <;> simp [IsWithin, GenPr.isWithin]

theorem not_isWithin (o : Operator) (h : Positive o ∨ Negative o) : ¬ IsWithin o := by
  cases o <;> simp [IsWithin, Positive, Negative] at *

theorem listed_of {ex : Expression} {o : Operator} {l : List RangeListItem} (h : Positive o ∨ Negative o) (hl : l ≠ []) :
    Listed ⟨ex, o, l⟩ := ⟨hl, fun hw => absurd hw (not_isWithin o h)⟩

theorem code_of_condition (c : Condition) (h : AllRelations Listed c) :
    ∃ e, Code c e ∧ Intended.condition c = some e := by
  obtain ⟨ts, e, h1, h2, h3⟩ := condition_code c
    ⟨h.1, fun a ha => ⟨(h.2 a ha).1, fun r hr _ => ((h.2 a ha).2 r hr).1⟩⟩
    (fun a ha r hr hw => ((h.2 a ha).2 r hr).2 ((isWithin_iff _).1 hw))
  exact ⟨e, ⟨ts, h1, h3⟩, h2⟩

/-- Code of a safe condition, for operands that represent a number. -/
theorem code_sem {N : Prop} (c : Condition) (lvl : Level) (hs : ∀ a ∈ c, ∀ r ∈ a, relSafe lvl r = true) (hc : c ≠ [])
    (ha : ∀ a ∈ c, a ≠ []) (po : PluralOperands) (d : Dec) (h : Represents N po d) (hl : lvl.ok d)
    (hN : ∀ a ∈ c, ∀ r ∈ a, r.expression.operand = .N → N) :
    ∃ e b, Code c e ∧ e.eval po = some (.bool b) ∧ (b = true ↔ Holds d c) := by
  obtain ⟨e, h1, h2⟩ := code_of_condition c ⟨hc, fun a h => ⟨ha a h, fun r hr => by
    have := hs a h r hr
    obtain ⟨x, op, l⟩ := r
    cases op <;> simp [Listed, IsWithin, relSafe] at this ⊢
    all_goals first
      | exact this.2.1
      | (obtain ⟨-, this⟩ := this
         split at this
         · exact ⟨by simp, _, _, List.mem_cons_self ..⟩
         · simp at this)⟩⟩
  obtain ⟨e', b, h3, h4, h5⟩ := condition_sem h lvl hl c hN (by
    simp only [condSafe, Bool.and_eq_true, Bool.not_eq_true', List.all_eq_true]
    refine ⟨by cases c <;> simp at *, fun a h => ?_⟩
    simp only [andSafe, Bool.and_eq_true, Bool.or_eq_true, List.all_eq_true, Bool.not_eq_true']
    exact ⟨by have := ha a h; cases a <;> simp at *, .inl (hs a h)⟩)
  rw [h2] at h3
  cases h3
  exact ⟨e, b, h1, h4, h5⟩

theorem condition_single (r : Relation) (h : Intended.relationTests r ≠ []) :
    Intended.condition [[r]] = Intended.allOf (Intended.relationTests r) := by
  cases hT : Intended.relationTests r with
  | nil => contradiction
  | cons t l => simp [Intended.condition, Intended.andCondition, hT, Intended.allOf, Intended.anyOf]

theorem code_single (r : Relation) (po : PluralOperands) (b : Bool) (hne : Intended.relationTests r ≠ [])
    (hr : Listed r)
    (h : EvAll po (Intended.relationTests r) b) : ∃ e, Code [[r]] e ∧ e.eval po = some (.bool b) := by
  obtain ⟨e, h1, h2⟩ := code_of_condition [[r]] ⟨by simp, by simpa using hr⟩
  rw [condition_single r hne] at h2
  obtain ⟨e', h3, h4⟩ := h.allOf hne
  rw [h2] at h3
  cases h3
  exact ⟨e, h1, h4⟩

/-! ## C38 -/

/-- Relations on `i`, `v`, `w`, `f`, `t` with a non-empty list and no modulus zero. -/
def IntegerRelation (r : Relation) : Prop :=
  r.expression.operand ≠ .N ∧ ¬ IsWithin r.operator ∧ r.rangeList ≠ [] ∧ r.expression.modulus ≠ some 0

/-- C38: the code generated for such a condition evaluates, on the operands of a number, to whether the number satisfies
the condition. -/
theorem C38_condition_correct (c : Condition) (hc : AllRelations IntegerRelation c) (po : PluralOperands) (d : Dec)
    (hi : po.i = d.i) (hv : po.v = d.v) (hw : po.w = d.w) (hf : po.f = d.f) (ht : po.t = d.t) :
    ∃ e b, Code c e ∧ e.eval po = some (.bool b) ∧ (b = true ↔ Holds d c) := by
  refine code_sem (N := False) c .frac ?_ hc.1 (fun a h => (hc.2 a h).1) po d ⟨hi, hv, hw, hf, ht, False.elim⟩ trivial ?_
  · intro a ha r hr
    obtain ⟨h1, h2, h3, h4⟩ := (hc.2 a ha).2 r hr
    have h5 : (!r.rangeList.isEmpty) = true := by simpa using h3
    obtain ⟨e, op, l⟩ := r
    simp only at h1 h2 h3 h4 h5
    cases op <;> simp [IsWithin] at h2 <;> simp [relSafe, h1, h4] <;> simpa using h3
  · intro a ha r hr ho
    exact absurd ho ((hc.2 a ha).2 r hr).1

/-- The condition `i % 10 = 2..4 and i % 100 != 12..14 or v != 0` is such a condition. -/
example : AllRelations IntegerRelation
    [[⟨⟨.I, some 10⟩, .EQ, [.range 2 4]⟩, ⟨⟨.I, some 100⟩, .NotEQ, [.range 12 14]⟩], [⟨⟨.V, none⟩, .NotEQ, [.value 0]⟩]] := by
  simp [AllRelations, IntegerRelation, IsWithin]

/-- It is true of 22 and false of 12 and 5. -/
example : let c : Condition := [[⟨⟨.I, some 10⟩, .EQ, [.range 2 4]⟩, ⟨⟨.I, some 100⟩, .NotEQ, [.range 12 14]⟩],
      [⟨⟨.V, none⟩, .NotEQ, [.value 0]⟩]]
    (genPr c).bind parseExpr |>.map (fun e => [22, 12, 5].map fun k => e.eval (PluralOperands.fromUnsigned k)) =
      some [some (.bool true), some (.bool false), some (.bool false)] := by decide +kernel

/-! ## C39 -/

/-- Relations whose code is right for all numbers: on `n` no modulus, and values only if negated. -/
def RightForAll (r : Relation) : Prop :=
  ¬ IsWithin r.operator ∧ r.rangeList ≠ [] ∧ r.expression.modulus ≠ some 0 ∧
  (r.expression.operand = .N → r.expression.modulus = none ∧ (∀ k, .value k ∈ r.rangeList → k < 2 ^ 53) ∧
    (Negative r.operator → ∀ lo hi, .range lo hi ∉ r.rangeList))

/-- Relations whose code is right for integers: on `n` with a modulus, only values. -/
def RightForIntegers (r : Relation) : Prop :=
  ¬ IsWithin r.operator ∧ r.rangeList ≠ [] ∧ r.expression.modulus ≠ some 0 ∧
  (r.expression.operand = .N → r.expression.modulus = none → ∀ k, .value k ∈ r.rangeList → k < 2 ^ 53) ∧
  (r.expression.operand = .N → r.expression.modulus ≠ none → ∀ lo hi, .range lo hi ∉ r.rangeList)

theorem represents_of (po : PluralOperands) (d : Dec) (h : OperandsOf po d) (hf : Fits d) : Represents True po d :=
  represents_of_fits po d h.i h.v h.w h.f h.t (fun _ => h.n_eq) (fun _ => hf)

/-- C39: conditions on `n` without modulus, negated only for values, are right for every decimal. -/
theorem C39_right_for_all (c : Condition) (hc : AllRelations RightForAll c) (po : PluralOperands) (d : Dec)
    (ho : OperandsOf po d) (hd : Fits d) : ∃ e b, Code c e ∧ e.eval po = some (.bool b) ∧ (b = true ↔ Holds d c) := by
  refine code_sem (N := True) c .frac ?_ hc.1 (fun a h => (hc.2 a h).1) po d (represents_of po d ho hd) trivial
    (fun _ _ _ _ _ => trivial)
  intro a ha r hr
  obtain ⟨h2, h3, h4, h1⟩ := (hc.2 a ha).2 r hr
  obtain ⟨e, op, l⟩ := r
  simp only at h1 h2 h3 h4
  by_cases hN : e.operand = .N
  · obtain ⟨h5, h6, h7⟩ := h1 hN
    have key : ∀ p : Bool, (p = false → Negative op) → l.all (itemOk .frac p e.modulus) = true := by
      intro p hp
      rw [List.all_eq_true]
      intro x hx
      cases x with
      | value k => simpa [itemOk, h5] using h6 k hx
      | range lo hi =>
        cases p with
        | true => simp [itemOk, h5]
        | false => exact absurd hx (h7 (hp rfl) lo hi)
    have hl : (!l.isEmpty) = true := by simpa using h3
    cases op <;> simp [IsWithin] at h2 <;>
      simp only [relSafe, hN, hl, Bool.and_eq_true, bne_iff_ne, Bool.or_eq_true, ne_eq, not_true_eq_false, false_or, true_and] <;>
      exact ⟨h4, key _ (by simp [Negative])⟩
  · have h5 : (!l.isEmpty) = true := by simpa using h3
    cases op <;> simp [IsWithin] at h2 <;> simp [relSafe, h4, hN] <;> simpa using h3

/-- On the operands of 1.5. -/
example : ∃ e b, Code [[⟨⟨.N, none⟩, .EQ, [.range 0 1]⟩], [⟨⟨.N, none⟩, .NotEQ, [.value 5]⟩]] e ∧
    e.eval ⟨Flt.ofRat b64 false 15 10, 1, 1, 1, 5, 5⟩ = some (.bool b) ∧
    (b = true ↔ Holds ⟨1, [5]⟩ [[⟨⟨.N, none⟩, .EQ, [.range 0 1]⟩], [⟨⟨.N, none⟩, .NotEQ, [.value 5]⟩]]) :=
  C39_right_for_all _ (by simp [AllRelations, RightForAll, IsWithin, Negative]) _ _
    ⟨rfl, rfl, rfl, rfl, rfl, (ieee_value_iff _ _).2 (by decide +kernel)⟩ (.inl (by decide))

/-- C39: for integers, negated ranges and a modulus with values are right as well. -/
theorem C39_right_for_integers (c : Condition) (hc : AllRelations RightForIntegers c) (po : PluralOperands) (d : Dec)
    (ho : OperandsOf po d) (hd : Fits d) (hint : d.f = 0) :
    ∃ e b, Code c e ∧ e.eval po = some (.bool b) ∧ (b = true ↔ Holds d c) := by
  refine code_sem (N := True) c .int ?_ hc.1 (fun a h => (hc.2 a h).1) po d (represents_of po d ho hd) hint
    (fun _ _ _ _ _ => trivial)
  intro a ha r hr
  obtain ⟨h2, h3, h4, h1, h1'⟩ := (hc.2 a ha).2 r hr
  obtain ⟨e, op, l⟩ := r
  simp only at h1 h1' h2 h3 h4
  by_cases hN : e.operand = .N
  · have key : ∀ p : Bool, l.all (itemOk .int p e.modulus) = true := by
      intro p
      rw [List.all_eq_true]
      intro x hx
      cases x with
      | value k =>
        cases hm : e.modulus with
        | none => simpa [itemOk] using h1 hN hm k hx
        | some m => rfl
      | range lo hi =>
        cases hm : e.modulus with
        | none => cases p <;> rfl
        | some m => exact absurd hx (h1' hN (by simp [hm]) lo hi)
    have hl : (!l.isEmpty) = true := by simpa using h3
    cases op <;> simp [IsWithin] at h2 <;>
      simp only [relSafe, hN, hl, Bool.and_eq_true, bne_iff_ne, Bool.or_eq_true, ne_eq, not_true_eq_false, false_or, true_and] <;>
      exact ⟨h4, key _⟩
  · have h5 : (!l.isEmpty) = true := by simpa using h3
    cases op <;> simp [IsWithin] at h2 <;> simp [relSafe, h4, hN] <;> simpa using h3

/-- `n = 0..1 or n != 5` is right for all numbers, `n % 100 = 2` and `n != 0..1` for integers. -/
example : AllRelations RightForAll [[⟨⟨.N, none⟩, .EQ, [.range 0 1]⟩], [⟨⟨.N, none⟩, .NotEQ, [.value 5]⟩]] := by
  simp [AllRelations, RightForAll, IsWithin, Negative]
example : AllRelations RightForIntegers [[⟨⟨.N, some 100⟩, .EQ, [.value 2]⟩, ⟨⟨.N, none⟩, .NotEQ, [.range 0 1]⟩]] := by
  simp [AllRelations, RightForIntegers, IsWithin]
/-- The operands of 1.5 and of 2^64 - 1. -/
example : OperandsOf ⟨Flt.ofRat b64 false 15 10, 1, 1, 1, 5, 5⟩ ⟨1, [5]⟩ ∧ Fits ⟨1, [5]⟩ :=
  ⟨⟨rfl, rfl, rfl, rfl, rfl, (ieee_value_iff _ _).2 (by decide +kernel)⟩, .inl (by decide)⟩
example : OperandsOf (PluralOperands.fromUnsigned (2 ^ 64 - 1)) ⟨2 ^ 64 - 1, []⟩ ∧ Fits ⟨2 ^ 64 - 1, []⟩ :=
  ⟨⟨rfl, rfl, rfl, rfl, rfl, (ieee_value_iff _ _).2 (by decide +kernel)⟩, .inr (by decide)⟩

/-- C39: with a modulus and a range the modulus is lost: the code for `n % m = lo..hi` with `lo ≤ hi < m` is false for
every integer `q * m + k` with `1 ≤ q` and `lo ≤ k ≤ hi`, although the relation holds. -/
theorem C39_range_with_modulus_wrong (op : Operator) (hop : Positive op) (m lo hi q k : Nat) (hm : hi < m) (hq : 1 ≤ q)
    (h1 : lo ≤ k) (h2 : k ≤ hi) (po : PluralOperands) (d : Dec) (hpo : po.i = d.i) (hd : d.i = q * m + k) (hf : d.f = 0) :
    Holds d [[⟨⟨.N, some m⟩, op, [.range lo hi]⟩]] ∧
    ∃ e, Code [[⟨⟨.N, some m⟩, op, [.range lo hi]⟩]] e ∧ e.eval po = some (.bool false) := by
  constructor
  · have : RelationHolds d ⟨⟨.N, some m⟩, op, [.range lo hi]⟩ ↔ ∃ j : Nat, lo ≤ j ∧ j ≤ hi ∧ exprValue d ⟨.N, some m⟩ = j := by
      rcases hop with rfl | rfl | rfl <;> simp [RelationHolds, ItemIn]
    have h3 : exprValue d ⟨.N, some m⟩ = (k : ℚ) := by
      refine (qmod_value_eq_nat d m k).2 ⟨hf, ?_⟩
      rw [hd, Nat.mul_comm, Nat.mul_add_mod]
      exact Nat.mod_eq_of_lt (by omega)
    simp only [Holds, List.mem_singleton, exists_eq_left, forall_eq]
    exact this.2 ⟨k, h1, h2, h3⟩
  · refine code_single _ po false ?_ ?_ ?_
    · rcases hop with rfl | rfl | rfl <;> simp [Intended.relationTests, Intended.ordered, Intended.isValue, Intended.itemTests, Intended.rangeTests]
    · exact listed_of (.inl hop) (by simp)
    · have : Intended.relationTests ⟨⟨.N, some m⟩, op, [.range lo hi]⟩ = [.contains lo hi (.field .I)] := by
        rcases hop with rfl | rfl | rfl <;> rfl
      rw [this]
      have hev := EvAll.single (@ev_contains po (.field .I) po.i lo hi rfl)
      have hfalse : itemNat po.i (.range lo hi) = false := by
        have hgt : ¬ q * m + k ≤ hi := by
          have : 1 * m ≤ q * m := Nat.mul_le_mul_right m hq
          omega
        simp only [itemNat, Bool.and_eq_false_iff, decide_eq_false_iff_not]
        exact .inr (by rw [hpo, hd]; exact hgt)
      rwa [hfalse] at hev

/-- `n % 100 = 3..10` (Arabic) and 103. -/
example : Positive .EQ ∧ 10 < 100 ∧ (PluralOperands.fromUnsigned 103).i = 1 * 100 + 3 ∧ 3 ≤ 3 ∧ 3 ≤ 10 := by
  simp [Positive, PluralOperands.fromUnsigned]

/-- C39: a negated list on `n` without modulus is false for every fraction as soon as it has a range, although such
relations hold for every fraction. -/
theorem C39_negated_range_wrong (op : Operator) (hop : Negative op) (l : List RangeListItem) (lo hi : Nat)
    (hl : .range lo hi ∈ l) (po : PluralOperands) (d : Dec) (hpo : po.f = d.f) (hf : d.f ≠ 0) :
    Holds d [[⟨⟨.N, none⟩, op, l⟩]] ∧ ∃ e, Code [[⟨⟨.N, none⟩, op, l⟩]] e ∧ e.eval po = some (.bool false) := by
  have hex : ∀ k : Nat, exprValue d ⟨.N, none⟩ ≠ (k : ℚ) := by
    intro k hk
    exact hf ((d.value_eq_nat k).1 hk).1
  constructor
  · have : RelationHolds d ⟨⟨.N, none⟩, op, l⟩ ↔ ¬ ∃ item ∈ l, ItemIn (exprValue d ⟨.N, none⟩) item := by
      rcases hop with rfl | rfl | rfl <;> rfl
    simp only [Holds, List.mem_singleton, exists_eq_left, forall_eq]
    rw [this]
    rintro ⟨x, -, hx⟩
    cases x with
    | value k => exact hex k hx
    | range a b => obtain ⟨k, -, -, hk⟩ := hx; exact hex k hk
  · have hT : Intended.relationTests ⟨⟨.N, none⟩, op, l⟩ =
        ((Intended.ordered l).map (Intended.itemTests ⟨.N, none⟩ false)).flatten := by
      rcases hop with rfl | rfl | rfl <;> rfl
    have hmem : .range lo hi ∈ Intended.ordered l := (mem_ordered l _).2 hl
    refine code_single _ po false ?_ ?_ ?_
    · rw [hT]
      intro h0
      have := List.flatten_eq_nil_iff.1 h0 _ (List.mem_map.2 ⟨_, hmem, rfl⟩)
      simp [Intended.itemTests, Intended.rangeTests] at this
    · refine listed_of (.inr hop) ?_
      rintro rfl
      simp at hl
    · have hev : ∀ x ∈ Intended.ordered l, EvAll po (Intended.itemTests ⟨.N, none⟩ false x)
          (match x with
            | .value k => !Flt.eq po.n (Flt.ofNat b64 k)
            | .range _ _ => false) := by
        intro x _
        cases x with
        | value k =>
          refine EvAll.single ?_
          simp [Intended.valueTest, Ev, RExpr.eval, readField, cmpFlt]
        | range a b =>
          have h1 := (@ev_contains po (.field .I) po.i a b rfl).not
          have h2 := @ev_cmp_int po (.field .F) (.int 0) po.f 0 .eq rfl rfl
          have h3 : cmpInt .eq po.f 0 = false := by simp [cmpInt, hpo, hf]
          rw [h3] at h2
          have := EvAll.cons h1 (EvAll.single h2)
          rwa [Bool.and_false] at this
      have := evAll_groups _ _ _ hev
      rw [hT]
      have h0 : ((Intended.ordered l).all fun x => match x with
            | .value k => !Flt.eq po.n (Flt.ofNat b64 k)
            | .range _ _ => false) = false := List.all_eq_false.2 ⟨_, hmem, by simp⟩
      rwa [h0] at this

/-- `n != 0..10` and 0.5. -/
example : Negative .NotEQ ∧ RangeListItem.range 0 10 ∈ [RangeListItem.range 0 10] ∧ (Dec.mk 0 [5]).f ≠ 0 := by
  simp [Negative, Dec.f, digitsNum]

/-- C39: with a modulus the fraction is ignored: the code for `n % m = k` is true for every fraction whose integer part is
`k` modulo `m`, although the relation does not hold for any fraction. -/
theorem C39_modulus_on_fractions_wrong (op : Operator) (hop : Positive op) (m k : Nat) (hm : m ≠ 0) (po : PluralOperands)
    (d : Dec) (hpo : po.i = d.i) (hd : d.i % m = k) (hf : d.f ≠ 0) :
    ¬ Holds d [[⟨⟨.N, some m⟩, op, [.value k]⟩]] ∧
    ∃ e, Code [[⟨⟨.N, some m⟩, op, [.value k]⟩]] e ∧ e.eval po = some (.bool true) := by
  constructor
  · have : RelationHolds d ⟨⟨.N, some m⟩, op, [.value k]⟩ ↔ exprValue d ⟨.N, some m⟩ = k := by
      rcases hop with rfl | rfl | rfl <;> simp [RelationHolds, ItemIn]
    simp only [Holds, List.mem_singleton, exists_eq_left, forall_eq]
    rw [this]
    intro h
    exact hf ((qmod_value_eq_nat d m k).1 h).1
  · have hT : Intended.relationTests ⟨⟨.N, some m⟩, op, [.value k]⟩ = [.cmp .eq (.rem (.field .I) (.int m)) (.int k)] := by
      rcases hop with rfl | rfl | rfl <;> rfl
    refine code_single _ po true (by rw [hT]; simp) (by exact listed_of (.inl hop) (by simp)) ?_
    rw [hT]
    have hev := EvAll.single (@ev_cmp_int po (.rem (.field .I) (.int m)) (.int k) (po.i % m) k .eq
      (by simp [RExpr.eval, readField, hm]) rfl)
    have : cmpInt .eq (po.i % m) k = true := by simp [cmpInt, hpo, hd]
    rwa [this] at hev

/-- `n % 10 = 1` (English ordinals) and 1.5. -/
example : Positive .EQ ∧ (10 : Nat) ≠ 0 ∧ (Dec.mk 1 [5]).i % 10 = 1 ∧ (Dec.mk 1 [5]).f ≠ 0 := by
  simp [Positive, Dec.i, Dec.f, digitsNum]

/-! ## C40 -/

/-- C40: the generator panics exactly on conditions with a within relation without a range. -/
theorem C40_panics_iff (c : Condition) : genPr c = none ↔
    ∃ a ∈ c, ∃ r ∈ a, IsWithin r.operator ∧ ∀ lo hi, RangeListItem.range lo hi ∉ r.rangeList := by
  rw [genPr_none]
  simp only [isWithin_iff]

/-- `n within 3` panics, `n within 3..5` does not. -/
example : genPr [[⟨⟨.N, none⟩, .Within, [.value 3]⟩]] = none ∧ genPr [[⟨⟨.N, none⟩, .Within, [.range 3 5]⟩]] ≠ none := by
  decide +kernel

/-- Conditions that differ in one relation only have the same code if that relation has. -/
theorem genPr_congr (r r' : Relation) (h : createRelation r = createRelation r') (c1 c2 : Condition) (a1 a2 : AndCondition) :
    genPr (c1 ++ (a1 ++ r :: a2) :: c2) = genPr (c1 ++ (a1 ++ r' :: a2) :: c2) := by
  have key : ∀ {α β : Type} (f : α → Option β) (l1 l2 : List α) (x y : α), f x = f y →
      mapPanic f (l1 ++ x :: l2) = mapPanic f (l1 ++ y :: l2) := by
    intro α β f l1 l2 x y hxy
    induction l1 with
    | nil => simp only [List.nil_append, mapPanic, hxy]
    | cons z l1 ih => simp only [List.cons_append, mapPanic, ih]
  simp only [genPr, createCondition]
  rw [key createAndCondition c1 c2 _ (a1 ++ r' :: a2)]
  simp only [createAndCondition]
  rw [key createRelation a1 a2 r r' h]

theorem convertRangl_first (vs rest : List RangeListItem) (hv : ∀ lo hi, RangeListItem.range lo hi ∉ vs) (lo hi : Nat) :
    (convertRangl (vs ++ .range lo hi :: rest)).2 = (.lit lo [], .lit hi []) :: (convertRangl rest).2 := by
  induction vs with
  | nil => rfl
  | cons x vs ih =>
    cases x with
    | value k =>
      simp only [List.cons_append, convertRangl]
      exact ih fun lo hi h => hv lo hi (by simp [h])
    | range a b => exact absurd (List.mem_cons_self ..) (hv a b)

/-- C40: of a within relation only the first range counts, wherever the relation occurs. -/
theorem C40_only_first_range (e : Expression) (op : Operator) (hop : IsWithin op) (vs rest : List RangeListItem)
    (hv : ∀ lo hi, RangeListItem.range lo hi ∉ vs) (lo hi : Nat) (c1 c2 : Condition) (a1 a2 : AndCondition) :
    genPr (c1 ++ (a1 ++ ⟨e, op, vs ++ .range lo hi :: rest⟩ :: a2) :: c2) =
      genPr (c1 ++ (a1 ++ ⟨e, op, [.range lo hi]⟩ :: a2) :: c2) := by
  refine genPr_congr _ _ ?_ ..
  have hw : GenPr.isWithin op = true := (isWithin_iff op).2 hop
  have h2 : (convertRangl [.range lo hi]).2 = [(.lit lo [], .lit hi [])] := rfl
  simp only [createRelation, hw, if_true, convertRangl_first vs rest hv lo hi, h2, withinTokens]

example : genPr [[⟨⟨.N, none⟩, .Within, [.value 7, .range 1 2, .range 4 9]⟩]] = genPr [[⟨⟨.N, none⟩, .Within, [.range 1 2]⟩]] :=
  C40_only_first_range ⟨.N, none⟩ .Within (by simp [IsWithin]) [.value 7] [.range 4 9] (by simp) 1 2 [] [] [] []

/-- C40: with a modulus, a within relation is generated for `i`, whatever its operand. -/
theorem C40_modulus_uses_i (o : Operand) (m : Nat) (op : Operator) (hop : IsWithin op) (l : List RangeListItem)
    (c1 c2 : Condition) (a1 a2 : AndCondition) :
    genPr (c1 ++ (a1 ++ ⟨⟨o, some m⟩, op, l⟩ :: a2) :: c2) = genPr (c1 ++ (a1 ++ ⟨⟨.I, some m⟩, op, l⟩ :: a2) :: c2) := by
  refine genPr_congr _ _ ?_ ..
  have hw : GenPr.isWithin op = true := (isWithin_iff op).2 hop
  simp only [createRelation, hw, if_true]
  cases (convertRangl l).2 <;> cases o <;> rfl

example : genPr [[⟨⟨.F, some 10⟩, .NotWithin, [.range 1 2]⟩]] = genPr [[⟨⟨.I, some 10⟩, .NotWithin, [.range 1 2]⟩]] :=
  C40_modulus_uses_i .F 10 .NotWithin (by simp [IsWithin]) [.range 1 2] [] [] [] []

theorem ofNat_le (lo hi : Nat) (h : lo ≤ hi) : Flt.le (Flt.ofNat b64 lo) (Flt.ofNat b64 hi) = true := by
  have := Flt.roundMag_mono b64 (by decide) lo hi 1 h
  unfold Flt.ofNat Flt.ofRat
  simp only
  split_ifs with h1 h2
  · rfl
  · omega
  · rfl
  · simpa [Flt.le, Flt.signed] using this

theorem lt_lt_false (x a b : Flt) (hab : Flt.le a b = true) : (Flt.lt x a && Flt.lt b x) = false := by
  cases x with
  | nan => cases a <;> cases b <;> rfl
  | inf s =>
    rcases s with _ | _ <;> rcases a with _ | (_ | _) | _ <;> rcases b with _ | (_ | _) | _ <;> rfl
  | fin s m =>
    cases a with
    | nan => simp [Flt.le] at hab
    | inf t => rcases t with _ | _ <;> rcases b with _ | (_ | _) | _ <;> first | rfl | simp [Flt.le] at hab
    | fin t a =>
      cases b with
      | nan => simp [Flt.le] at hab
      | inf u => rcases u with _ | _ <;> first | (simp [Flt.lt, Flt.le]; done) | simp [Flt.le] at hab
      | fin u b =>
        simp only [Flt.le, decide_eq_true_eq] at hab
        simp only [Flt.lt, Flt.le, Bool.and_eq_false_iff, Bool.not_eq_false', decide_eq_true_eq]
        omega

theorem withinTests_first (e : Expression) (op : CmpOp) (vs rest : List RangeListItem)
    (hv : ∀ lo hi, RangeListItem.range lo hi ∉ vs) (lo hi : Nat) :
    Intended.withinTests e op (vs ++ .range lo hi :: rest) = Intended.withinTests e op [.range lo hi] := by
  induction vs with
  | nil => obtain ⟨o, m⟩ := e; cases o <;> cases m <;> rfl
  | cons x vs ih =>
    cases x with
    | value k => exact ih fun lo hi h => hv lo hi (by simp [h])
    | range a b => exact absurd (List.mem_cons_self ..) (hv a b)

/-- C40: the code for `not within lo..hi` with `lo ≤ hi` is false on all operands, whatever other items are listed. -/
theorem C40_not_within_false (e : Expression) (hm : e.modulus ≠ some 0) (vs rest : List RangeListItem)
    (hv : ∀ lo hi, RangeListItem.range lo hi ∉ vs) (lo hi : Nat) (hlo : lo ≤ hi) (po : PluralOperands) :
    ∃ x, Code [[⟨e, .NotWithin, vs ++ .range lo hi :: rest⟩]] x ∧ x.eval po = some (.bool false) := by
  have hT : Intended.relationTests ⟨e, .NotWithin, vs ++ .range lo hi :: rest⟩ = Intended.withinTests e .gt [.range lo hi] :=
    withinTests_first e .gt vs rest hv lo hi
  have hint : ∀ (x : RExpr) (k : Nat), x.eval po = some (.int k) →
      EvAll po [.cmp .gt (.int lo) x, .cmp .gt x (.int hi)] false := by
    intro x k hx
    have h1 := @ev_cmp_int po (.int lo) x lo k .gt rfl hx
    have h2 := @ev_cmp_int po x (.int hi) k hi .gt hx rfl
    have h3 := EvAll.cons h1 (EvAll.single h2)
    have h4 : (cmpInt .gt lo k && cmpInt .gt k hi) = false := by
      simp only [cmpInt, Bool.and_eq_false_iff, decide_eq_false_iff_not]; omega
    rwa [h4] at h3
  refine code_single _ po false ?_ ?_ ?_
  · rw [hT]; obtain ⟨o, m⟩ := e; cases o <;> cases m <;> simp [Intended.withinTests]
  · exact ⟨by simp, fun _ => ⟨lo, hi, by simp⟩⟩
  · rw [hT]
    obtain ⟨o, m⟩ := e
    cases m with
    | some m =>
      have h0 : m ≠ 0 := by rintro rfl; exact hm rfl
      have := hint (.rem (.field .I) (.int m)) (po.i % m) (by simp [RExpr.eval, readField, h0])
      cases o <;> exact this
    | none =>
      cases o with
      | N =>
        have h1 : Ev po (.cmp .gt (.flt lo) (.field .N)) (Flt.lt po.n (Flt.ofNat b64 lo)) := rfl
        have h2 : Ev po (.cmp .gt (.field .N) (.flt hi)) (Flt.lt (Flt.ofNat b64 hi) po.n) := rfl
        have h3 := EvAll.cons h1 (EvAll.single h2)
        rwa [lt_lt_false _ _ _ (ofNat_le lo hi hlo)] at h3
      | I => exact hint (.field .I) po.i rfl
      | V => exact hint (.field .V) po.v rfl
      | W => exact hint (.field .W) po.w rfl
      | F => exact hint (.field .F) po.f rfl
      | T => exact hint (.field .T) po.t rfl

/-- `n not within 0..2` holds for 5. -/
example : Holds ⟨5, []⟩ [[⟨⟨.N, none⟩, .NotWithin, [.range 0 2]⟩]] := by
  simp [Holds, RelationHolds, ItemWithin, exprValue, Dec.operand, Dec.n, Dec.value, digitsNum]

/-- C40: `within` one range without modulus is right. -/
theorem C40_single_range_right (o : Operand) (lo hi : Nat) (hN : o = .N → lo < 2 ^ 53 ∧ hi < 2 ^ 53) (po : PluralOperands)
    (d : Dec) (ho : OperandsOf po d) (hd : o = .N → Fits d) :
    ∃ e b, Code [[⟨⟨o, none⟩, .Within, [.range lo hi]⟩]] e ∧ e.eval po = some (.bool b) ∧
      (b = true ↔ Holds d [[⟨⟨o, none⟩, .Within, [.range lo hi]⟩]]) := by
  refine code_sem (N := o = .N) _ .frac ?_ (by simp) (by simp) po d
    (represents_of_fits po d ho.i ho.v ho.w ho.f ho.t (fun _ => ho.n_eq) hd) trivial (by simp)
  intro a ha r hr
  simp only [List.mem_singleton] at ha
  subst ha
  simp only [List.mem_singleton] at hr
  subst hr
  cases o <;> simp [relSafe] <;> simpa using hN

/-- `n within 0..2` and 1.5. -/
example : Holds ⟨1, [5]⟩ [[⟨⟨.N, none⟩, .Within, [.range 0 2]⟩]] ∧ Fits ⟨1, [5]⟩ := by
  refine ⟨?_, .inl (by decide)⟩
  simp [Holds, RelationHolds, ItemWithin, exprValue, Dec.operand, Dec.n, Dec.value, digitsNum]
  norm_num

/-! ## C41, C42 -/

/-- C41: the tokens generated for a condition, read with Rust's precedence, are the or of the ands of the relations. -/
theorem C41_precedence (c : Condition) (hc : AllRelations Listed c) :
    ∃ ts e, genPr c = some ts ∧ parseExpr ts = some e ∧ Intended.condition c = some e := by
  obtain ⟨e, ⟨ts, h1, h2⟩, h3⟩ := code_of_condition c hc
  exact ⟨ts, e, h1, h2, h3⟩

/-- `i = 1,3 and v = 0 or n within 2..4` has such lists, and its code is this expression. -/
example : let c : Condition := [[⟨⟨.I, none⟩, .EQ, [.value 1, .value 3]⟩, ⟨⟨.V, none⟩, .EQ, [.value 0]⟩],
      [⟨⟨.N, none⟩, .Within, [.range 2 4]⟩]]
    AllRelations Listed c ∧ (genPr c).bind parseExpr = some
      (.or
        (.and (.or (.cmp .eq (.field .I) (.int 1)) (.cmp .eq (.field .I) (.int 3))) (.cmp .eq (.field .V) (.int 0)))
        (.and (.cmp .le (.flt 2) (.field .N)) (.cmp .le (.field .N) (.flt 4)))) := by
  refine ⟨?_, by decide +kernel⟩
  simp [AllRelations, Listed, IsWithin]

/-- C42: the code for a condition with such lists is a boolean expression. -/
theorem C42_well_typed (c : Condition) (hc : AllRelations Listed c) : ∃ e, Code c e ∧ e.ty = some .bool := by
  obtain ⟨e, h1, h2⟩ := code_of_condition c hc
  exact ⟨e, h1, condition_ty h2⟩

example : ∃ e, Code [[⟨⟨.F, some 10⟩, .NotWithin, [.range 1 2]⟩, ⟨⟨.V, none⟩, .EQ, [.value 0, .range 2 3]⟩]] e ∧ e.ty = some .bool :=
  C42_well_typed _ (by simp [AllRelations, Listed, IsWithin])

/-- C42: with an empty list the code is not an expression. -/
theorem C42_empty_no_expression (c : Condition) (ts : List Tok) (h : genPr c = some ts)
    (he : c = [] ∨ ∃ a ∈ c, a = [] ∨ ∃ r ∈ a, r.rangeList = []) : parseExpr ts = none := by
  refine parse_bad c ts h fun hf => ?_
  rcases he with he | ⟨a, ha, he⟩
  · exact hf.1 he
  rcases he with he | ⟨r, hr, he⟩
  · exact (hf.2 a ha).1 he
  · by_cases hw : GenPr.isWithin r.operator = true
    · have := (genPr_none c).2 ⟨a, ha, r, hr, hw, by simp [he]⟩
      rw [h] at this
      cases this
    · exact (hf.2 a ha).2 r hr (by simpa using hw) he

/-- `i = ` (which the parser accepts, see C28) and `v = 0`. -/
example : genPr [[⟨⟨.I, none⟩, .EQ, []⟩, ⟨⟨.V, none⟩, .EQ, [.value 0]⟩]] =
    some (lex c!"( && po.v == 0 )") := by decide +kernel

/-- C42: so the code is an expression exactly for conditions whose lists have items, and then a boolean one. -/
theorem C42_expression_iff (c : Condition) : (∃ e, Code c e) ↔ AllRelations Listed c := by
  constructor
  · rintro ⟨e, ts, h1, h2⟩
    have hno : ¬ ∃ a ∈ c, ∃ r ∈ a, GenPr.isWithin r.operator = true ∧ ∀ lo hi, RangeListItem.range lo hi ∉ r.rangeList := by
      rw [← genPr_none, h1]; simp
    by_contra hcon
    have : ∀ h : (c = [] ∨ ∃ a ∈ c, a = [] ∨ ∃ r ∈ a, r.rangeList = []), False := by
      intro h
      rw [C42_empty_no_expression c ts h1 h] at h2
      cases h2
    refine hcon ⟨fun h => this (.inl h), fun a ha => ⟨fun h => this (.inr ⟨a, ha, .inl h⟩), fun r hr => ?_⟩⟩
    refine ⟨fun h => this (.inr ⟨a, ha, .inr ⟨r, hr, h⟩⟩), fun hw => ?_⟩
    by_contra hr'
    exact hno ⟨a, ha, r, hr, (isWithin_iff _).2 hw, fun lo hi h => hr' ⟨lo, hi, h⟩⟩
  · intro h
    obtain ⟨e, h1, -⟩ := code_of_condition c h
    exact ⟨e, h1⟩

/-! ## C43 -/

theorem itemTests_eval (e : Expression) (hm : e.modulus ≠ some 0) (po : PluralOperands) (positive : Bool) (x : RangeListItem) :
    ∃ b, EvAll po (Intended.itemTests e positive x) b :=
  evAll_total po _ (itemTests_ty e positive x) (itemTests_noZero e hm positive x)

theorem _root_.Verif.Sem.EvAll.unique {po l b b'} (h : EvAll po l b) (h' : EvAll po l b') : b = b' := by
  induction h generalizing b' with
  | nil => cases h'; rfl
  | cons h1 _ ih =>
    cases h' with
    | cons h3 h4 =>
      have := ih h4
      unfold Ev at h1 h3
      rw [h1] at h3
      simp at h3
      rw [this, h3]

/-- The tests of an item, negated, are the negation of the tests. -/
theorem itemTests_neg (e : Expression) (hm : e.modulus ≠ some 0) (po : PluralOperands) (x : RangeListItem)
    (h : e.operand ≠ .N ∨ e.modulus ≠ none ∨ Intended.isValue x = true) (b : Bool)
    (hb : EvAll po (Intended.itemTests e true x) b) : EvAll po (Intended.itemTests e false x) (!b) := by
  have cmpneg : ∀ (a c : RExpr) (b : Bool), EvAll po [.cmp .eq a c] b → EvAll po [.cmp .ne a c] (!b) := by
    intro a c b hb
    cases hb with
    | cons h1 h2 =>
      cases h2
      rw [Bool.and_true]
      refine EvAll.single ?_
      unfold Ev RExpr.eval at h1 ⊢
      split at h1 <;> simp at h1 ⊢ <;> subst h1 <;> simp [cmpInt, cmpFlt, bne]
  have notneg : ∀ (a : RExpr) (b : Bool), EvAll po [a] b → EvAll po [.not a] (!b) := by
    intro a b hb
    cases hb with
    | cons h1 h2 =>
      cases h2
      rw [Bool.and_true]
      exact EvAll.single h1.not
  obtain ⟨o, m⟩ := e
  cases x with
  | value k =>
    by_cases hN : o = .N
    · subst hN
      cases m with
      | none => exact cmpneg _ _ _ hb
      | some m => exact cmpneg _ _ _ hb
    · simp only [Intended.itemTests, Intended.valueTest, hN, if_false, if_true, Bool.false_eq_true] at hb ⊢
      exact cmpneg _ _ _ hb
  | range lo hi =>
    by_cases hN : o = .N
    · subst hN
      cases m with
      | none => simp [Intended.isValue] at h
      | some m => exact notneg _ _ hb
    · simp only [Intended.itemTests, Intended.rangeTests, hN, if_false, if_true, Bool.false_eq_true] at hb ⊢
      exact notneg _ _ hb

/-- C43: the code of a negated relation is the negation of the code of the positive one, on all operands: for operands other
than `n`, with a modulus, and for lists of values. -/
theorem C43_negation (ex : Expression) (l : List RangeListItem) (hl : l ≠ []) (hm : ex.modulus ≠ some 0)
    (h : ex.operand ≠ .N ∨ ex.modulus ≠ none ∨ ∀ lo hi, RangeListItem.range lo hi ∉ l) (op op' : Operator)
    (hop : Positive op) (hop' : Negative op') (po : PluralOperands) :
    ∃ e e' b, Code [[⟨ex, op, l⟩]] e ∧ Code [[⟨ex, op', l⟩]] e' ∧ e.eval po = some (.bool b) ∧
      e'.eval po = some (.bool !b) := by
  have hne : Intended.ordered l ≠ [] := by
    intro h0
    have := length_ordered l
    rw [h0] at this
    cases l <;> simp at *
  have hitem : ∀ x ∈ Intended.ordered l, ex.operand ≠ .N ∨ ex.modulus ≠ none ∨ Intended.isValue x = true := by
    intro x hx
    refine h.imp_right (Or.imp_right fun h => ?_)
    cases x with
    | value k => rfl
    | range lo hi => exact absurd ((mem_ordered l _).1 hx) (h lo hi)
  have hnonempty : ∀ p x, Intended.itemTests ex p x ≠ [] := by
    intro p x
    obtain ⟨o, m⟩ := ex
    cases x <;> cases o <;> cases m <;> simp [Intended.itemTests, Intended.rangeTests]
  obtain ⟨h1, b, h2, h3⟩ := positive_sem (po := po) (Intended.ordered l) (Intended.itemTests ex true)
    (fun x => EvAll po (Intended.itemTests ex true x) true) hne (fun x hx => by
      obtain ⟨b, hb⟩ := itemTests_eval ex hm po true x
      exact ⟨hnonempty _ _, b, hb, fun h => h ▸ hb, fun h => hb.unique h⟩)
  obtain ⟨h1', b', h2', h3'⟩ := negative_sem (po := po) (Intended.ordered l) (Intended.itemTests ex false)
    (fun x => EvAll po (Intended.itemTests ex true x) true) hne (fun x hx => by
      obtain ⟨b, hb⟩ := itemTests_eval ex hm po true x
      refine ⟨hnonempty _ _, !b, itemTests_neg ex hm po x (hitem x hx) b hb, fun h h' => ?_, fun h => ?_⟩
      · have := hb.unique h'
        subst this; simp at h
      · cases b with
        | false => rfl
        | true => exact absurd hb h)
  have hbb : b' = !b := by
    rw [← h3] at h3'
    cases b <;> cases b' <;> simp at h3' ⊢
  have hT : Intended.relationTests ⟨ex, op, l⟩ = match (Intended.ordered l).map (Intended.itemTests ex true) with
      | [] => []
      | [tests] => tests
      | several => (Intended.anyOf (several.filterMap Intended.allOf)).toList := by
    rcases hop with rfl | rfl | rfl <;> rfl
  have hT' : Intended.relationTests ⟨ex, op', l⟩ = ((Intended.ordered l).map (Intended.itemTests ex false)).flatten := by
    rcases hop' with rfl | rfl | rfl <;> rfl
  obtain ⟨e, g1, g2⟩ := code_single ⟨ex, op, l⟩ po b (by rw [hT]; exact h1)
    (by exact listed_of (.inl hop) hl) (by rw [hT]; exact h2)
  obtain ⟨e', g1', g2'⟩ := code_single ⟨ex, op', l⟩ po b' (by rw [hT']; exact h1')
    (by exact listed_of (.inr hop') hl) (by rw [hT']; exact h2')
  exact ⟨e, e', b, g1, g1', g2, hbb ▸ g2'⟩

example (po : PluralOperands) : ∃ e e' b, Code [[⟨⟨.F, some 10⟩, .In, [.range 1 2, .value 5]⟩]] e ∧
    Code [[⟨⟨.F, some 10⟩, .IsNot, [.range 1 2, .value 5]⟩]] e' ∧ e.eval po = some (.bool b) ∧ e'.eval po = some (.bool !b) :=
  C43_negation ⟨.F, some 10⟩ _ (by simp) (by simp) (.inl (by simp)) _ _ (by simp [Positive]) (by simp [Negative]) po

/-- C43: for one range on `n` without modulus it is not: both are false on operands with fraction digits. -/
theorem C43_range_on_n (op op' : Operator) (hop : Positive op) (hop' : Negative op') (lo hi : Nat)
    (po : PluralOperands) (hf : po.f ≠ 0) :
    ∃ e e', Code [[⟨⟨.N, none⟩, op, [.range lo hi]⟩]] e ∧ Code [[⟨⟨.N, none⟩, op', [.range lo hi]⟩]] e' ∧
      e.eval po = some (.bool false) ∧ e'.eval po = some (.bool false) := by
  have h2 := @ev_cmp_int po (.field .F) (.int 0) po.f 0 .eq rfl rfl
  have h3 : cmpInt .eq po.f 0 = false := by simp [cmpInt, hf]
  rw [h3] at h2
  have h1 := @ev_contains po (.field .I) po.i lo hi rfl
  have hpos := EvAll.cons h1 (EvAll.single h2)
  have hneg := EvAll.cons h1.not (EvAll.single h2)
  rw [Bool.and_false] at hpos hneg
  have hT : Intended.relationTests ⟨⟨.N, none⟩, op, [.range lo hi]⟩ =
      [.contains lo hi (.field .I), .cmp .eq (.field .F) (.int 0)] := by
    rcases hop with rfl | rfl | rfl <;> rfl
  have hT' : Intended.relationTests ⟨⟨.N, none⟩, op', [.range lo hi]⟩ =
      [.not (.contains lo hi (.field .I)), .cmp .eq (.field .F) (.int 0)] := by
    rcases hop' with rfl | rfl | rfl <;> rfl
  obtain ⟨e, g1, g2⟩ := code_single ⟨⟨.N, none⟩, op, [.range lo hi]⟩ po false (by rw [hT]; simp)
    (by exact listed_of (.inl hop) (by simp)) (by rw [hT]; exact hpos)
  obtain ⟨e', g1', g2'⟩ := code_single ⟨⟨.N, none⟩, op', [.range lo hi]⟩ po false (by rw [hT']; simp)
    (by exact listed_of (.inr hop') (by simp)) (by rw [hT']; exact hneg)
  exact ⟨e, e', g1, g1', g2, g2'⟩

/-- `i % 10 = 2..4` and NaN for `n`; `n = 0..10` on 0.5. -/
example : (⟨.I, some 10⟩ : Expression).operand ≠ .N ∧ Positive .EQ ∧ Negative .NotEQ ∧
    (⟨Flt.ofRat b64 false 1 2, 0, 1, 1, 5, 5⟩ : PluralOperands).f ≠ 0 := by
  simp [Positive, Negative]

/-! ## C44 -/

/-- C44: `=`, `in`, `is` generate the same code, and so do `!=`, `not in`, `is not`, wherever they occur. -/
theorem C44_spellings (ex : Expression) (l : List RangeListItem) (op op' : Operator)
    (h : Positive op ∧ Positive op' ∨ Negative op ∧ Negative op') (c1 c2 : Condition) (a1 a2 : AndCondition) :
    genPr (c1 ++ (a1 ++ ⟨ex, op, l⟩ :: a2) :: c2) = genPr (c1 ++ (a1 ++ ⟨ex, op', l⟩ :: a2) :: c2) := by
  refine genPr_congr _ _ ?_ ..
  have hv : ∀ o o', (Positive o ∧ Positive o' ∨ Negative o ∧ Negative o') →
      valueTokens ex o = valueTokens ex o' ∧ rangeTokens ex o = rangeTokens ex o' ∧ isPositive o = isPositive o' ∧
      GenPr.isWithin o = false ∧ GenPr.isWithin o' = false := by
    intro o o' h
    rcases h with ⟨h1, h2⟩ | ⟨h1, h2⟩ <;> rcases h1 with rfl | rfl | rfl <;> rcases h2 with rfl | rfl | rfl <;>
      exact ⟨rfl, rfl, rfl, rfl, rfl⟩
  obtain ⟨h1, h2, h3, h4, h5⟩ := hv op op' h
  simp only [createRelation, h1, h2, h3, h4, h5]
  rfl

example : genPr [[⟨⟨.V, none⟩, .EQ, [.value 0]⟩, ⟨⟨.N, none⟩, .NotEQ, [.value 1, .value 3]⟩]] =
    genPr [[⟨⟨.V, none⟩, .EQ, [.value 0]⟩, ⟨⟨.N, none⟩, .IsNot, [.value 1, .value 3]⟩]] :=
  C44_spellings ⟨.N, none⟩ _ _ _ (.inr (by simp [Negative])) [] [] [⟨⟨.V, none⟩, .EQ, [.value 0]⟩] []

/-- C44: respelling all operators of a condition, each within its class, does not change the code. -/
theorem C44_respelled (f : Operator → Operator) (hf : ∀ o, f o = o ∨ Positive o ∧ Positive (f o) ∨ Negative o ∧ Negative (f o))
    (c : Condition) : genPr (c.map fun a => a.map fun r => { r with operator := f r.operator }) = genPr c := by
  have key : ∀ {α β : Type} (F : α → Option β) (g : α → α) (l : List α), (∀ x, F (g x) = F x) →
      mapPanic F (l.map g) = mapPanic F l := by
    intro α β F g l h
    induction l with
    | nil => rfl
    | cons z l ih => simp only [List.map_cons, mapPanic, ih, h]
  have hr : ∀ r : Relation, createRelation { r with operator := f r.operator } = createRelation r := by
    intro r
    rcases hf r.operator with h | h
    · rw [h]
    · obtain ⟨ex, op, l⟩ := r
      simp only at h ⊢
      rcases h with ⟨h1, h2⟩ | ⟨h1, h2⟩ <;> rcases h1 with rfl | rfl | rfl <;> rcases h2 with h2 | h2 | h2 <;>
        rw [h2] <;> rfl
  simp only [genPr, createCondition]
  congr 1
  refine key _ _ _ fun a => ?_
  simp only [createAndCondition]
  congr 1
  exact key _ _ _ hr

/-- `in` for `=`, `is not` for `!=`. -/
example : ∀ o, (fun o : Operator => match o with | .EQ => .In | .NotEQ => .IsNot | o => o) o = o ∨
    Positive o ∧ Positive ((fun o : Operator => match o with | .EQ => .In | .NotEQ => .IsNot | o => o) o) ∨
    Negative o ∧ Negative ((fun o : Operator => match o with | .EQ => .In | .NotEQ => .IsNot | o => o) o) := by
  intro o; cases o <;> simp [Positive, Negative]

end Verif.Props
