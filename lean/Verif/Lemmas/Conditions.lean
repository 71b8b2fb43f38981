import Verif.Lemmas.Semantics
import Verif.Lemmas.Eval
import Verif.Spec

/-! Helper lemmas: the value of the intended expressions of and-conditions and conditions. -/

namespace Verif.Sem
open Verif Rust Uts35 Intended Eval Spec

/-! ## Types -/

theorem leftSide_ty (o : Operand) (ho : o ≠ .N) (m : Option Nat) : (leftSide o m).ty = some (fieldTy o) := by
  cases o <;> cases m <;> first | contradiction | rfl

theorem leftSide_cmp_ty (o : Operand) (ho : o ≠ .N) (m : Option Nat) (op : CmpOp) (k : Nat) :
    (RExpr.cmp op (leftSide o m) (.int k)).ty = some .bool ∧ (RExpr.cmp op (.int k) (leftSide o m)).ty = some .bool := by
  constructor <;> simp only [RExpr.ty, leftSide_ty o ho m] <;> cases o <;> first | contradiction | rfl

theorem leftSide_contains_ty (o : Operand) (ho : o ≠ .N) (m : Option Nat) (lo hi : Nat) :
    (RExpr.contains lo hi (leftSide o m)).ty = some .bool := by
  simp only [RExpr.ty, leftSide_ty o ho m]; cases o <;> first | contradiction | rfl

theorem itemTests_ty (e : Expression) (positive : Bool) (x : RangeListItem) :
    ∀ t ∈ itemTests e positive x, t.ty = some .bool := by
  obtain ⟨o, m⟩ := e
  intro t ht
  by_cases hN : o = .N
  · subst hN
    cases x <;> cases m <;> cases positive <;> simp [itemTests, valueTest, rangeTests] at ht <;>
      
      first
        | (subst ht; rfl)
        | (rcases ht with ht | ht <;> subst ht <;> rfl)
  · cases x with
    | value k =>
      simp only [itemTests, valueTest, hN, if_false, List.mem_singleton] at ht
      subst ht; exact (leftSide_cmp_ty o hN m _ k).1
    | range lo hi =>
      simp only [itemTests, rangeTests, hN, if_false, List.mem_singleton] at ht
      have := leftSide_contains_ty o hN m lo hi
      cases positive
      · simp only [Bool.false_eq_true, if_false] at ht; subst ht
        simp only [RExpr.ty] at this ⊢; simp [this]
      · simp only [if_true] at ht; subst ht; exact this

theorem withinTests_ty (e : Expression) (op : CmpOp) (l : List RangeListItem) :
    ∀ t ∈ withinTests e op l, t.ty = some .bool := by
  obtain ⟨o, m⟩ := e
  induction l with
  | nil => simp [withinTests]
  | cons x l ih =>
    cases x with
    | value k => exact ih
    | range lo hi =>
      intro t ht
      cases o <;> cases m <;> simp only [withinTests, List.mem_cons, List.not_mem_nil, or_false] at ht <;>
        rcases ht with rfl | rfl <;> rfl

theorem foldl_and_ty (l : List RExpr) (e : RExpr) (he : e.ty = some .bool) (h : ∀ t ∈ l, t.ty = some .bool) :
    (l.foldl .and e).ty = some .bool := by
  induction l generalizing e with
  | nil => exact he
  | cons x l ih => exact ih _ (by simp [RExpr.ty, he, h x (by simp)]) fun t ht => h t (by simp [ht])

theorem foldl_or_ty (l : List RExpr) (e : RExpr) (he : e.ty = some .bool) (h : ∀ t ∈ l, t.ty = some .bool) :
    (l.foldl .or e).ty = some .bool := by
  induction l generalizing e with
  | nil => exact he
  | cons x l ih => exact ih _ (by simp [RExpr.ty, he, h x (by simp)]) fun t ht => h t (by simp [ht])

theorem allOf_ty {l : List RExpr} {e : RExpr} (h : ∀ t ∈ l, t.ty = some .bool) (he : allOf l = some e) :
    e.ty = some .bool := by
  cases l with
  | nil => simp [allOf] at he
  | cons x l =>
    simp only [allOf, Option.some.injEq] at he; subst he
    exact foldl_and_ty l x (h x (by simp)) fun t ht => h t (by simp [ht])

theorem anyOf_ty {l : List RExpr} {e : RExpr} (h : ∀ t ∈ l, t.ty = some .bool) (he : anyOf l = some e) :
    e.ty = some .bool := by
  cases l with
  | nil => simp [anyOf] at he
  | cons x l =>
    simp only [anyOf, Option.some.injEq] at he; subst he
    exact foldl_or_ty l x (h x (by simp)) fun t ht => h t (by simp [ht])

theorem positive_ty (T : List (List RExpr)) (h : ∀ l ∈ T, ∀ t ∈ l, t.ty = some .bool) :
    ∀ t ∈ (match T with
      | [] => []
      | [tests] => tests
      | several => (anyOf (several.filterMap allOf)).toList), t.ty = some .bool := by
  intro t ht
  match T, h with
  | [], _ => simp at ht
  | [tests], h => exact h tests (by simp) t ht
  | x :: y :: l, h =>
    simp only [Option.mem_toList] at ht
    refine anyOf_ty (fun e he => ?_) ht
    obtain ⟨g, hg, hge⟩ := List.mem_filterMap.1 he
    exact allOf_ty (h g hg) hge

theorem relationTests_ty (r : Relation) : ∀ t ∈ relationTests r, t.ty = some .bool := by
  obtain ⟨e, op, l⟩ := r
  have hi : ∀ (b : Bool), ∀ g ∈ (ordered l).map (itemTests e b), ∀ t ∈ g, t.ty = some .bool := by
    intro b g hg
    obtain ⟨x, -, rfl⟩ := List.mem_map.1 hg
    exact itemTests_ty e b x
  have hp := positive_ty _ (hi true)
  have hn : ∀ t ∈ ((ordered l).map (itemTests e false)).flatten, t.ty = some .bool := by
    intro t ht
    obtain ⟨g, hg, ht⟩ := List.mem_flatten.1 ht
    exact hi false g hg t ht
  cases op with
  | Within => exact withinTests_ty e _ l
  | NotWithin => exact withinTests_ty e _ l
  | In => exact hp
  | Is => exact hp
  | EQ => exact hp
  | NotIn => exact hn
  | IsNot => exact hn
  | NotEQ => exact hn

theorem condition_ty {c : Condition} {e : RExpr} (h : condition c = some e) : e.ty = some .bool := by
  refine anyOf_ty (fun t ht => ?_) h
  obtain ⟨a, -, ha⟩ := List.mem_filterMap.1 ht
  refine allOf_ty (fun t ht => ?_) ha
  obtain ⟨g, hg, ht⟩ := List.mem_flatten.1 ht
  obtain ⟨r, -, rfl⟩ := List.mem_map.1 hg
  exact relationTests_ty r t ht

/-! ## No remainder by zero -/

theorem leftSide_noZero (o : Operand) (m : Option Nat) (hm : m ≠ some 0) : noZeroRem (leftSide o m) = true := by
  cases m with
  | none => rfl
  | some m => have : m ≠ 0 := by rintro rfl; exact hm rfl
              simp [leftSide, noZeroRem, this]

theorem itemTests_noZero (e : Expression) (hm : e.modulus ≠ some 0) (positive : Bool) (x : RangeListItem) :
    ∀ t ∈ itemTests e positive x, noZeroRem t = true := by
  obtain ⟨o, m⟩ := e
  have h1 := leftSide_noZero o m hm
  have h2 := leftSide_noZero .I m hm
  intro t ht
  by_cases hN : o = .N
  · subst hN
    cases x <;> cases m <;> cases positive <;> simp [itemTests, valueTest, rangeTests] at ht <;>
      
      first
        | (subst ht; simp_all [noZeroRem, leftSide])
        | (rcases ht with ht | ht <;> subst ht <;> simp_all [noZeroRem, leftSide])
  · cases x with
    | value k =>
      simp only [itemTests, valueTest, hN, if_false, List.mem_singleton] at ht
      subst ht; simp [noZeroRem, h1]
    | range lo hi =>
      simp only [itemTests, rangeTests, hN, if_false, List.mem_singleton] at ht
      subst ht
      cases positive <;> simp [noZeroRem, h1]

theorem withinTests_noZero (e : Expression) (hm : e.modulus ≠ some 0) (op : CmpOp) (l : List RangeListItem) :
    ∀ t ∈ withinTests e op l, noZeroRem t = true := by
  obtain ⟨o, m⟩ := e
  induction l with
  | nil => simp [withinTests]
  | cons x l ih =>
    cases x with
    | value k => exact ih
    | range lo hi =>
      intro t ht
      cases m with
      | none =>
        cases o <;> simp only [withinTests, List.mem_cons, List.not_mem_nil, or_false] at ht <;>
          rcases ht with rfl | rfl <;> rfl
      | some m =>
        have : m ≠ 0 := by rintro rfl; exact hm rfl
        simp only [withinTests, List.mem_cons, List.not_mem_nil, or_false] at ht
        rcases ht with rfl | rfl <;> simp [noZeroRem, this]

theorem foldl_and_noZero (l : List RExpr) (e : RExpr) (he : noZeroRem e = true) (h : ∀ t ∈ l, noZeroRem t = true) :
    noZeroRem (l.foldl .and e) = true := by
  induction l generalizing e with
  | nil => exact he
  | cons x l ih => exact ih _ (by simp [noZeroRem, he, h x (by simp)]) fun t ht => h t (by simp [ht])

theorem foldl_or_noZero (l : List RExpr) (e : RExpr) (he : noZeroRem e = true) (h : ∀ t ∈ l, noZeroRem t = true) :
    noZeroRem (l.foldl .or e) = true := by
  induction l generalizing e with
  | nil => exact he
  | cons x l ih => exact ih _ (by simp [noZeroRem, he, h x (by simp)]) fun t ht => h t (by simp [ht])

theorem allOf_noZero {l : List RExpr} {e : RExpr} (h : ∀ t ∈ l, noZeroRem t = true) (he : allOf l = some e) :
    noZeroRem e = true := by
  cases l with
  | nil => simp [allOf] at he
  | cons x l =>
    simp only [allOf, Option.some.injEq] at he; subst he
    exact foldl_and_noZero l x (h x (by simp)) fun t ht => h t (by simp [ht])

theorem anyOf_noZero {l : List RExpr} {e : RExpr} (h : ∀ t ∈ l, noZeroRem t = true) (he : anyOf l = some e) :
    noZeroRem e = true := by
  cases l with
  | nil => simp [anyOf] at he
  | cons x l =>
    simp only [anyOf, Option.some.injEq] at he; subst he
    exact foldl_or_noZero l x (h x (by simp)) fun t ht => h t (by simp [ht])

theorem relationTests_noZero (r : Relation) (hm : r.expression.modulus ≠ some 0) :
    ∀ t ∈ relationTests r, noZeroRem t = true := by
  obtain ⟨e, op, l⟩ := r
  have hi : ∀ (b : Bool), ∀ g ∈ (ordered l).map (itemTests e b), ∀ t ∈ g, noZeroRem t = true := by
    intro b g hg
    obtain ⟨x, -, rfl⟩ := List.mem_map.1 hg
    exact itemTests_noZero e hm b x
  have hp : ∀ t ∈ (match (ordered l).map (itemTests e true) with
      | [] => []
      | [tests] => tests
      | several => (anyOf (several.filterMap allOf)).toList), noZeroRem t = true := by
    intro t ht
    match hT : (ordered l).map (itemTests e true), hi true with
    | [], _ => rw [hT] at ht; simp at ht
    | [tests], h => rw [hT] at ht; exact h tests (by simp) t ht
    | x :: y :: l, h =>
      rw [hT] at ht
      simp only [Option.mem_toList] at ht
      refine anyOf_noZero (fun e he => ?_) ht
      obtain ⟨g, hg, hge⟩ := List.mem_filterMap.1 he
      exact allOf_noZero (h g hg) hge
  have hn : ∀ t ∈ ((ordered l).map (itemTests e false)).flatten, noZeroRem t = true := by
    intro t ht
    obtain ⟨g, hg, ht⟩ := List.mem_flatten.1 ht
    exact hi false g hg t ht
  cases op with
  | Within => exact withinTests_noZero e hm _ l
  | NotWithin => exact withinTests_noZero e hm _ l
  | In => exact hp
  | Is => exact hp
  | EQ => exact hp
  | NotIn => exact hn
  | IsNot => exact hn
  | NotEQ => exact hn

theorem condition_noZero {c : Condition} {e : RExpr} (hm : ∀ a ∈ c, ∀ r ∈ a, r.expression.modulus ≠ some 0)
    (h : condition c = some e) : noZeroRem e = true := by
  refine anyOf_noZero (fun t ht => ?_) h
  obtain ⟨a, ha', ha⟩ := List.mem_filterMap.1 ht
  refine allOf_noZero (fun t ht => ?_) ha
  obtain ⟨g, hg, ht⟩ := List.mem_flatten.1 ht
  obtain ⟨r, hr, rfl⟩ := List.mem_map.1 hg
  exact relationTests_noZero r (hm a ha' r hr) t ht

theorem evAll_total (po : PluralOperands) (l : List RExpr) (h1 : ∀ t ∈ l, t.ty = some .bool)
    (h2 : ∀ t ∈ l, noZeroRem t = true) : ∃ b, EvAll po l b := by
  induction l with
  | nil => exact ⟨_, .nil⟩
  | cons x l ih =>
    obtain ⟨b, hb⟩ := ih (fun t ht => h1 t (by simp [ht])) (fun t ht => h2 t (by simp [ht]))
    obtain ⟨v, hv, hv'⟩ := eval_total po x .bool (h1 x (by simp)) (h2 x (by simp))
    obtain ⟨a, rfl⟩ := hasTy_bool hv'
    exact ⟨_, .cons hv hb⟩

theorem relation_total (po : PluralOperands) (r : Relation) (hm : r.expression.modulus ≠ some 0) :
    ∃ b, EvAll po (relationTests r) b := evAll_total po _ (relationTests_ty r) (relationTests_noZero r hm)

/-! ## And-conditions and conditions -/

/-- The relation `v = 0`. -/
def isV0 (r : Relation) : Bool :=
  r.expression == ⟨.V, none⟩ && (r.operator == .EQ || r.operator == .In || r.operator == .Is) && r.rangeList == [.value 0]

/-- The static conditions on an and-condition under which its code is right on the numbers of the level: every relation is,
or every relation is on integers and `v = 0` is one of them. -/
def andSafe (lvl : Level) (a : AndCondition) : Bool :=
  !a.isEmpty && (a.all (relSafe lvl) || (a.any isV0 && a.all (relSafe .int)))

def condSafe (lvl : Level) (c : Condition) : Bool := !c.isEmpty && c.all (andSafe lvl)

theorem relSafe_modulus {lvl : Level} {r : Relation} (h : relSafe lvl r = true) : r.expression.modulus ≠ some 0 := by
  simp only [relSafe, Bool.and_eq_true, bne_iff_ne] at h
  exact h.1

/-- All relations of an and-condition. -/
theorem and_level {N : Prop} {po : PluralOperands} {d : Dec} (h : Represents N po d) (lvl : Level) (hl : lvl.ok d)
    (a : AndCondition) (hne : a ≠ []) (hN : ∀ r ∈ a, r.expression.operand = .N → N) (hs : ∀ r ∈ a, relSafe lvl r = true) :
    ∃ e b, andCondition a = some e ∧ Ev po e b ∧ (b = true ↔ ∀ r ∈ a, RelationHolds d r) := by
  classical
  have hg := evAll_groups a relationTests (fun r => decide (RelationHolds d r)) (po := po) (fun r hr => by
    obtain ⟨-, b, h2, h3⟩ := relation_sem h lvl hl r (hN r hr) (hs r hr)
    have : b = decide (RelationHolds d r) := by
      cases b
      · have : ¬ RelationHolds d r := fun hq => by simpa using h3.2 hq
        simp [this]
      · simp [h3.1 rfl]
    rwa [← this])
  have hne' : (a.map relationTests).flatten ≠ [] := by
    cases a with
    | nil => contradiction
    | cons r a =>
      have := (relation_sem h lvl hl r (hN r (by simp)) (hs r (by simp))).1
      simp [this]
  obtain ⟨e, he, hev⟩ := hg.allOf hne'
  exact ⟨e, _, he, hev, by simp⟩

theorem relationTests_v0 (r : Relation) (h : isV0 r = true) : relationTests r = [.cmp .eq (.field .V) (.int 0)] := by
  obtain ⟨e, op, l⟩ := r
  simp only [isV0, Bool.and_eq_true, Bool.or_eq_true, beq_iff_eq] at h
  obtain ⟨⟨rfl, h2⟩, rfl⟩ := h
  rcases h2 with (rfl | rfl) | rfl <;> rfl

theorem relationHolds_v0 (r : Relation) (h : isV0 r = true) (d : Dec) : RelationHolds d r ↔ d.v = 0 := by
  obtain ⟨e, op, l⟩ := r
  simp only [isV0, Bool.and_eq_true, Bool.or_eq_true, beq_iff_eq] at h
  obtain ⟨⟨rfl, h2⟩, rfl⟩ := h
  rcases h2 with (rfl | rfl) | rfl <;> simp [RelationHolds, ItemIn, exprValue, Dec.operand]

theorem f_of_v {d : Dec} (h : d.v = 0) : d.f = 0 := by
  have : d.frac = [] := List.length_eq_zero_iff.1 h
  simp [Dec.f, this, digitsNum]

theorem and_sem {N : Prop} {po : PluralOperands} {d : Dec} (h : Represents N po d) (lvl : Level) (hl : lvl.ok d)
    (a : AndCondition) (hN : ∀ r ∈ a, r.expression.operand = .N → N) (hs : andSafe lvl a = true) :
    ∃ e b, andCondition a = some e ∧ Ev po e b ∧ (b = true ↔ ∀ r ∈ a, RelationHolds d r) := by
  simp only [andSafe, Bool.and_eq_true, Bool.or_eq_true, Bool.not_eq_true', List.all_eq_true, List.any_eq_true] at hs
  obtain ⟨hne, hs⟩ := hs
  have hne : a ≠ [] := by rintro rfl; simp at hne
  rcases hs with hs | ⟨⟨r0, hr0, hv0⟩, hs⟩
  · exact and_level h lvl hl a hne hN hs
  · by_cases hv : d.v = 0
    · exact and_level h .int (f_of_v hv) a hne hN hs
    · -- `v = 0` is false, so both sides are
      have htot : ∀ r, ∃ b, r ∈ a → EvAll po (relationTests r) b ∧ (isV0 r = true → b = false) := by
        intro r
        by_cases hr : r ∈ a
        · by_cases h0 : isV0 r = true
          · refine ⟨false, fun _ => ⟨?_, fun _ => rfl⟩⟩
            rw [relationTests_v0 r h0]
            have := EvAll.single (@ev_cmp_int po (.field .V) (.int 0) d.v 0 .eq (by simp [RExpr.eval, readField, h.v]) rfl)
            rwa [show cmpInt .eq d.v 0 = false from beq_eq_false_iff_ne.2 hv] at this
          · obtain ⟨b, hb⟩ := relation_total po r (relSafe_modulus (hs r hr))
            exact ⟨b, fun _ => ⟨hb, fun h => absurd h h0⟩⟩
        · exact ⟨false, fun h => absurd h hr⟩
      choose B hB using htot
      have hg := evAll_groups a relationTests B (po := po) (fun r hr => (hB r hr).1)
      have hne' : (a.map relationTests).flatten ≠ [] := by
        have : relationTests r0 ≠ [] := by rw [relationTests_v0 r0 hv0]; simp
        intro h0
        exact this (List.flatten_eq_nil_iff.1 h0 _ (List.mem_map.2 ⟨r0, hr0, rfl⟩))
      obtain ⟨e, he, hev⟩ := hg.allOf hne'
      refine ⟨e, _, he, hev, ?_⟩
      have h1 : a.all B = false := List.all_eq_false.2 ⟨r0, hr0, by simp [(hB r0 hr0).2 hv0]⟩
      rw [h1]
      constructor
      · intro h; cases h
      · intro h; exact absurd ((relationHolds_v0 r0 hv0 d).1 (h r0 hr0)) hv

theorem condition_sem {N : Prop} {po : PluralOperands} {d : Dec} (h : Represents N po d) (lvl : Level) (hl : lvl.ok d)
    (c : Condition) (hN : ∀ a ∈ c, ∀ r ∈ a, r.expression.operand = .N → N) (hs : condSafe lvl c = true) :
    ∃ e b, condition c = some e ∧ Ev po e b ∧ (b = true ↔ Holds d c) := by
  simp only [condSafe, Bool.and_eq_true, Bool.not_eq_true', List.all_eq_true] at hs
  obtain ⟨hne, hs⟩ := hs
  have key : ∀ c : Condition, (∀ a ∈ c, ∀ r ∈ a, r.expression.operand = .N → N) → (∀ a ∈ c, andSafe lvl a = true) →
      ∃ b, EvAny po (c.filterMap andCondition) b ∧ (c.filterMap andCondition).length = c.length ∧ (b = true ↔ Holds d c) := by
    intro c hN hs
    induction c with
    | nil => exact ⟨false, .nil, rfl, by simp [Holds]⟩
    | cons a c ih =>
      obtain ⟨b, h1, h2, h3⟩ := ih (fun a ha => hN a (by simp [ha])) (fun a ha => hs a (by simp [ha]))
      obtain ⟨e, b', h4, h5, h6⟩ := and_sem h lvl hl a (hN a (by simp)) (hs a (by simp))
      refine ⟨b' || b, ?_, ?_, ?_⟩
      · simp only [List.filterMap_cons, h4]; exact .cons h5 h1
      · simp [h4, h2]
      · rw [Bool.or_eq_true, h3, h6]
        simp [Holds]
  obtain ⟨b, h1, h2, h3⟩ := key c hN hs
  obtain ⟨e, he, hev⟩ := h1.anyOf (by
    intro h0
    rw [h0] at h2
    cases c with
    | nil => simp at hne
    | cons a c => simp at h2)
  exact ⟨e, b, he, hev, h3⟩

/-! ## Operands that represent a number -/

theorem sig_eq (d : Dec) : d.sig = d.i * 10 ^ d.v + d.f := rfl

theorem sig_allDigits (d : Dec) : allDigits d = d.sig := rfl

theorem ofRat_fin (p q k : Nat) (hq : 0 < q) (hk : k ≤ 1000) (h : p < 2 ^ k * q) :
    Flt.ofRat b64 false p q = .fin false (Flt.roundMag b64 p q) := by
  have h1 := Flt.roundMag_le_two b64 (by decide) p q
  have h2 : p * 2 ^ b64.scale / q < 2 ^ k * 2 ^ b64.scale := by
    rw [Nat.div_lt_iff_lt_mul hq]
    calc p * 2 ^ b64.scale < 2 ^ k * q * 2 ^ b64.scale := Nat.mul_lt_mul_of_pos_right h (Nat.two_pow_pos _)
      _ = _ := by ring
  rw [Flt.ofRat, if_neg]
  rw [not_le]
  have h3 : Flt.roundMag b64 p q < 2 ^ (k + 2) * 2 ^ b64.scale := by
    have h0 : 0 < 2 ^ k * 2 ^ b64.scale := Nat.mul_pos (Nat.two_pow_pos _) (Nat.two_pow_pos _)
    have : 2 ^ (k + 2) * 2 ^ b64.scale = 4 * (2 ^ k * 2 ^ b64.scale) := by ring
    omega
  calc _ < 2 ^ (k + 2) * 2 ^ b64.scale := h3
    _ = 2 ^ (k + 2 + b64.scale) := (Nat.pow_add ..).symm
    _ ≤ _ := Nat.pow_le_pow_right (by omega) (by simp only [b64]; omega)

theorem abs_div_le (x y p q : Nat) (hq : 0 < q) (s : Nat)
    (h : |((x * q : Nat) : ℤ) - ((p * 2 ^ s : Nat) : ℤ)| ≤ |((y * q : Nat) : ℤ) - ((p * 2 ^ s : Nat) : ℤ)|) :
    |(x : ℚ) / 2 ^ s - (p : ℚ) / q| ≤ |(y : ℚ) / 2 ^ s - (p : ℚ) / q| := by
  have hq' : (0 : ℚ) < q := by exact_mod_cast hq
  have hp' : (0 : ℚ) < 2 ^ s := by positivity
  have key : ∀ m : Nat, |(m : ℚ) / 2 ^ s - (p : ℚ) / q| =
      ((|((m * q : Nat) : ℤ) - ((p * 2 ^ s : Nat) : ℤ)| : ℤ) : ℚ) / (2 ^ s * q) := by
    intro m
    rw [div_sub_div _ _ (ne_of_gt hp') (ne_of_gt hq'), abs_div, abs_of_pos (mul_pos hp' hq')]
    congr 1
    push_cast
    rw [mul_comm (2 ^ s : ℚ) (p : ℚ)]
  rw [key, key]
  apply div_le_div_of_nonneg_right _ (le_of_lt (mul_pos hp' hq'))
  exact_mod_cast h

/-- Rounding to `f64` is to the nearest. -/
theorem ofRat_nearest (p q k : Nat) (hq : 0 < q) (hk : k ≤ 1000) (h : p < 2 ^ k * q) :
    NearestTo (Flt.ofRat b64 false p q) ((p : ℚ) / q) := by
  refine ⟨_, ofRat_fin p q k hq hk h, Flt.roundMag_representable b64 (by decide) p q hq, ?_⟩
  rintro m' ⟨c, e, hc, rfl⟩
  have h1 := Flt.roundMag_nearest b64 (by decide) p q hq c e hc
  have hs : b64.scale = 1074 := rfl
  rw [hs] at h1
  have hq' : (0 : ℚ) < q := by exact_mod_cast hq
  exact abs_div_le _ _ _ _ hq 1074 h1

/-- `n` rounded to the nearest float represents every such decimal. -/
theorem represents_of_fits {N : Prop} (po : PluralOperands) (d : Dec) (hi : po.i = d.i) (hv : po.v = d.v) (hw : po.w = d.w)
    (hf : po.f = d.f) (ht : po.t = d.t) (hn : N → po.n = Flt.ofRat b64 false d.sig (10 ^ d.v))
    (h1 : N → Fits d) : Represents N po d := by
  simp only [Fits, sig_allDigits] at h1
  refine ⟨hi, hv, hw, hf, ht, fun hN => ?_⟩
  refine ⟨Flt.roundMag b64 d.sig (10 ^ d.v), ?_, ?_⟩
  · rw [hn hN]
    rcases h1 hN with ⟨h1, -⟩ | ⟨-, h1⟩
    · exact ofRat_fin _ _ 53 (by positivity) (by omega)
        (lt_of_lt_of_le h1 (Nat.le_mul_of_pos_right _ (by positivity)))
    · refine ofRat_fin _ _ 64 (by positivity) (by omega) ?_
      rw [sig_eq]
      have := d.f_lt
      calc _ < d.i * 10 ^ d.v + 10 ^ d.v := by omega
        _ = (d.i + 1) * 10 ^ d.v := by ring
        _ ≤ _ := Nat.mul_le_mul_right _ h1
  · intro k hk
    rcases h1 hN with ⟨h1, h2⟩ | ⟨h1, h2⟩
    · refine Flt.roundMag_cmp b64 (by decide) d.sig (10 ^ d.v) k h1 ?_ (by positivity)
      calc 10 ^ d.v ≤ 10 ^ 300 := Nat.pow_le_pow_right (by omega) h2
        _ < 2 ^ 1000 := by decide +kernel
        _ ≤ 2 * 2 ^ b64.scale := by
          rw [← Nat.pow_succ']; exact Nat.pow_le_pow_right (by omega) (by decide)
    · have h3 : 2 ^ 53 * 10 ^ d.v ≤ d.sig := by
        rw [sig_eq]
        exact le_trans (Nat.mul_le_mul_right _ h1) (Nat.le_add_right ..)
      have h4 := Flt.roundMag_large b64 (by decide) d.sig (10 ^ d.v) 53 (by positivity) h3
      have h5 : k * 2 ^ b64.scale < 2 ^ 53 * 2 ^ b64.scale := Nat.mul_lt_mul_of_pos_right hk (Nat.two_pow_pos _)
      have h6 : k * 10 ^ d.v < 2 ^ 53 * 10 ^ d.v := Nat.mul_lt_mul_of_pos_right hk (by positivity)
      have : b64.scale = 1074 := rfl
      rw [this] at h4 h5
      constructor <;> constructor <;> intro h <;> omega

end Verif.Sem
