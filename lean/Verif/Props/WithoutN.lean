import Verif.Props.Library
import Verif.Props.Layout
import Verif.Props.Categories
import Verif.Props.HostWidth

/-!
# C115: every rule can be written so that the generated code is right

The generator gets relations on `n` wrong (C39, C40).  Every rule has an equivalent one without `n` and without `within`, and of such rules the
generated code is right on all numbers, so that nothing but the data needs to be changed.
-/

namespace Verif.Props
open Verif Api Rust Uts35 Spec Verif.Parser Verif.Grammar Generate GenPr GenRs RulesRead FileRead Gen Maps Lib Sem Eval ResourceSpec Resource
open PluralOperands

/-! ## The rewriting -/

/-- `i` in the place of `n`. -/
def useI (e : Expression) : Expression := ⟨.I, e.modulus⟩

/-- `f = 0` -/
def noFraction : Relation := ⟨⟨.F, none⟩, .EQ, [.value 0]⟩

/-- `f != 0` -/
def hasFraction : Relation := ⟨⟨.F, none⟩, .NotEQ, [.value 0]⟩

/-- One item of `n within`. -/
def withinItem (e : Expression) : RangeListItem → Condition
  | .value k => [[⟨e, .EQ, [.value k]⟩, noFraction]]
  | .range lo hi =>
    if lo < hi then [[⟨e, .EQ, [.range lo (hi - 1)]⟩], [⟨e, .EQ, [.value hi]⟩, noFraction]] else [[⟨e, .EQ, [.range lo hi]⟩, noFraction]]

/-- One item of `n not within`. -/
def notWithinItem (e : Expression) : RangeListItem → Condition
  | .value k => [[⟨e, .NotEQ, [.value k]⟩], [hasFraction]]
  | .range lo hi => [[⟨e, .NotEQ, [.range lo hi]⟩], [⟨e, .EQ, [.value hi]⟩, hasFraction]]

/-- All of some conditions, as alternatives. -/
def allOf : List Condition → Condition
  | [] => [[]]
  | c :: l => c.flatMap fun a => (allOf l).map (a ++ ·)

/-- A relation without `n` and `within`: `n % m = l` is `i % m = l and f = 0`, and `n % m != l` is `i % m != l or f != 0`. -/
def relationWithoutN (r : Relation) : Condition :=
  if r.expression.operand = .N then
    match r.operator with
    | .In | .Is | .EQ => [[{ r with expression := useI r.expression }, noFraction]]
    | .NotIn | .IsNot | .NotEQ => [[{ r with expression := useI r.expression }], [hasFraction]]
    | .Within => r.rangeList.flatMap (withinItem (useI r.expression))
    | .NotWithin => allOf (r.rangeList.map (notWithinItem (useI r.expression)))
  else
    match r.operator with
    | .Within => [[{ r with operator := .EQ }]]
    | .NotWithin => [[{ r with operator := .NotEQ }]]
    | _ => [[r]]

def withoutN (c : Condition) : Condition := c.flatMap fun a => allOf (a.map relationWithoutN)

/-! ## Its meaning -/

theorem holds_flatMap {α : Type} (d : Dec) (l : List α) (f : α → Condition) : Holds d (l.flatMap f) ↔ ∃ x ∈ l, Holds d (f x) := by
  simp only [Holds, List.mem_flatMap]
  constructor
  · rintro ⟨a, ⟨x, hx, ha⟩, h⟩; exact ⟨x, hx, a, ha, h⟩
  · rintro ⟨x, hx, a, ha, h⟩; exact ⟨a, ⟨x, hx, ha⟩, h⟩

theorem holds_allOf (d : Dec) (l : List Condition) : Holds d (allOf l) ↔ ∀ c ∈ l, Holds d c := by
  induction l with
  | nil => simp [allOf, Holds]
  | cons c l ih =>
    rw [List.forall_mem_cons, ← ih]
    simp only [allOf, Holds, List.mem_flatMap, List.mem_map]
    constructor
    · rintro ⟨_, ⟨a, ha, b, hb, rfl⟩, h⟩
      exact ⟨⟨a, ha, fun r hr => h r (by simp [hr])⟩, b, hb, fun r hr => h r (by simp [hr])⟩
    · rintro ⟨⟨a, ha, h⟩, b, hb, h'⟩
      refine ⟨_, ⟨a, ha, b, hb, rfl⟩, fun r hr => ?_⟩
      rcases List.mem_append.1 hr with hr | hr
      · exact h r hr
      · exact h' r hr

/-- The integer that `i % m` is. -/
def intOf (d : Dec) (e : Expression) : Nat :=
  match e.modulus with
  | none => d.i
  | some m => d.i % m

theorem value_useI (d : Dec) (e : Expression) : exprValue d (useI e) = intOf d e := by
  obtain ⟨o, m⟩ := e
  cases m with
  | none => rfl
  | some m => simp only [exprValue, useI, intOf, Dec.operand, qmod_nat]

theorem value_n (d : Dec) (e : Expression) (h : e.operand = .N) : exprValue d e = intOf d e + (d.f : ℚ) / 10 ^ d.v := by
  obtain ⟨o, m⟩ := e
  simp only at h
  subst h
  cases m with
  | none => simp only [exprValue, intOf, Dec.operand]; exact d.value_eq
  | some m => simp only [exprValue, intOf, Dec.operand]; exact qmod_value d m

theorem fraction_bounds (d : Dec) : 0 ≤ (d.f : ℚ) / 10 ^ d.v ∧ (d.f : ℚ) / 10 ^ d.v < 1 ∧ ((d.f : ℚ) / 10 ^ d.v = 0 ↔ d.f = 0) := by
  have hp : (0 : ℚ) < 10 ^ d.v := by positivity
  refine ⟨by positivity, ?_, ?_⟩
  · rw [div_lt_one hp]
    exact_mod_cast d.f_lt
  · rw [div_eq_zero_iff]
    constructor
    · rintro (h | h)
      · exact_mod_cast h
      · exact absurd h hp.ne'
    · intro h; left; exact_mod_cast h

theorem nat_itemIn (A : Nat) (x : RangeListItem) :
    ItemIn A x ↔ match x with | .value k => A = k | .range lo hi => lo ≤ A ∧ A ≤ hi := by
  cases x with
  | value k => simp [ItemIn]
  | range lo hi =>
    simp only [ItemIn, Nat.cast_inj]
    exact ⟨fun ⟨k, h1, h2, h3⟩ => by omega, fun h => ⟨A, h.1, h.2, rfl⟩⟩

theorem nat_itemWithin (A : Nat) (x : RangeListItem) : ItemWithin A x ↔ ItemIn A x := by
  rw [nat_itemIn]
  cases x with
  | value k => simp [ItemWithin]
  | range lo hi => simp [ItemWithin]

theorem sum_eq_nat (A : Nat) (x : ℚ) (h0 : 0 ≤ x) (h1 : x < 1) (k : Nat) : (A : ℚ) + x = k ↔ A = k ∧ x = 0 := by
  constructor
  · intro h
    have h2 : A = k := by
      rcases lt_trichotomy A k with hlt | he | hgt
      · have : (A : ℚ) + 1 ≤ k := by exact_mod_cast hlt
        linarith
      · exact he
      · have : (k : ℚ) + 1 ≤ A := by exact_mod_cast hgt
        linarith
    subst h2
    exact ⟨rfl, by linarith⟩
  · rintro ⟨rfl, rfl⟩; simp

theorem sum_itemIn (A : Nat) (x : ℚ) (h0 : 0 ≤ x) (h1 : x < 1) (y : RangeListItem) : ItemIn ((A : ℚ) + x) y ↔ ItemIn A y ∧ x = 0 := by
  cases y with
  | value k => simp only [ItemIn, sum_eq_nat A x h0 h1, Nat.cast_inj]
  | range lo hi =>
    simp only [ItemIn, sum_eq_nat A x h0 h1, Nat.cast_inj]
    constructor
    · rintro ⟨k, a, b, c, e⟩; exact ⟨⟨k, a, b, c⟩, e⟩
    · rintro ⟨⟨k, a, b, c⟩, e⟩; exact ⟨k, a, b, c, e⟩

theorem sum_within (A : Nat) (x : ℚ) (h0 : 0 ≤ x) (h1 : x < 1) (lo hi : Nat) :
    ((lo : ℚ) ≤ A + x ∧ (A : ℚ) + x ≤ hi) ↔ lo ≤ A ∧ (A < hi ∨ A = hi ∧ x = 0) := by
  have hlo : (lo : ℚ) ≤ A + x ↔ lo ≤ A := by
    constructor
    · intro h
      by_contra hc
      have : (A : ℚ) + 1 ≤ lo := by exact_mod_cast (by omega : A + 1 ≤ lo)
      linarith
    · intro h
      have : (lo : ℚ) ≤ A := by exact_mod_cast h
      linarith
  have hhi : (A : ℚ) + x ≤ hi ↔ A < hi ∨ A = hi ∧ x = 0 := by
    constructor
    · intro h
      rcases lt_trichotomy A hi with hlt | he | hgt
      · exact .inl hlt
      · subst he; exact .inr ⟨rfl, by linarith⟩
      · have : (hi : ℚ) + 1 ≤ A := by exact_mod_cast hgt
        linarith
    · rintro (h | ⟨rfl, rfl⟩)
      · have : (A : ℚ) + 1 ≤ hi := by exact_mod_cast h
        linarith
      · simp
  rw [hlo, hhi]

theorem holds_noFraction (d : Dec) : (RelationHolds d noFraction ↔ d.f = 0) ∧ (RelationHolds d hasFraction ↔ d.f ≠ 0) := by
  simp [RelationHolds, noFraction, hasFraction, exprValue, Dec.operand, ItemIn]

theorem withinItem_holds (d : Dec) (e : Expression) (he : e.operand = .N) (x : RangeListItem) :
    (Holds d (withinItem (useI e) x) ↔ ItemWithin (exprValue d e) x) ∧ (Holds d (notWithinItem (useI e) x) ↔ ¬ ItemWithin (exprValue d e) x) := by
  obtain ⟨h0, h1, h2⟩ := fraction_bounds d
  rw [value_n d e he]
  obtain ⟨n1, n2⟩ := holds_noFraction d
  have hv := value_useI d e
  rw [← h2] at n1
  rw [ne_eq, ← h2] at n2
  generalize (d.f : ℚ) / 10 ^ d.v = y at *
  generalize intOf d e = A at *
  have hr : ∀ l, (RelationHolds d ⟨useI e, .EQ, l⟩ ↔ ∃ x ∈ l, ItemIn A x) ∧ (RelationHolds d ⟨useI e, .NotEQ, l⟩ ↔ ¬ ∃ x ∈ l, ItemIn A x) :=
    fun l => by simp only [RelationHolds, hv, and_self]
  cases x with
  | value k =>
    simp only [withinItem, notWithinItem, Holds, List.mem_cons, List.not_mem_nil, or_false, exists_eq_left, forall_eq_or_imp, forall_eq, (hr _).1, (hr _).2, n1, n2,
      exists_eq_or_imp, ItemWithin, sum_eq_nat A y h0 h1, nat_itemIn]
    constructor
    · trivial
    · tauto
  | range lo hi =>
    have hw := sum_within A y h0 h1 lo hi
    simp only [ItemWithin, hw]
    constructor
    · simp only [withinItem]
      split_ifs with hlt <;>
      simp only [Holds, List.mem_cons, List.not_mem_nil, or_false, exists_eq_left, forall_eq_or_imp, forall_eq, (hr _).1, n1, exists_eq_or_imp, nat_itemIn]
      · constructor
        · rintro (h | ⟨rfl, h⟩)
          · omega
          · exact ⟨by omega, .inr ⟨rfl, h⟩⟩
        · rintro ⟨a, b | b⟩
          · left; omega
          · exact .inr b
      · constructor
        · rintro ⟨a, b⟩
          exact ⟨a.1, .inr ⟨by omega, b⟩⟩
        · rintro ⟨a, b | b⟩
          · omega
          · exact ⟨by omega, b.2⟩
    · simp only [notWithinItem, Holds, List.mem_cons, List.not_mem_nil, or_false, exists_eq_left, forall_eq_or_imp, forall_eq, (hr _).1, (hr _).2, n2, exists_eq_or_imp, nat_itemIn]
      constructor
      · rintro (h | ⟨rfl, h⟩) ⟨a, b | b⟩
        · omega
        · omega
        · omega
        · exact h b.2
      · intro h
        by_cases hy : y = 0
        · left; rintro ⟨a, b⟩; exact h ⟨a, by rcases Nat.lt_or_ge A hi with c | c; exacts [.inl c, .inr ⟨by omega, hy⟩]⟩
        · by_cases hA : A = hi
          · exact .inr ⟨hA, hy⟩
          · left; rintro ⟨a, b⟩; exact h ⟨a, .inl (by omega)⟩

theorem other_nat (d : Dec) (e : Expression) (he : e.operand ≠ .N) : ∃ A : Nat, exprValue d e = A := by
  obtain ⟨o, m⟩ := e
  have : ∃ B : Nat, d.operand o = B := by cases o <;> first | exact absurd rfl he | exact ⟨_, rfl⟩
  obtain ⟨B, hB⟩ := this
  cases m with
  | none => exact ⟨B, hB⟩
  | some m => exact ⟨B % m, by simp only [exprValue, hB, qmod_nat]⟩

theorem relation_holds (d : Dec) (r : Relation) : Holds d (relationWithoutN r) ↔ RelationHolds d r := by
  obtain ⟨e, op, l⟩ := r
  unfold relationWithoutN
  by_cases he : e.operand = .N
  · simp only [he, if_true]
    obtain ⟨n1, n2⟩ := holds_noFraction d
    obtain ⟨h0, h1, h2⟩ := fraction_bounds d
    have hsum : (∃ x ∈ l, ItemIn (exprValue d e) x) ↔ (∃ x ∈ l, ItemIn (intOf d e) x) ∧ d.f = 0 := by
      rw [value_n d e he, ← h2]
      simp only [sum_itemIn _ _ h0 h1]
      exact ⟨fun ⟨x, a, b, c⟩ => ⟨⟨x, a, b⟩, c⟩, fun ⟨⟨x, a, b⟩, c⟩ => ⟨x, a, b, c⟩⟩
    have hpos : ∀ op, (op = .In ∨ op = .Is ∨ op = .EQ) → (Holds d [[⟨useI e, op, l⟩, noFraction]] ↔ RelationHolds d ⟨e, op, l⟩) := by
      intro op ho
      simp only [Holds, List.mem_cons, List.not_mem_nil, or_false, exists_eq_left, forall_eq_or_imp, forall_eq, n1]
      rcases ho with rfl | rfl | rfl <;> simp only [RelationHolds, value_useI, hsum]
    have hneg : ∀ op, (op = .NotIn ∨ op = .IsNot ∨ op = .NotEQ) → (Holds d [[⟨useI e, op, l⟩], [hasFraction]] ↔ RelationHolds d ⟨e, op, l⟩) := by
      intro op ho
      simp only [Holds, List.mem_cons, List.not_mem_nil, or_false, exists_eq_or_imp, exists_eq_left, forall_eq, n2]
      rcases ho with rfl | rfl | rfl <;> simp only [RelationHolds, value_useI, hsum, not_and_or]
    cases op
    all_goals first
      | exact hpos _ (by simp)
      | exact hneg _ (by simp)
      | skip
    · simp only [holds_flatMap, (withinItem_holds d e he _).1, RelationHolds]
    · simp only [holds_allOf, List.forall_mem_map, (withinItem_holds d e he _).2, RelationHolds, not_exists, not_and]
  · obtain ⟨A, hA⟩ := other_nat d e he
    cases op <;> simp [he, Holds, RelationHolds, hA, nat_itemWithin]

/-- C115: the condition without `n` and `within` is true of the same numbers. -/
theorem C115_meaning (c : Condition) (d : Dec) : Holds d (withoutN c) ↔ Holds d c := by
  unfold withoutN
  simp only [holds_flatMap, holds_allOf, List.forall_mem_map, relation_holds]
  rfl

/-! ## Its code -/

/-- The relation has a list and no modulus zero. -/
def Usable (r : Relation) : Prop := r.rangeList ≠ [] ∧ r.expression.modulus ≠ some 0

theorem allOf_all {Q : Relation → Prop} (l : List Condition) (h : ∀ c ∈ l, AllRelations Q c) :
    allOf l ≠ [] ∧ ∀ a ∈ allOf l, (l ≠ [] → a ≠ []) ∧ ∀ r ∈ a, Q r := by
  induction l with
  | nil => simp [allOf]
  | cons c l ih =>
    obtain ⟨h1, h2⟩ := ih fun c hc => h c (by simp [hc])
    obtain ⟨g1, g2⟩ := h c (by simp)
    simp only [allOf]
    constructor
    · intro he
      obtain ⟨a, ha⟩ := List.exists_mem_of_ne_nil _ g1
      obtain ⟨b, hb⟩ := List.exists_mem_of_ne_nil _ h1
      have : a ++ b ∈ c.flatMap fun a => (allOf l).map (a ++ ·) := List.mem_flatMap.2 ⟨a, ha, List.mem_map.2 ⟨b, hb, rfl⟩⟩
      rw [he] at this; cases this
    · intro x hx
      obtain ⟨a, ha, hx⟩ := List.mem_flatMap.1 hx
      obtain ⟨b, hb, rfl⟩ := List.mem_map.1 hx
      refine ⟨fun _ he => (g2 a ha).1 (List.append_eq_nil_iff.1 he).1, fun r hr => ?_⟩
      rcases List.mem_append.1 hr with hr | hr
      · exact (g2 a ha).2 r hr
      · exact (h2 b hb).2 r hr

theorem flatMap_all {α : Type} {Q : Relation → Prop} (l : List α) (f : α → Condition) (hl : l ≠ []) (h : ∀ x ∈ l, AllRelations Q (f x)) :
    AllRelations Q (l.flatMap f) := by
  constructor
  · obtain ⟨x, hx⟩ := List.exists_mem_of_ne_nil _ hl
    obtain ⟨a, ha⟩ := List.exists_mem_of_ne_nil _ (h x hx).1
    exact List.ne_nil_of_mem (List.mem_flatMap.2 ⟨x, hx, ha⟩)
  · intro a ha
    obtain ⟨x, hx, ha⟩ := List.mem_flatMap.1 ha
    exact (h x hx).2 a ha

/-- What the relations without `n` are like, with all numbers below a bound. -/
def Plain (b : Nat) (r : Relation) : Prop := IntegerRelation r ∧ relNumbers (· < b) r

theorem item_plain (b : Nat) (hb : 0 < b) (e : Expression) (he : e.modulus ≠ some 0) (hm : ∀ m, e.modulus = some m → m < b) (x : RangeListItem)
    (hx : itemNumbers (· < b) x) : AllRelations (Plain b) (withinItem (useI e) x) ∧ AllRelations (Plain b) (notWithinItem (useI e) x) := by
  cases x with
  | value k =>
    simp only [itemNumbers] at hx
    simp [AllRelations, withinItem, notWithinItem, Plain, IntegerRelation, IsWithin, relNumbers, itemNumbers, useI, noFraction, hasFraction, he, hx, hb]
    exact hm
  | range lo hi =>
    simp only [itemNumbers] at hx
    have h1 : hi - 1 < b := by omega
    constructor
    · simp only [withinItem]
      split_ifs
      · simp [AllRelations, Plain, IntegerRelation, IsWithin, relNumbers, itemNumbers, useI, noFraction, he, hx, hb, h1]
        exact hm
      · simp [AllRelations, Plain, IntegerRelation, IsWithin, relNumbers, itemNumbers, useI, noFraction, he, hx, hb]
        exact hm
    · simp [AllRelations, notWithinItem, Plain, IntegerRelation, IsWithin, relNumbers, itemNumbers, useI, hasFraction, he, hx, hb]
      exact hm

theorem relation_plain (b : Nat) (hb : 0 < b) (r : Relation) (hr : Usable r) (hn : relNumbers (· < b) r) : AllRelations (Plain b) (relationWithoutN r) := by
  obtain ⟨e, op, l⟩ := r
  obtain ⟨h1, h2⟩ := hr
  obtain ⟨h3, h4⟩ := hn
  simp only at h1 h2 h3 h4
  have hi := fun x hx => item_plain b hb e h2 h3 x (h4 x hx)
  unfold relationWithoutN
  by_cases he : e.operand = .N
  · simp only [he, if_true]
    have hp : ∀ op, ¬ IsWithin op → Plain b ⟨useI e, op, l⟩ := fun op ho => ⟨⟨by simp [useI], ho, h1, h2⟩, h3, h4⟩
    have h0 : Plain b noFraction ∧ Plain b hasFraction := by
      simp [Plain, IntegerRelation, IsWithin, relNumbers, itemNumbers, noFraction, hasFraction, hb]
    cases op
    all_goals first
      | exact flatMap_all _ _ h1 fun x hx => (hi x hx).1
      | (obtain ⟨g1, g2⟩ := allOf_all (Q := Plain b) (l.map (notWithinItem (useI e))) (List.forall_mem_map.2 fun x hx => (hi x hx).2)
         exact ⟨g1, fun a ha => ⟨(g2 a ha).1 (by simpa using h1), (g2 a ha).2⟩⟩)
      | (simp only [AllRelations, List.mem_cons, List.not_mem_nil, or_false, forall_eq_or_imp, forall_eq, ne_eq, reduceCtorEq, not_false_eq_true, true_and, h0, and_true]
         exact hp _ (by simp [IsWithin]))
  · cases op <;> simp [he, AllRelations, Plain, IntegerRelation, IsWithin, relNumbers, h1, h2] <;> exact ⟨h3, h4⟩

theorem withoutN_plain (b : Nat) (hb : 0 < b) (c : Condition) (hc : AllRelations Usable c) (hn : ∀ a ∈ c, ∀ r ∈ a, relNumbers (· < b) r) :
    AllRelations (Plain b) (withoutN c) := by
  refine flatMap_all _ _ hc.1 fun a ha => ?_
  obtain ⟨g1, g2⟩ := allOf_all (Q := Plain b) (a.map relationWithoutN)
    (List.forall_mem_map.2 fun r hr => relation_plain b hb r ((hc.2 a ha).2 r hr) (hn a ha r hr))
  exact ⟨g1, fun x hx => ⟨(g2 x hx).1 (by simpa using (hc.2 a ha).1), (g2 x hx).2⟩⟩

/-- C115: it has no `n` and no `within`, and still no empty list and no modulus zero. -/
theorem C115_without (c : Condition) (hc : AllRelations Usable c) : AllRelations IntegerRelation (withoutN c) := by
  obtain ⟨b, hb⟩ : ∃ b, 0 < b ∧ ∀ a ∈ c, ∀ r ∈ a, relNumbers (· < b) r := by
    let top : RangeListItem → Nat := fun x => match x with | .value k => k | .range lo hi => lo + hi
    let rtop : Relation → Nat := fun r => (r.expression.modulus.getD 0) + (r.rangeList.map top).sum
    refine ⟨(c.map fun a => (a.map rtop).sum).sum + 1, by omega, fun a ha r hr => ?_⟩
    have h1 : (a.map rtop).sum ≤ (c.map fun a => (a.map rtop).sum).sum := List.single_le_sum (by simp) _ (List.mem_map.2 ⟨a, ha, rfl⟩)
    have h2 : rtop r ≤ (a.map rtop).sum := List.single_le_sum (by simp) _ (List.mem_map.2 ⟨r, hr, rfl⟩)
    refine ⟨fun m hm => ?_, fun x hx => ?_⟩
    · have : rtop r = m + (r.rangeList.map top).sum := by simp only [rtop, hm, Option.getD_some]
      omega
    · have h3 : top x ≤ (r.rangeList.map top).sum := List.single_le_sum (by simp) _ (List.mem_map.2 ⟨x, hx, rfl⟩)
      have h4 : (r.rangeList.map top).sum ≤ rtop r := Nat.le_add_left _ _
      cases x with
      | value k => replace h3 : k ≤ (r.rangeList.map top).sum := h3; simp only [itemNumbers]; omega
      | range lo hi => replace h3 : lo + hi ≤ (r.rangeList.map top).sum := h3; simp only [itemNumbers]; omega
  have hp := withoutN_plain b hb.1 c hc hb.2
  exact ⟨hp.1, fun a ha => ⟨(hp.2 a ha).1, fun r hr => ((hp.2 a ha).2 r hr).1⟩⟩

/-- All operands but `n`. -/
def IntegersOf (po : PluralOperands) (d : Dec) : Prop := po.i = d.i ∧ po.v = d.v ∧ po.w = d.w ∧ po.f = d.f ∧ po.t = d.t

/-- C115: of the condition without `n` the generated code is right, for every number, whatever `n` was rounded to. -/
theorem C115_code (c : Condition) (hc : AllRelations Usable c) (po : PluralOperands) (d : Dec) (h : IntegersOf po d) :
    ∃ e b, Code (withoutN c) e ∧ e.eval po = some (.bool b) ∧ (b = true ↔ Holds d c) := by
  obtain ⟨e, v, h1, h2, h3⟩ := C38_condition_correct (withoutN c) (C115_without c hc) po d h.1 h.2.1 h.2.2.1 h.2.2.2.1 h.2.2.2.2
  exact ⟨e, v, h1, h2, h3.trans (C115_meaning c d)⟩

/-- `n % 100 within 2..10` is a condition as in C115_code, and 102 and 2.5 are numbers as there. -/
example : AllRelations Usable [[⟨⟨.N, some 100⟩, .Within, [.range 2 10]⟩]] ∧ IntegersOf (PluralOperands.fromUnsigned 102) ⟨102, []⟩ ∧
    IntegersOf ⟨.nan, 2, 1, 1, 5, 5⟩ ⟨2, [5]⟩ := by
  refine ⟨by simp [AllRelations, Usable], ?_, ?_⟩ <;> unfold IntegersOf <;> decide

/-! ## Texts -/

instance (r : Relation) : Decidable (Usable r) := inferInstanceAs (Decidable (_ ∧ _))
instance (c : Condition) : Decidable (AllRelations Usable c) := inferInstanceAs (Decidable (_ ∧ _))

/-- The text of a rule, rewritten; samples are left out, and what cannot be used is left as it is. -/
def rewriteText (text : Str) : Str :=
  match parsePluralRule 64 text with
  | .ok r => if AllRelations Usable r.condition then printCondition (withoutN r.condition) else text
  | .error _ => text

def rewriteRules (rules : RuleObj) : RuleObj := rules.map fun p => (p.1, rewriteText p.2)

def rewriteObj (obj : TypeObj) : TypeObj := obj.map fun p => (p.1, rewriteRules p.2)

theorem rewriteText_spec {text : Str} {c : Condition} {s : Option Samples} (h : RuleText 64 text ⟨c, s⟩) :
    ∃ c' s', RuleText 64 (rewriteText text) ⟨c', s'⟩ ∧ (∀ d, Holds d c' ↔ Holds d c) ∧ (AllRelations Usable c → AllRelations IntegerRelation c') := by
  have hp := C29_complete 64 _ _ h
  unfold rewriteText
  rw [hp]
  simp only
  split_ifs with hu
  · have hn := h.numbers
    have hpl := withoutN_plain (2 ^ 64) (by norm_num) c hu hn.1
    refine ⟨withoutN c, none, .cond (printCondition_text ⟨hpl.1, fun a ha => ⟨(hpl.2 a ha).1, fun r hr => ((hpl.2 a ha).2 r hr).1.2.2.1⟩⟩
      fun a ha r hr => ((hpl.2 a ha).2 r hr).2), C115_meaning c, fun _ => ⟨hpl.1, fun a ha => ⟨(hpl.2 a ha).1, fun r hr => ((hpl.2 a ha).2 r hr).1⟩⟩⟩
  · exact ⟨c, s, h, fun _ => Iff.rfl, fun h => absurd h hu⟩

/-- C115: the rewritten texts say the same of every number. -/
theorem C115_texts (rules : RuleObj) (d : Dec) (c : PluralCategory) : Says (rewriteRules rules) d c ↔ Says rules d c := by
  unfold Says rewriteRules
  constructor
  · rintro ⟨text', cond', s', h1, h2, h3⟩
    obtain ⟨text, h0, rfl⟩ := (lastOf_map _ _ _ _).1 h1
    cases hp : parsePluralRule 64 text with
    | error e =>
      have : rewriteText text = text := by unfold rewriteText; rw [hp]
      rw [this] at h2
      exact ⟨text, cond', s', h0, h2, h3⟩
    | ok r =>
      obtain ⟨c0, s0⟩ := r
      have h4 := parsePluralRule_ok.1 hp
      obtain ⟨c1, s1, g1, g2, -⟩ := rewriteText_spec h4
      have := C29_complete 64 _ _ g1
      rw [C29_complete 64 _ _ h2] at this
      cases this
      exact ⟨text, c0, s0, h0, h4, (g2 d).1 h3⟩
  · rintro ⟨text, cond, s, h1, h2, h3⟩
    obtain ⟨c1, s1, g1, g2, -⟩ := rewriteText_spec h2
    exact ⟨_, c1, s1, (lastOf_map _ _ _ _).2 ⟨text, h1, rfl⟩, g1, (g2 d).2 h3⟩

theorem firstCategory_rewrite (rules : RuleObj) (d : Dec) (c : PluralCategory) : FirstCategory (rewriteRules rules) d c ↔ FirstCategory rules d c := by
  unfold FirstCategory
  simp only [C115_texts]

theorem supported_rewrite {rules : RuleObj} (h : Supported Usable rules) : Supported IntegerRelation (rewriteRules rules) := by
  intro name text' h1
  obtain ⟨text, h0, rfl⟩ := (lastOf_map _ _ _ _).1 h1
  obtain ⟨c, cond, s, h2, h3, h4⟩ := h name text h0
  obtain ⟨c1, s1, g1, -, g3⟩ := rewriteText_spec h3
  exact ⟨c, c1, s1, h2, g1, fun hc => g3 (h4 hc)⟩

theorem rightFor_integersOf : RightFor IntegerRelation IntegersOf where
  code := fun po d h c hc => C38_condition_correct c hc po d h.1 h.2.1 h.2.2.1 h.2.2.2.1 h.2.2.2.2
  listed := fun _ h => ⟨h.2.2.1, fun hw => absurd hw h.2.1⟩
  some_number := ⟨⟨.nan, 0, 0, 0, 0, 0⟩, ⟨0, []⟩, rfl, rfl, rfl, rfl, rfl⟩

/-! ## The library -/

theorem tested_integer {rules : RuleObj} (h : Supported IntegerRelation rules) {name text part : Str} {cond : Condition} (h1 : LastOf rules name text)
    (h2 : ThirdPart name part) (h3 : part ∈ categoryNames) (h4 : ConditionOf 64 text cond) : AllRelations IntegerRelation cond := by
  obtain ⟨c, cond', s, rfl, h5, h6⟩ := h name text h1
  have := thirdPart_unique h2 (thirdPart_standard c)
  subst this
  cases C89_one 64 _ _ _ (parsePluralCondition_ok.1 (C31_agree 64 _ _ (C29_complete 64 _ _ h5))) h4
  exact h6 (cldrName_mem.1 h3)

/-- C115: if in both files the rules are rewritten, then the library compiles even with the file as written (`--ugly`), and however the file is
formatted, `create` gives a function that answers what the original rules say, for every number whose `i`, `v`, `w`, `f`, `t` it is given. -/
theorem C115_library (texts : List Str) (rs : List Generate.Resource) (hr : List.Forall₂ ResourceText texts rs) (out : Str)
    (h : generateText LangId.parse texts = some out) (objs : PluralRuleType → TypeObj) (ho : ∀ t, rs.filterMap (dataOf t) = [rewriteObj (objs t)])
    (hu : ∀ t key rules, LastOf (objs t) key rules → key ≠ c!"root" →
      (∀ id, LangId.parse key = some id → id.language ≠ none) ∧ Supported Usable rules) :
    build out ≠ none ∧ ∀ text, Formatted out text → ∀ lib, build text = some lib → ∀ t search, Searches search → ∀ id pr,
      lib.create search id t = some (.ok pr) →
      ∃ key rules id', LastOf (objs t) key rules ∧ key ≠ c!"root" ∧ LangId.parse key = some id' ∧ id = { id' with variants := none } ∧
        ∀ po d, IntegersOf po d → ∀ c, pr.function.call po = some c ↔ FirstCategory rules d c := by
  constructor
  · refine (C95_ugly texts rs hr out h).2 fun t => ⟨_, ho t, ?_, ?_⟩
    · intro key rules' h1 h2
      obtain ⟨rules, h0, rfl⟩ := (lastOf_map _ _ _ _).1 h1
      obtain ⟨h3, h4⟩ := hu t key rules h0 h2
      refine ⟨h3, fun name text part cond g1 g2 g3 g4 => ?_⟩
      obtain ⟨k1, k2⟩ := tested_integer (supported_rewrite h4) g1 g2 g3 g4
      exact ⟨k1, fun a ha => ⟨(k2 a ha).1, fun r hr => ⟨rightFor_integersOf.listed r ((k2 a ha).2 r hr), fun hz => ((k2 a ha).2 r hr).2.2.2 hz.1⟩⟩⟩
    · intro key rules' h1 h2 name c cond ht a ha r hr hc
      obtain ⟨rules, h0, rfl⟩ := (lastOf_map _ _ _ _).1 h1
      obtain ⟨k1, k2, text, k3, k4⟩ := ht
      have := tested_integer (supported_rewrite (hu t key rules h0 h2).2) k3 k2 (cldrName_mem.2 k1) k4
      exact ((this.2 a ha).2 r hr).1 (by rw [hc.1])
  · intro text hf lib hb t search hs id pr hc
    obtain ⟨obj', streams, h1, h2, h3, h4⟩ := (build_generated hr h hf lib).1 hb t
    rw [ho t] at h1; cases h1
    obtain ⟨hsorted, -, hent⟩ := (type_compiles h2).2 _ h3
    have hsearch := hs (lib.table t) id hsorted
    unfold Library.create at hc
    cases hi : search (lib.table t) id with
    | error i => simp [hi] at hc
    | ok i =>
      rw [hi] at hsearch
      obtain ⟨f, hf⟩ := hsearch
      simp only [hi, hf, Option.some.injEq, Except.ok.injEq] at hc
      subst hc
      obtain ⟨key, rules', id', set, k1, k2, k3, k4, k5, k6⟩ := hent _ (List.mem_of_getElem? hf)
      obtain ⟨rules, k0, rfl⟩ := (lastOf_map _ _ _ _).1 k1
      refine ⟨key, rules, id', k0, k2, k3, k4, fun po d hpo c => ?_⟩
      obtain ⟨set', f', g1, g2, g3⟩ := locale_function rightFor_integersOf _ (supported_rewrite (hu t key rules k0 k2).2)
      rw [k5] at g1; cases g1
      rw [k6] at g2; cases g2
      exact (g3 po d hpo c).trans (firstCategory_rewrite rules d c)

/-! ## The CLDR data of the repository -/

/-- The rule has a standard key, and its text says a condition that can be rewritten, or is that of OTHER. -/
def usableRule (p : Str × Str) : Bool :=
  [PluralCategory.ZERO, .ONE, .TWO, .FEW, .MANY, .OTHER].any fun c => decide (p.1 = c!"pluralRule-count-" ++ cldrName c) &&
    match parsePluralRule 64 p.2 with
    | .ok r => decide (c = .OTHER) || decide (AllRelations Usable r.condition)
    | .error _ => false

theorem cldr_usable_checked (t : PluralRuleType) : (cldrData t).all (fun e => e.2.all usableRule && decide ((e.2.map (·.1)).Nodup) &&
    (decide (e.1 = c!"root") || (LangId.parse e.1).any fun id => id.language.isSome && id.variants.isNone)) = true := by
  cases t <;> decide +kernel

theorem cldr_usable (t : PluralRuleType) (key : Str) (rules : RuleObj) (h : (key, rules) ∈ cldrData t) :
    Supported Usable rules ∧ (rules.map (·.1)).Nodup ∧ (key ≠ c!"root" → ∀ id, LangId.parse key = some id → id.language ≠ none ∧ id.variants = none) := by
  have := List.all_eq_true.1 (cldr_usable_checked t) _ h
  simp only [Bool.and_eq_true, List.all_eq_true, decide_eq_true_eq, Bool.or_eq_true] at this
  obtain ⟨⟨h1, h2⟩, h3⟩ := this
  refine ⟨fun name text hl => ?_, h2, fun hk id hid => ?_⟩
  · have := h1 _ (lastOf_mem hl)
    unfold usableRule at this
    obtain ⟨c, -, hc⟩ := List.any_eq_true.1 this
    simp only [Bool.and_eq_true, decide_eq_true_eq] at hc
    obtain ⟨hn, hc⟩ := hc
    cases hp : parsePluralRule 64 text with
    | error e => simp [hp] at hc
    | ok r =>
      simp only [hp, Bool.or_eq_true, decide_eq_true_eq] at hc
      exact ⟨c, r.condition, r.samples, hn, parsePluralRule_ok.1 hp, fun ho => hc.resolve_left ho⟩
  · have := h3.resolve_left hk
    rw [hid] at this
    simp only [Option.any_some, Bool.and_eq_true, Option.isSome_iff_ne_none, Option.isNone_iff_eq_none] at this
    exact this

theorem category_of_first {rules : RuleObj} (hn : (rules.map (·.1)).Nodup) {d : Dec} {c : PluralCategory} (h : FirstCategory rules d c) : Category rules d c := by
  have hs : ∀ c, Says rules d c ↔ Satisfies rules d c := fun c => by simp only [Says, Satisfies, lastOf_nodup hn]
  unfold FirstCategory at h
  simp only [hs] at h
  exact h.imp (fun h => ⟨h.1, h.2.1⟩) id

/-- C115: with the CLDR data of the repository so rewritten, the library compiles even with the file as written, has the same locales, and
answers the CLDR category of every number whose `i`, `v`, `w`, `f`, `t` it is given. -/
theorem C115_shipped (texts : List Str) (rs : List Generate.Resource) (hr : List.Forall₂ ResourceText texts rs) (out : Str)
    (h : generateText LangId.parse texts = some out) (ho : ∀ t, rs.filterMap (dataOf t) = [rewriteObj (cldrData t)]) :
    build out ≠ none ∧ ∀ text, Formatted out text → ∀ lib, build text = some lib → ∀ t search, Searches search → ∀ id,
      ((∃ pr, lib.create search id t = some (.ok pr)) ↔ id ∈ getLocales t) ∧
      ∀ pr, lib.create search id t = some (.ok pr) → ∀ po d, IntegersOf po d → ∃ c, pr.function.call po = some c ∧ CldrCategory t id d c := by
  have hnd := fun t => (C21_locales_are_keys t).2.2
  obtain ⟨h1, h2⟩ := C115_library texts rs hr out h cldrData ho fun t key rules hl hk =>
    have := cldr_usable t key rules (lastOf_mem hl)
    ⟨fun id hid => (this.2.2 hk id hid).1, this.1⟩
  refine ⟨h1, fun text hf lib hb t search hs id => ?_⟩
  have hcr := C93_create texts rs hr out h text hf lib hb t _ (ho t) search hs id
  have hkey : ∀ pr, lib.create search id t = some (.ok pr) → ∃ key rules, (key, rules) ∈ cldrData t ∧ key ≠ c!"root" ∧ LangId.parse key = some id ∧
      ∀ po d, IntegersOf po d → ∀ c, pr.function.call po = some c ↔ FirstCategory rules d c := by
    intro pr hpr
    obtain ⟨key, rules, id', k1, k2, k3, k4, k5⟩ := h2 text hf lib hb t search hs id pr hpr
    have hv := ((cldr_usable t key rules (lastOf_mem k1)).2.2 k2 id' k3).2
    refine ⟨key, rules, lastOf_mem k1, k2, ?_, k5⟩
    rw [k3, k4, ← hv]
  refine ⟨⟨fun ⟨pr, hpr⟩ => ?_, fun hid => ?_⟩, fun pr hpr po d hpo => ?_⟩
  · obtain ⟨key, rules, k1, k2, k3, -⟩ := hkey pr hpr
    exact ((C21_locales_are_keys t).1 id).2 ⟨_, k1, k2, k3⟩
  · obtain ⟨⟨key, rules⟩, k1, k2, k3⟩ := ((C21_locales_are_keys t).1 id).1 hid
    have hv := ((cldr_usable t key rules k1).2.2 k2 id k3).2
    cases hc : lib.create search id t with
    | none => rw [hc] at hcr; exact hcr.elim
    | some r =>
      cases r with
      | ok pr => exact ⟨pr, rfl⟩
      | error e =>
        rw [hc] at hcr
        refine absurd ?_ (hcr.2 key _ id ((lastOf_map _ _ _ _).2 ⟨rules, (lastOf_nodup (hnd t) _ _).2 k1, rfl⟩) k2 k3)
        rw [← hv]
  · obtain ⟨key, rules, k1, k2, k3, k4⟩ := hkey pr hpr
    have htot : pr.function.call po ≠ none := by rw [hpr] at hcr; exact hcr.2.1 po
    obtain ⟨c, hc⟩ := Option.ne_none_iff_exists'.1 htot
    exact ⟨c, hc, key, rules, k1, k3, category_of_first (cldr_usable t key rules k1).2.1 ((k4 po d hpo c).1 hc)⟩

/-! ## Every data has a file -/

theorem hex_digit : ∀ n < 16, ∃ c, (c, n) ∈ JsonSpec.hexDigits := by
  have h : ∀ n : Fin 16, JsonSpec.hexDigits.any (fun p => p.2 == n.val) = true := by decide
  intro n hn
  obtain ⟨⟨c, k⟩, hm, hk⟩ := List.any_eq_true.1 (h ⟨n, hn⟩)
  simp only [beq_iff_eq] at hk
  subst hk
  exact ⟨c, hm⟩

theorem string_has_text (t : Str) : ∃ s, JsonSpec.IsString s (some t) := by
  suffices h : ∃ b l, JsonSpec.Chars b l ∧ JsonSpec.Decodes l t by
    obtain ⟨b, l, h1, h2⟩ := h
    exact ⟨_, b, l, rfl, h1, .inl ⟨t, rfl, h2⟩⟩
  induction t with
  | nil => exact ⟨[], [], .nil, .nil⟩
  | cons c t ih =>
    obtain ⟨b, l, h1, h2⟩ := ih
    by_cases hq : c = '"'
    · subst hq
      exact ⟨_, _, .esc (x := '"') (by decide) h1, .ch h2⟩
    by_cases hb : c = '\\'
    · subst hb
      exact ⟨_, _, .esc (x := '\\') (by decide) h1, .ch h2⟩
    by_cases hn : 32 ≤ c.toNat
    · exact ⟨_, _, .plain hq hb hn h1, .ch h2⟩
    · obtain ⟨x, hx⟩ := hex_digit (c.toNat / 16) (by omega)
      obtain ⟨y, hy⟩ := hex_digit (c.toNat % 16) (by omega)
      obtain ⟨z, hz⟩ := hex_digit 0 (by omega)
      refine ⟨_, _, .uni hz hz hx hy h1, ?_⟩
      have : (JsonSpec.utf16 c).map Json.Elem.unit ++ l = .unit (4096 * 0 + 256 * 0 + 16 * (c.toNat / 16) + c.toNat % 16) :: l := by
        unfold JsonSpec.utf16
        rw [if_pos (by omega)]
        simp only [List.map_cons, List.map_nil, List.cons_append, List.nil_append, List.cons.injEq, Json.Elem.unit.injEq, and_true]
        omega
      rw [← this]
      exact .units h2

theorem members_has_text (ms : List (Str × Json.Json)) (hne : ms ≠ []) (h : ∀ m ∈ ms, ∃ s, JsonSpec.IsValue s m.2) :
    ∃ s, JsonSpec.IsMembers s (ms.map fun m => (some m.1, m.2)) := by
  induction ms with
  | nil => exact absurd rfl hne
  | cons m ms ih =>
    obtain ⟨k, hk⟩ := string_has_text m.1
    obtain ⟨v, hv⟩ := h m (by simp)
    have hw : JsonSpec.Ws [] := by simp [JsonSpec.Ws]
    by_cases hm : ms = []
    · subst hm
      exact ⟨_, .one hw hk hw hw hv hw⟩
    · obtain ⟨r, hr⟩ := ih hm fun m hm => h m (by simp [hm])
      exact ⟨_, .cons hw hk hw hw hv hw hr⟩

theorem object_has_text (ms : List (Str × Json.Json)) (h : ∀ m ∈ ms, ∃ s, JsonSpec.IsValue s m.2) :
    ∃ s, JsonSpec.IsValue s (.obj (ms.map fun m => (some m.1, m.2))) := by
  by_cases hm : ms = []
  · subst hm
    exact ⟨_, .objNil (w := []) (by simp [JsonSpec.Ws])⟩
  · obtain ⟨s, hs⟩ := members_has_text ms hm h
    exact ⟨_, .obj hs⟩

theorem map_has_text {α : Type} {P : Json.Json → α → Prop} (hP : ∀ a, ∃ s j, JsonSpec.IsValue s j ∧ P j a) (l : List (Str × α)) :
    ∃ s j, JsonSpec.IsValue s j ∧ IsMap P j l := by
  choose f g h1 h2 using hP
  obtain ⟨s, hs⟩ := object_has_text (l.map fun p => (p.1, g p.2)) fun m hm => by
    obtain ⟨p, -, rfl⟩ := List.mem_map.1 hm
    exact ⟨_, h1 p.2⟩
  refine ⟨s, _, hs, _, rfl, ?_⟩
  rw [List.map_map, List.forall₂_map_left_iff]
  exact List.forall₂_same.2 fun p _ => ⟨rfl, h2 p.2⟩

theorem type_has_text (obj : TypeObj) : ∃ s j, JsonSpec.IsValue s j ∧ IsType j obj :=
  map_has_text (fun rules => map_has_text (fun text => (string_has_text text).imp fun _ h => ⟨_, .str h, rfl⟩) rules) obj

/-- C115: every data is said by some file, so that a file with the rewritten rules can be made. -/
theorem C115_files (r : Generate.Resource) : ∃ s, ResourceText s r := by
  have hopt : ∀ o : Option TypeObj, ∃ s j, JsonSpec.IsValue s j ∧ OptField IsType (some j) o := by
    intro o
    cases o with
    | none => exact ⟨_, _, .null, .inr ⟨_, rfl, rfl⟩⟩
    | some obj =>
      obtain ⟨s, j, h1, h2⟩ := type_has_text obj
      exact ⟨s, j, h1, .inr ⟨_, rfl, h2⟩⟩
  obtain ⟨sc, jc, c1, c2⟩ := hopt r.cardinal
  obtain ⟨so, jo, o1, o2⟩ := hopt r.ordinal
  obtain ⟨v, hv⟩ := string_has_text r.cldrVersion
  obtain ⟨u, hu⟩ := string_has_text []
  obtain ⟨sv, hsv⟩ := object_has_text [(c!"_unicodeVersion", .str (some [])), (c!"_cldrVersion", .str (some r.cldrVersion))] (by
    intro m hm
    simp only [List.mem_cons, List.not_mem_nil, or_false] at hm
    rcases hm with rfl | rfl
    · exact ⟨u, .str hu⟩
    · exact ⟨v, .str hv⟩)
  obtain ⟨ss, hss⟩ := object_has_text [(c!"version", _), (c!"plurals-type-cardinal", jc), (c!"plurals-type-ordinal", jo)] (by
    intro m hm
    simp only [List.mem_cons, List.not_mem_nil, or_false] at hm
    rcases hm with rfl | rfl | rfl
    exacts [⟨_, hsv⟩, ⟨_, c1⟩, ⟨_, o1⟩])
  obtain ⟨s, hs⟩ := object_has_text [(c!"supplemental", _)] (by
    intro m hm
    simp only [List.mem_cons, List.not_mem_nil, or_false] at hm
    subst hm
    exact ⟨_, hss⟩)
  refine ⟨s, _, ⟨[], s, [], by simp, by simp [JsonSpec.Ws], hs, by simp [JsonSpec.Ws]⟩, _, .inl ⟨_, rfl, by simp, .cons ⟨[], [], rfl, by simp⟩ .nil⟩, ?_⟩
  refine ⟨_, some jc, some jo, .inl ⟨_, rfl, by simp, .cons ⟨[], _, rfl, ?_⟩ (.cons ⟨[_], _, rfl, ?_⟩ (.cons ⟨[_, _], [], rfl, ?_⟩ .nil))⟩, ?_, c2, o2⟩
  · simp
  · simp
  · simp
  · exact ⟨none, _, _, none, [], .inl ⟨_, rfl, by simp, .cons (by simp [Member]) (.cons ⟨[], _, rfl, by simp⟩ (.cons ⟨[_], [], rfl, by simp⟩ .nil))⟩,
      .inl ⟨rfl, rfl⟩, rfl, rfl⟩

theorem rewritten_accepted (t : PluralRuleType) : TypeAccepted LangId.parse (rewriteObj (cldrData t)) := by
  intro key rules' h1 h2
  obtain ⟨rules, h0, rfl⟩ := (lastOf_map _ _ _ _).1 h1
  have hm := lastOf_mem h0
  refine ⟨Option.ne_none_iff_exists'.1 ((C21_locales_are_keys t).2.1 _ hm h2), (rulesAccepted_iff _).1 ?_⟩
  obtain ⟨set, f, g1, -⟩ := locale_function rightFor_integersOf _ (supported_rewrite (cldr_usable t key rules hm).1)
  rw [g1]
  simp

/-- C115: there are files as in C115_shipped, and the generator accepts them. -/
theorem C115_exists : ∃ texts rs out, List.Forall₂ ResourceText texts rs ∧ generateText LangId.parse texts = some out ∧
    ∀ t, rs.filterMap (dataOf t) = [rewriteObj (cldrData t)] := by
  obtain ⟨a, ha⟩ := C115_files ⟨c!"37", some (rewriteObj (cldrData .CARDINAL)), none⟩
  obtain ⟨b, hb⟩ := C115_files ⟨c!"37", none, some (rewriteObj (cldrData .ORDINAL))⟩
  have hacc := rewritten_accepted
  have hda : ∀ t, [(⟨c!"37", some (rewriteObj (cldrData .CARDINAL)), none⟩ : Generate.Resource), ⟨c!"37", none, some (rewriteObj (cldrData .ORDINAL))⟩].filterMap (dataOf t) =
      [rewriteObj (cldrData t)] := by intro t; cases t <;> rfl
  generalize rewriteObj (cldrData .CARDINAL) = x at *
  have h1 := (C57_resource _ _).2 ha
  have h2 := (C57_resource _ _).2 hb
  obtain ⟨out, hout⟩ := (C47_succeeds_iff LangId.parse [⟨c!"37", some x, none⟩, ⟨c!"37", none, some (rewriteObj (cldrData .ORDINAL))⟩]).2
    ⟨by simp, ⟨c!"37", ⟨[3, 7], by simp, .inl ⟨.inl rfl, by decide⟩⟩, by simp⟩, by simp, by simp, ⟨_, List.mem_cons_self, .inl (by simp)⟩, by
      intro r hr obj ho
      have hd := hda .CARDINAL
      simp only [List.filterMap_cons, dataOf, List.filterMap_nil, List.cons.injEq, and_true] at hd
      simp only [List.mem_cons, List.not_mem_nil, or_false] at hr
      rcases hr with rfl | rfl
      · simp only [Option.some.injEq, reduceCtorEq, or_false] at ho; subst ho; rw [hd]; exact hacc _
      · simp only [Option.some.injEq, reduceCtorEq, false_or] at ho; subst ho; exact hacc _⟩
  refine ⟨[a, b], _, out, .cons ha (.cons hb .nil), ?_, hda⟩
  unfold generateText
  simp only [GenPr.mapPanic, h1, h2]
  exact hout

/-! ## Examples -/

/-- `n % 100 = 2..10` and `n within 0..2` rewritten, and the Maltese rule of the repository, which was wrong for 102. -/
example : rewriteText c!"n % 100 = 2..10 @integer 2~10" = c!"i % 100 = 2..10 and f = 0" ∧
    rewriteText c!"n within 0..2 and n != 2" = c!"i = 0..1 and i != 2 or i = 0..1 and f != 0 or i = 2 and f = 0 and i != 2 or i = 2 and f = 0 and f != 0" ∧
    rewriteText c!"i = 1 and v = 0" = c!"i = 1 and v = 0" ∧ rewriteText c!" @integer 0" = c!" @integer 0" := by decide +kernel

/-- What the library built with the rules answers, as they are and rewritten. -/
def bothAnswers (rule number : Str) : List (Option PluralCategory) :=
  [rule, rewriteText rule].map fun text =>
    (libraryOf (c!"\"mt\":{\"pluralRule-count-few\":\"" ++ text ++ c!"\"}") []).bind fun lib => (LangId.parse c!"mt").bind fun id =>
      (lib.create binarySearchByKey id .CARDINAL).bind fun r => r.toOption.bind fun pr =>
        (select pr (PluralOperands.tryFromStr number)).bind fun c => c.toOption

example : bothAnswers c!"n % 100 = 2..10" c!"102" = [some .OTHER, some .FEW] ∧ bothAnswers c!"n % 100 = 2..10" c!"2.5" = [some .FEW, some .OTHER] ∧
    bothAnswers c!"n % 100 = 2..10" c!"3.0" = [some .FEW, some .FEW] := by decide +kernel

end Verif.Props
