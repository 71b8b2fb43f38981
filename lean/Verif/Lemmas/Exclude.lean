import Verif.Lemmas.Conditions

/-! Helper lemmas: a static check under which no number satisfies two conditions, and conditions decided on one number. -/

namespace Verif.Sem
open Verif Uts35

def positiveRel (r : Relation) : Bool := r.operator == .EQ || r.operator == .In || r.operator == .Is
def negativeRel (r : Relation) : Bool := r.operator == .NotEQ || r.operator == .NotIn || r.operator == .IsNot

theorem positiveRel_holds {d : Dec} {r : Relation} (h : positiveRel r = true) :
    RelationHolds d r ↔ (r.expression.operand = .N → d.f = 0) ∧ r.rangeList.any (itemNat (intExpr d r.expression)) = true := by
  simp only [positiveRel, Bool.or_eq_true, beq_iff_eq] at h
  rw [← existsItemIn_iff]
  rcases h with (h | h) | h <;> simp only [RelationHolds, h]

theorem negativeRel_holds {d : Dec} {r : Relation} (h : negativeRel r = true) :
    RelationHolds d r ↔
      ¬ ((r.expression.operand = .N → d.f = 0) ∧ r.rangeList.any (itemNat (intExpr d r.expression)) = true) := by
  simp only [negativeRel, Bool.or_eq_true, beq_iff_eq] at h
  rw [← existsItemIn_iff]
  rcases h with (h | h) | h <;> simp only [RelationHolds, h]

/-! ## Deciding a condition on one number -/

/-- A relation without `within`, decided. -/
def relB (d : Dec) (r : Relation) : Bool :=
  let b := (r.expression.operand != .N || d.f == 0) && r.rangeList.any (itemNat (intExpr d r.expression))
  if positiveRel r then b else !b

def holdsB (d : Dec) (c : Condition) : Bool := c.any fun a => a.all (relB d)

/-- No relation is `within` or `not within`. -/
def noWithin (c : Condition) : Bool := c.all fun a => a.all fun r => positiveRel r || negativeRel r

theorem relB_iff (d : Dec) (r : Relation) (h : (positiveRel r || negativeRel r) = true) : relB d r = true ↔ RelationHolds d r := by
  have e : ((r.expression.operand != .N || d.f == 0) && r.rangeList.any (itemNat (intExpr d r.expression))) = true ↔
      (r.expression.operand = .N → d.f = 0) ∧ r.rangeList.any (itemNat (intExpr d r.expression)) = true := by
    simp only [Bool.and_eq_true, Bool.or_eq_true, bne_iff_ne, beq_iff_eq, ne_eq]
    tauto
  by_cases hp : positiveRel r = true
  · rw [positiveRel_holds hp, ← e, relB, if_pos hp]
  · simp only [hp, Bool.false_or] at h
    rw [negativeRel_holds h, ← e, relB, if_neg hp, Bool.not_eq_true', ← Bool.not_eq_true]

theorem holdsB_iff (d : Dec) (c : Condition) (h : noWithin c = true) : holdsB d c = true ↔ Holds d c := by
  simp only [noWithin, List.all_eq_true] at h
  simp only [holdsB, Holds, List.any_eq_true, List.all_eq_true]
  constructor
  · rintro ⟨a, ha, hr⟩; exact ⟨a, ha, fun r hm => (relB_iff d r (h a ha r hm)).1 (hr r hm)⟩
  · rintro ⟨a, ha, hr⟩; exact ⟨a, ha, fun r hm => (relB_iff d r (h a ha r hm)).2 (hr r hm)⟩

/-! ## Exclusion -/

/-- `lo, lo + 1, …`, that many numbers. -/
def valuesFrom (lo : Nat) : Nat → List Nat
  | 0 => []
  | n + 1 => lo :: valuesFrom (lo + 1) n

theorem mem_valuesFrom (lo n y : Nat) : y ∈ valuesFrom lo n ↔ lo ≤ y ∧ y < lo + n := by
  induction n generalizing lo with
  | zero => simp [valuesFrom]
  | succ n ih => simp only [valuesFrom, List.mem_cons, ih]; omega

/-- The numbers that an item lists. -/
def valuesOf : RangeListItem → List Nat
  | .value k => [k]
  | .range lo hi => valuesFrom lo (hi + 1 - lo)

theorem mem_valuesOf (item : RangeListItem) (y : Nat) : y ∈ valuesOf item ↔ itemNat y item = true := by
  cases item with
  | value k => simp [valuesOf, itemNat]
  | range lo hi => simp only [valuesOf, mem_valuesFrom, itemNat, Bool.and_eq_true, decide_eq_true_eq]; omega

/-- On integers `n` is `i`. -/
def family : Operand → Operand
  | .N => .I | .I => .I | .V => .V | .W => .W | .F => .F | .T => .T

theorem intOperand_family (d : Dec) (o : Operand) : intOperand d (family o) = intOperand d o := by cases o <;> rfl

/-- The integer value of the second expression when that of the first is `y`, if it is determined by it. -/
def determined (r s : Expression) (y : Nat) : Option Nat :=
  if family r.operand = family s.operand then
    match r.modulus, s.modulus with
    | none, none => some y
    | none, some m => some (y % m)
    | some _, none => none
    | some m1, some m2 => if m1 % m2 = 0 then some (y % m2) else none
  else none

theorem determined_sound (d : Dec) (r s : Expression) (z : Nat) (h : determined r s (intExpr d r) = some z) :
    intExpr d s = z := by
  obtain ⟨o, m⟩ := r
  obtain ⟨o', m'⟩ := s
  simp only [determined] at h
  split_ifs at h with hf
  have e : intOperand d o = intOperand d o' := by rw [← intOperand_family d o, hf, intOperand_family]
  cases m <;> cases m' <;> simp only [intExpr, e, Option.some.injEq] at h ⊢
  · exact h
  · exact h
  · simp at h
  · split_ifs at h with hd
    rw [Nat.mod_mod_of_dvd _ (Nat.dvd_of_mod_eq_zero hd)] at h
    simpa using h

/-- A relation whose expression has the integer value `y` does not hold; `int` says that the number is an integer. -/
def failsAt (int : Bool) (s : Relation) (y : Nat) : Bool :=
  if positiveRel s then !(s.rangeList.any (itemNat y))
  else negativeRel s && (s.expression.operand != .N || int) && s.rangeList.any (itemNat y)

theorem failsAt_sound {d : Dec} {int : Bool} (hi : int = true → d.f = 0) {s : Relation}
    (h : failsAt int s (intExpr d s.expression) = true) : ¬ RelationHolds d s := by
  unfold failsAt at h
  split_ifs at h with hp
  · rw [positiveRel_holds hp]
    rintro ⟨-, h2⟩
    rw [h2] at h; simp at h
  · simp only [Bool.and_eq_true, Bool.or_eq_true, bne_iff_ne] at h
    rw [negativeRel_holds h.1.1, not_not]
    refine ⟨fun hN => ?_, h.2⟩
    rcases h.1.2 with h | h
    · exact absurd hN h
    · exact hi h

/-- No number satisfies all the relations: the number has to be an integer and a fraction operand cannot be 0, or every
listed value of some relation fails another one. -/
def excludes (a : AndCondition) : Bool :=
  let int := a.any fun r => isV0 r || positiveRel r && r.expression.operand == .N
  (int && a.any fun s => (s.expression.operand == .F || s.expression.operand == .T) && failsAt int s 0) ||
  a.any fun r => positiveRel r && r.rangeList.all fun item => (valuesOf item).all fun y =>
    a.any fun s => match determined r.expression s.expression y with
      | some z => failsAt int s z
      | none => false

theorem t_of_f {d : Dec} (h : d.f = 0) : d.t = 0 := by
  have h1 := (digitsNum_eq_zero d.frac).1 h
  have : dropTrailingZeros d.frac = [] := by
    cases hf : d.frac with
    | nil => rfl
    | cons x l => rw [hf] at h1; simp only [dropTrailingZeros]; rw [if_pos h1]
  simp [Dec.t, this, digitsNum]

theorem excludes_sound (a : AndCondition) (h : excludes a = true) (d : Dec) : ¬ ∀ r ∈ a, RelationHolds d r := by
  intro hall
  unfold excludes at h
  set int := a.any fun r => isV0 r || positiveRel r && r.expression.operand == .N with hint
  have hi : int = true → d.f = 0 := by
    intro hi
    rw [hint] at hi
    simp only [List.any_eq_true, Bool.or_eq_true, Bool.and_eq_true, beq_iff_eq] at hi
    obtain ⟨r, hr, h1 | ⟨h1, h2⟩⟩ := hi
    · exact f_of_v ((relationHolds_v0 r h1 d).1 (hall r hr))
    · exact ((positiveRel_holds h1).1 (hall r hr)).1 h2
  simp only [Bool.or_eq_true, Bool.and_eq_true, List.any_eq_true, List.all_eq_true, beq_iff_eq] at h
  rcases h with ⟨h1, s, hs, h2, h3⟩ | ⟨r, hr, hp, h⟩
  · have hf := hi h1
    have ht := t_of_f hf
    refine failsAt_sound hi (s := s) ?_ (hall s hs)
    have : intExpr d s.expression = 0 := by
      unfold intExpr
      rcases h2 with h2 | h2 <;> rw [h2] <;> cases s.expression.modulus <;> simp [intOperand, hf, ht]
    rwa [this]
  · obtain ⟨-, h2⟩ := (positiveRel_holds hp).1 (hall r hr)
    obtain ⟨item, hit, hy⟩ := List.any_eq_true.1 h2
    obtain ⟨s, hs, h3⟩ := h item hit _ ((mem_valuesOf item _).2 hy)
    split at h3
    · rename_i z hz
      have := determined_sound d _ _ z hz
      rw [← this] at h3
      exact failsAt_sound hi h3 (hall s hs)
    · simp at h3

/-- No number satisfies both conditions. -/
def condsExclude (c c' : Condition) : Bool := c.all fun a => c'.all fun a' => excludes (a ++ a')

theorem condsExclude_sound (c c' : Condition) (h : condsExclude c c' = true) (d : Dec) : ¬ (Holds d c ∧ Holds d c') := by
  rintro ⟨⟨a, ha, h1⟩, a', ha', h2⟩
  simp only [condsExclude, List.all_eq_true] at h
  refine excludes_sound _ (h a ha a' ha') d fun r hr => ?_
  rcases List.mem_append.1 hr with hr | hr
  · exact h1 r hr
  · exact h2 r hr

end Verif.Sem
