import Verif.Props.Overlaps

/-!
# C119: which numbers in rules.rs are pinned down by its answers
-/

namespace Verif.Props
open Verif Api Rust PluralOperands RulesTable Verif.Grammar Uts35 Spec Strings Sem

/-- Where a number stands in a test: what an operand is compared with, a bound of a range, or a modulus. -/
inductive NumberPlace where
  | value
  | low
  | high
  | modulus
  deriving DecidableEq, Repr

/-- The `k`th test of a condition, from the left. -/
def testAt : RExpr → Nat → RExpr
  | .and x y, k => if k < testsIn x then testAt x k else testAt y (k - testsIn x)
  | .or x y, k => if k < testsIn x then testAt x k else testAt y (k - testsIn x)
  | .not x, k => testAt x k
  | e, _ => e

/-- The number in a test. -/
def numberOf : NumberPlace → RExpr → Option Nat
  | .value, .cmp _ _ (.int c) => some c
  | .value, .cmp _ _ (.flt c) => some c
  | .low, .contains lo _ _ => some lo
  | .high, .contains _ hi _ => some hi
  | .modulus, .cmp _ (.rem _ (.int m)) _ => some m
  | .modulus, .contains _ _ (.rem _ (.int m)) => some m
  | _, _ => none

/-- The test with another number. -/
def withNumber (v : Nat) : NumberPlace → RExpr → RExpr
  | .value, .cmp op a (.int _) => .cmp op a (.int v)
  | .value, .cmp op a (.flt _) => .cmp op a (.flt v)
  | .low, .contains _ hi a => .contains v hi a
  | .high, .contains lo _ a => .contains lo v a
  | .modulus, .cmp op (.rem a (.int _)) b => .cmp op (.rem a (.int v)) b
  | .modulus, .contains lo hi (.rem a (.int _)) => .contains lo hi (.rem a (.int v))
  | _, e => e

/-- The condition with another number in its `k`th test. -/
def changeTest (p : NumberPlace) (v : Nat) : RExpr → Nat → RExpr
  | .and x y, k => if k < testsIn x then .and (changeTest p v x k) y else .and x (changeTest p v y (k - testsIn x))
  | .or x y, k => if k < testsIn x then .or (changeTest p v x k) y else .or x (changeTest p v y (k - testsIn x))
  | .not x, k => .not (changeTest p v x k)
  | e, _ => withNumber v p e

/-- The function with another number in the `k`th test of its `j`th condition. -/
def changeIn (f : Closure) (j k : Nat) (p : NumberPlace) (v : Nat) : Closure := { f with arms := f.arms.modify j fun a => (changeTest p v a.1 k, a.2) }

/-- The rules of a locale with another number in a test. -/
def changeRules (pr : PluralRules) (j k : Nat) (p : NumberPlace) (v : Nat) : PluralRules := { pr with function := changeIn pr.function j k p v }

/-- The numbers that can be changed, each with a number that gives the same answers. -/
def looseNumbers : List (Closure × Nat × Nat × NumberPlace × Nat) :=
  [(cardinalFn3, 1, 0, .low, 10), (cardinalFn5, 0, 1, .low, 13), (cardinalFn5, 0, 1, .high, 13), (cardinalFn5, 1, 1, .low, 4),
   (cardinalFn5, 1, 1, .high, 10), (cardinalFn5, 1, 2, .low, 10), (cardinalFn7, 0, 2, .low, 11), (cardinalFn7, 0, 2, .high, 20),
   (cardinalFn7, 0, 3, .low, 71), (cardinalFn7, 0, 3, .high, 80), (cardinalFn7, 0, 4, .low, 91), (cardinalFn7, 0, 4, .high, 100),
   (cardinalFn8, 0, 2, .low, 11), (cardinalFn8, 0, 2, .high, 15), (cardinalFn8, 0, 4, .low, 11), (cardinalFn8, 0, 4, .high, 15),
   (cardinalFn9, 0, 1, .value, 2), (cardinalFn9, 0, 2, .value, 1), (cardinalFn9, 0, 3, .value, 1), (cardinalFn9, 0, 5, .modulus, 5),
   (cardinalFn9, 0, 9, .modulus, 5), (cardinalFn15, 1, 0, .low, 6), (cardinalFn17, 0, 1, .modulus, 20), (cardinalFn18, 0, 1, .high, 11),
   (cardinalFn22, 0, 0, .modulus, 20), (cardinalFn22, 1, 1, .modulus, 20), (cardinalFn22, 3, 0, .modulus, 20), (cardinalFn22, 3, 9, .low, 1),
   (cardinalFn22, 3, 9, .high, 20001), (cardinalFn22, 3, 10, .value, 1), (cardinalFn24, 0, 1, .low, 12), (cardinalFn24, 0, 1, .high, 18),
   (cardinalFn24, 2, 1, .low, 10), (cardinalFn24, 2, 1, .high, 18), (cardinalFn25, 0, 4, .modulus, 200), (cardinalFn25, 1, 1, .low, 10),
   (cardinalFn25, 1, 1, .high, 20), (cardinalFn25, 1, 3, .modulus, 200), (cardinalFn28, 1, 0, .low, 10), (cardinalFn29, 0, 2, .low, 11),
   (cardinalFn29, 0, 2, .high, 15), (cardinalFn29, 1, 2, .high, 2), (cardinalFn29, 1, 2, .modulus, 5), (cardinalFn29, 1, 4, .low, 4),
   (cardinalFn29, 1, 4, .high, 10), (cardinalFn29, 1, 6, .low, 11), (cardinalFn29, 1, 6, .high, 15), (cardinalFn29, 1, 6, .modulus, 20),
   (cardinalFn31, 0, 2, .low, 11), (cardinalFn31, 0, 2, .high, 15), (cardinalFn31, 1, 1, .modulus, 5), (cardinalFn31, 1, 3, .low, 4),
   (cardinalFn31, 1, 3, .high, 10), (cardinalFn31, 1, 5, .low, 10), (cardinalFn31, 1, 5, .high, 15), (cardinalFn31, 2, 1, .modulus, 5),
   (cardinalFn31, 2, 2, .value, 12), (cardinalFn31, 2, 2, .modulus, 10), (ordinalFn2, 0, 2, .modulus, 500), (ordinalFn2, 0, 3, .modulus, 500),
   (ordinalFn2, 0, 4, .modulus, 500), (ordinalFn2, 0, 5, .modulus, 500), (ordinalFn2, 1, 2, .modulus, 50), (ordinalFn2, 2, 0, .modulus, 5),
   (ordinalFn2, 2, 1, .modulus, 5), (ordinalFn2, 2, 5, .modulus, 50), (ordinalFn14, 1, 0, .low, 2), (ordinalFn14, 1, 0, .high, 3),
   (ordinalFn14, 1, 1, .value, 1), (ordinalFn14, 1, 2, .high, 5)]

/-- The number can be changed. -/
def Loose (f : Closure) (j k : Nat) (p : NumberPlace) : Prop := ∃ v, (f, j, k, p, v) ∈ looseNumbers

/-! ## Numbers that can be changed -/

/-- The category of a list of conditions, given which integers `n` is equal to. -/
def firstWith (E : Nat → Bool) (po : PluralOperands) : List (RExpr × PluralCategory) → PluralCategory → PluralCategory
  | [], c => c
  | (e, c) :: rest, d => if valueWith E po e then c else firstWith E po rest d

/-- The changed function has the same values. -/
def Free (f : Closure) (j k : Nat) (p : NumberPlace) (v : Nat) : Prop := ∀ E po, InputFacts E po → (po.v = 2 → po.f < 100) →
  firstWith E po (changeIn f j k p v).arms f.last = firstWith E po f.arms f.last

syntax "free" ident : tactic
macro_rules
  | `(tactic| free $x) => `(tactic| (
      intro E po h h5
      obtain ⟨n, i, v, w, f, t⟩ := po
      obtain ⟨h1, h2, h3, h4⟩ := h
      simp only at h1 h3 h4 h5
      have e0 := h1 0 (by norm_num)
      have e1 := h1 1 (by norm_num)
      have e5 := h1 5 (by norm_num)
      simp [changeIn, List.modify, List.modifyTailIdx, List.modifyTailIdx.go, List.modifyHead, changeTest, testsIn, withNumber, $x:ident, firstWith,
        valueWith, numOf, cmpInt]
      try first | grind | (split_ifs <;> first | rfl | omega)))

theorem free_c3_1_0_low : Free cardinalFn3 1 0 .low 10 := by free cardinalFn3
theorem free_c5_0_1_low : Free cardinalFn5 0 1 .low 13 := by free cardinalFn5
theorem free_c5_0_1_high : Free cardinalFn5 0 1 .high 13 := by free cardinalFn5
theorem free_c5_1_1_low : Free cardinalFn5 1 1 .low 4 := by free cardinalFn5
theorem free_c5_1_1_high : Free cardinalFn5 1 1 .high 10 := by free cardinalFn5
theorem free_c5_1_2_low : Free cardinalFn5 1 2 .low 10 := by free cardinalFn5
theorem free_c7_0_2_low : Free cardinalFn7 0 2 .low 11 := by free cardinalFn7
theorem free_c7_0_2_high : Free cardinalFn7 0 2 .high 20 := by free cardinalFn7
theorem free_c7_0_3_low : Free cardinalFn7 0 3 .low 71 := by free cardinalFn7
theorem free_c7_0_3_high : Free cardinalFn7 0 3 .high 80 := by free cardinalFn7
theorem free_c7_0_4_low : Free cardinalFn7 0 4 .low 91 := by free cardinalFn7
theorem free_c7_0_4_high : Free cardinalFn7 0 4 .high 100 := by free cardinalFn7
theorem free_c8_0_2_low : Free cardinalFn8 0 2 .low 11 := by free cardinalFn8
theorem free_c8_0_2_high : Free cardinalFn8 0 2 .high 15 := by free cardinalFn8
theorem free_c8_0_4_low : Free cardinalFn8 0 4 .low 11 := by free cardinalFn8
theorem free_c8_0_4_high : Free cardinalFn8 0 4 .high 15 := by free cardinalFn8
theorem free_c9_0_1_value : Free cardinalFn9 0 1 .value 2 := by free cardinalFn9
theorem free_c9_0_2_value : Free cardinalFn9 0 2 .value 1 := by free cardinalFn9
theorem free_c9_0_3_value : Free cardinalFn9 0 3 .value 1 := by free cardinalFn9
theorem free_c9_0_5_modulus : Free cardinalFn9 0 5 .modulus 5 := by free cardinalFn9
theorem free_c9_0_9_modulus : Free cardinalFn9 0 9 .modulus 5 := by free cardinalFn9
theorem free_c15_1_0_low : Free cardinalFn15 1 0 .low 6 := by free cardinalFn15
theorem free_c17_0_1_modulus : Free cardinalFn17 0 1 .modulus 20 := by free cardinalFn17
theorem free_c18_0_1_high : Free cardinalFn18 0 1 .high 11 := by free cardinalFn18
theorem free_c22_0_0_modulus : Free cardinalFn22 0 0 .modulus 20 := by free cardinalFn22
theorem free_c22_1_1_modulus : Free cardinalFn22 1 1 .modulus 20 := by
  intro E po h h5
  obtain ⟨n, i, v, w, f, t⟩ := po
  have e1 := h.int 1 (by norm_num)
  have e0 := h.int 0 (by norm_num)
  simp only at e0 e1
  have key : ((((i % 20 = 1 ∨ i % 100 = 21) ∨ i % 100 = 41) ∨ i % 100 = 61) ∨ i % 100 = 81) ↔ ((((i % 100 = 1 ∨ i % 100 = 21) ∨ i % 100 = 41) ∨ i % 100 = 61) ∨ i % 100 = 81) := by omega
  simp [changeIn, List.modify, List.modifyTailIdx, List.modifyTailIdx.go, List.modifyHead, changeTest, testsIn, withNumber, cardinalFn22, firstWith,
    valueWith, cmpInt]
  simp only [numOf]
  simp only [key]
  congr!
theorem free_c22_3_0_modulus : Free cardinalFn22 3 0 .modulus 20 := by free cardinalFn22
theorem free_c22_3_9_low : Free cardinalFn22 3 9 .low 1 := by
  intro E po h h5
  obtain ⟨n, i, v, w, f, t⟩ := po
  have e1 := h.int 1 (by norm_num)
  have e0 := h.int 0 (by norm_num)
  simp only at e0 e1
  have key : (i % 1000 = 0 ∧ (((i % 100000 = 40000 ∨ i % 100000 = 60000) ∨ i % 100000 = 80000) ∨ (1 ≤ i ∧ i ≤ 20000))) ↔ (i % 1000 = 0 ∧ (((i % 100000 = 40000 ∨ i % 100000 = 60000) ∨ i % 100000 = 80000) ∨ (1000 ≤ i ∧ i ≤ 20000))) := by omega
  simp [changeIn, List.modify, List.modifyTailIdx, List.modifyTailIdx.go, List.modifyHead, changeTest, testsIn, withNumber, cardinalFn22, firstWith,
    valueWith, cmpInt]
  simp only [numOf]
  simp only [key]
  congr!
theorem free_c22_3_9_high : Free cardinalFn22 3 9 .high 20001 := by
  intro E po h h5
  obtain ⟨n, i, v, w, f, t⟩ := po
  have e1 := h.int 1 (by norm_num)
  have e0 := h.int 0 (by norm_num)
  simp only at e0 e1
  have key : (i % 1000 = 0 ∧ (((i % 100000 = 40000 ∨ i % 100000 = 60000) ∨ i % 100000 = 80000) ∨ (1000 ≤ i ∧ i ≤ 20001))) ↔ (i % 1000 = 0 ∧ (((i % 100000 = 40000 ∨ i % 100000 = 60000) ∨ i % 100000 = 80000) ∨ (1000 ≤ i ∧ i ≤ 20000))) := by omega
  simp [changeIn, List.modify, List.modifyTailIdx, List.modifyTailIdx.go, List.modifyHead, changeTest, testsIn, withNumber, cardinalFn22, firstWith,
    valueWith, cmpInt]
  simp only [numOf]
  simp only [key]
  congr!
theorem free_c22_3_10_value : Free cardinalFn22 3 10 .value 1 := by
  intro E po h h5
  obtain ⟨n, i, v, w, f, t⟩ := po
  have e1 := h.int 1 (by norm_num)
  have e0 := h.int 0 (by norm_num)
  simp only at e0 e1
  have key : ∀ k, k = 0 ∨ k = 1 → ((E k = false ∧ i % 1000000 = 100000) ↔ i % 1000000 = 100000) := by
    intro k hk
    refine ⟨And.right, fun h => ⟨?_, h⟩⟩
    rw [← Bool.not_eq_true]
    intro hE
    rcases hk with rfl | rfl
    · rcases e0 hE with h' | h' <;> omega
    · rcases e1 hE with h' | h' <;> omega
  simp [changeIn, List.modify, List.modifyTailIdx, List.modifyTailIdx.go, List.modifyHead, changeTest, testsIn, withNumber, cardinalFn22, firstWith,
    valueWith, cmpInt]
  simp only [numOf]
  simp only [key 0 (.inl rfl), key 1 (.inr rfl)]
theorem free_c24_0_1_low : Free cardinalFn24 0 1 .low 12 := by free cardinalFn24
theorem free_c24_0_1_high : Free cardinalFn24 0 1 .high 18 := by free cardinalFn24
theorem free_c24_2_1_low : Free cardinalFn24 2 1 .low 10 := by free cardinalFn24
theorem free_c24_2_1_high : Free cardinalFn24 2 1 .high 18 := by free cardinalFn24
theorem free_c25_0_4_modulus : Free cardinalFn25 0 4 .modulus 200 := by free cardinalFn25
theorem free_c25_1_1_low : Free cardinalFn25 1 1 .low 10 := by free cardinalFn25
theorem free_c25_1_1_high : Free cardinalFn25 1 1 .high 20 := by free cardinalFn25
theorem free_c25_1_3_modulus : Free cardinalFn25 1 3 .modulus 200 := by free cardinalFn25
theorem free_c28_1_0_low : Free cardinalFn28 1 0 .low 10 := by free cardinalFn28
theorem free_c29_0_2_low : Free cardinalFn29 0 2 .low 11 := by free cardinalFn29
theorem free_c29_0_2_high : Free cardinalFn29 0 2 .high 15 := by free cardinalFn29
theorem free_c29_1_2_high : Free cardinalFn29 1 2 .high 2 := by free cardinalFn29
theorem free_c29_1_2_modulus : Free cardinalFn29 1 2 .modulus 5 := by free cardinalFn29
theorem free_c29_1_4_low : Free cardinalFn29 1 4 .low 4 := by free cardinalFn29
theorem free_c29_1_4_high : Free cardinalFn29 1 4 .high 10 := by free cardinalFn29
theorem free_c29_1_6_low : Free cardinalFn29 1 6 .low 11 := by free cardinalFn29
theorem free_c29_1_6_high : Free cardinalFn29 1 6 .high 15 := by free cardinalFn29
theorem free_c29_1_6_modulus : Free cardinalFn29 1 6 .modulus 20 := by free cardinalFn29
theorem free_c31_0_2_low : Free cardinalFn31 0 2 .low 11 := by free cardinalFn31
theorem free_c31_0_2_high : Free cardinalFn31 0 2 .high 15 := by free cardinalFn31
theorem free_c31_1_1_modulus : Free cardinalFn31 1 1 .modulus 5 := by free cardinalFn31
theorem free_c31_1_3_low : Free cardinalFn31 1 3 .low 4 := by free cardinalFn31
theorem free_c31_1_3_high : Free cardinalFn31 1 3 .high 10 := by free cardinalFn31
theorem free_c31_1_5_low : Free cardinalFn31 1 5 .low 10 := by free cardinalFn31
theorem free_c31_1_5_high : Free cardinalFn31 1 5 .high 15 := by free cardinalFn31
theorem free_c31_2_1_modulus : Free cardinalFn31 2 1 .modulus 5 := by free cardinalFn31
theorem free_c31_2_2_value : Free cardinalFn31 2 2 .value 12 := by free cardinalFn31
theorem free_c31_2_2_modulus : Free cardinalFn31 2 2 .modulus 10 := by free cardinalFn31
theorem free_o2_0_2_modulus : Free ordinalFn2 0 2 .modulus 500 := by
  intro E po h h5
  obtain ⟨n, i, v, w, f, t⟩ := po
  have e1 := h.int 1 (by norm_num)
  have e0 := h.int 0 (by norm_num)
  simp only at e0 e1
  have key : ((((((((i % 500 = 100 ∨ i % 1000 = 200) ∨ i % 1000 = 300) ∨ i % 1000 = 400) ∨ i % 1000 = 500) ∨ i % 1000 = 600) ∨ i % 1000 = 700) ∨ i % 1000 = 800) ∨ i % 1000 = 900) ↔
      ((((((((i % 1000 = 100 ∨ i % 1000 = 200) ∨ i % 1000 = 300) ∨ i % 1000 = 400) ∨ i % 1000 = 500) ∨ i % 1000 = 600) ∨ i % 1000 = 700) ∨ i % 1000 = 800) ∨ i % 1000 = 900) := by omega
  simp [changeIn, List.modify, List.modifyTailIdx, List.modifyTailIdx.go, List.modifyHead, changeTest, testsIn, withNumber, ordinalFn2, firstWith,
    valueWith, cmpInt]
  simp only [numOf]
  simp only [key]
  try congr!
theorem free_o2_0_3_modulus : Free ordinalFn2 0 3 .modulus 500 := by
  intro E po h h5
  obtain ⟨n, i, v, w, f, t⟩ := po
  have e1 := h.int 1 (by norm_num)
  have e0 := h.int 0 (by norm_num)
  simp only at e0 e1
  have key : ((((((((i % 1000 = 100 ∨ i % 500 = 200) ∨ i % 1000 = 300) ∨ i % 1000 = 400) ∨ i % 1000 = 500) ∨ i % 1000 = 600) ∨ i % 1000 = 700) ∨ i % 1000 = 800) ∨ i % 1000 = 900) ↔
      ((((((((i % 1000 = 100 ∨ i % 1000 = 200) ∨ i % 1000 = 300) ∨ i % 1000 = 400) ∨ i % 1000 = 500) ∨ i % 1000 = 600) ∨ i % 1000 = 700) ∨ i % 1000 = 800) ∨ i % 1000 = 900) := by omega
  simp [changeIn, List.modify, List.modifyTailIdx, List.modifyTailIdx.go, List.modifyHead, changeTest, testsIn, withNumber, ordinalFn2, firstWith,
    valueWith, cmpInt]
  simp only [numOf]
  simp only [key]
  try congr!
theorem free_o2_0_4_modulus : Free ordinalFn2 0 4 .modulus 500 := by
  intro E po h h5
  obtain ⟨n, i, v, w, f, t⟩ := po
  have e1 := h.int 1 (by norm_num)
  have e0 := h.int 0 (by norm_num)
  simp only at e0 e1
  have key : ((((((((i % 1000 = 100 ∨ i % 1000 = 200) ∨ i % 500 = 300) ∨ i % 1000 = 400) ∨ i % 1000 = 500) ∨ i % 1000 = 600) ∨ i % 1000 = 700) ∨ i % 1000 = 800) ∨ i % 1000 = 900) ↔
      ((((((((i % 1000 = 100 ∨ i % 1000 = 200) ∨ i % 1000 = 300) ∨ i % 1000 = 400) ∨ i % 1000 = 500) ∨ i % 1000 = 600) ∨ i % 1000 = 700) ∨ i % 1000 = 800) ∨ i % 1000 = 900) := by omega
  simp [changeIn, List.modify, List.modifyTailIdx, List.modifyTailIdx.go, List.modifyHead, changeTest, testsIn, withNumber, ordinalFn2, firstWith,
    valueWith, cmpInt]
  simp only [numOf]
  simp only [key]
  try congr!
theorem free_o2_0_5_modulus : Free ordinalFn2 0 5 .modulus 500 := by
  intro E po h h5
  obtain ⟨n, i, v, w, f, t⟩ := po
  have e1 := h.int 1 (by norm_num)
  have e0 := h.int 0 (by norm_num)
  simp only at e0 e1
  have key : ((((((((i % 1000 = 100 ∨ i % 1000 = 200) ∨ i % 1000 = 300) ∨ i % 500 = 400) ∨ i % 1000 = 500) ∨ i % 1000 = 600) ∨ i % 1000 = 700) ∨ i % 1000 = 800) ∨ i % 1000 = 900) ↔
      ((((((((i % 1000 = 100 ∨ i % 1000 = 200) ∨ i % 1000 = 300) ∨ i % 1000 = 400) ∨ i % 1000 = 500) ∨ i % 1000 = 600) ∨ i % 1000 = 700) ∨ i % 1000 = 800) ∨ i % 1000 = 900) := by omega
  simp [changeIn, List.modify, List.modifyTailIdx, List.modifyTailIdx.go, List.modifyHead, changeTest, testsIn, withNumber, ordinalFn2, firstWith,
    valueWith, cmpInt]
  simp only [numOf]
  simp only [key]
  try congr!
theorem free_o2_1_2_modulus : Free ordinalFn2 1 2 .modulus 50 := by free ordinalFn2
theorem free_o2_2_0_modulus : Free ordinalFn2 2 0 .modulus 5 := by free ordinalFn2
theorem free_o2_2_1_modulus : Free ordinalFn2 2 1 .modulus 5 := by free ordinalFn2
theorem free_o2_2_5_modulus : Free ordinalFn2 2 5 .modulus 50 := by free ordinalFn2
theorem free_o14_1_0_low : Free ordinalFn14 1 0 .low 2 := by free ordinalFn14
theorem free_o14_1_0_high : Free ordinalFn14 1 0 .high 3 := by free ordinalFn14
theorem free_o14_1_1_value : Free ordinalFn14 1 1 .value 1 := by free ordinalFn14
theorem free_o14_1_2_high : Free ordinalFn14 1 2 .high 5 := by free ordinalFn14

theorem loose_free (f : Closure) (j k : Nat) (p : NumberPlace) (v : Nat) (h : (f, j, k, p, v) ∈ looseNumbers) (E : Nat → Bool) (po : PluralOperands)
    (hE : InputFacts E po) (h2 : po.v = 2 → po.f < 100) : firstWith E po (changeIn f j k p v).arms f.last = firstWith E po f.arms f.last := by
  simp only [looseNumbers, List.mem_cons, Prod.mk.injEq, List.not_mem_nil, or_false] at h
  rcases h with ⟨rfl, rfl, rfl, rfl, rfl⟩ | ⟨rfl, rfl, rfl, rfl, rfl⟩ | ⟨rfl, rfl, rfl, rfl, rfl⟩ | ⟨rfl, rfl, rfl, rfl, rfl⟩ | ⟨rfl, rfl, rfl, rfl, rfl⟩ | ⟨rfl, rfl, rfl, rfl, rfl⟩ | ⟨rfl, rfl, rfl, rfl, rfl⟩ | ⟨rfl, rfl, rfl, rfl, rfl⟩ | ⟨rfl, rfl, rfl, rfl, rfl⟩ | ⟨rfl, rfl, rfl, rfl, rfl⟩ | ⟨rfl, rfl, rfl, rfl, rfl⟩ | ⟨rfl, rfl, rfl, rfl, rfl⟩ | ⟨rfl, rfl, rfl, rfl, rfl⟩ | ⟨rfl, rfl, rfl, rfl, rfl⟩ | ⟨rfl, rfl, rfl, rfl, rfl⟩ | ⟨rfl, rfl, rfl, rfl, rfl⟩ | ⟨rfl, rfl, rfl, rfl, rfl⟩ | ⟨rfl, rfl, rfl, rfl, rfl⟩ | ⟨rfl, rfl, rfl, rfl, rfl⟩ | ⟨rfl, rfl, rfl, rfl, rfl⟩ | ⟨rfl, rfl, rfl, rfl, rfl⟩ | ⟨rfl, rfl, rfl, rfl, rfl⟩ | ⟨rfl, rfl, rfl, rfl, rfl⟩ | ⟨rfl, rfl, rfl, rfl, rfl⟩ | ⟨rfl, rfl, rfl, rfl, rfl⟩ | ⟨rfl, rfl, rfl, rfl, rfl⟩ | ⟨rfl, rfl, rfl, rfl, rfl⟩ | ⟨rfl, rfl, rfl, rfl, rfl⟩ | ⟨rfl, rfl, rfl, rfl, rfl⟩ | ⟨rfl, rfl, rfl, rfl, rfl⟩ | ⟨rfl, rfl, rfl, rfl, rfl⟩ | ⟨rfl, rfl, rfl, rfl, rfl⟩ | ⟨rfl, rfl, rfl, rfl, rfl⟩ | ⟨rfl, rfl, rfl, rfl, rfl⟩ | ⟨rfl, rfl, rfl, rfl, rfl⟩ | ⟨rfl, rfl, rfl, rfl, rfl⟩ | ⟨rfl, rfl, rfl, rfl, rfl⟩ | ⟨rfl, rfl, rfl, rfl, rfl⟩ | ⟨rfl, rfl, rfl, rfl, rfl⟩ | ⟨rfl, rfl, rfl, rfl, rfl⟩ | ⟨rfl, rfl, rfl, rfl, rfl⟩ | ⟨rfl, rfl, rfl, rfl, rfl⟩ | ⟨rfl, rfl, rfl, rfl, rfl⟩ | ⟨rfl, rfl, rfl, rfl, rfl⟩ | ⟨rfl, rfl, rfl, rfl, rfl⟩ | ⟨rfl, rfl, rfl, rfl, rfl⟩ | ⟨rfl, rfl, rfl, rfl, rfl⟩ | ⟨rfl, rfl, rfl, rfl, rfl⟩ | ⟨rfl, rfl, rfl, rfl, rfl⟩ | ⟨rfl, rfl, rfl, rfl, rfl⟩ | ⟨rfl, rfl, rfl, rfl, rfl⟩ | ⟨rfl, rfl, rfl, rfl, rfl⟩ | ⟨rfl, rfl, rfl, rfl, rfl⟩ | ⟨rfl, rfl, rfl, rfl, rfl⟩ | ⟨rfl, rfl, rfl, rfl, rfl⟩ | ⟨rfl, rfl, rfl, rfl, rfl⟩ | ⟨rfl, rfl, rfl, rfl, rfl⟩ | ⟨rfl, rfl, rfl, rfl, rfl⟩ | ⟨rfl, rfl, rfl, rfl, rfl⟩ | ⟨rfl, rfl, rfl, rfl, rfl⟩ | ⟨rfl, rfl, rfl, rfl, rfl⟩ | ⟨rfl, rfl, rfl, rfl, rfl⟩ | ⟨rfl, rfl, rfl, rfl, rfl⟩ | ⟨rfl, rfl, rfl, rfl, rfl⟩ | ⟨rfl, rfl, rfl, rfl, rfl⟩ | ⟨rfl, rfl, rfl, rfl, rfl⟩ | ⟨rfl, rfl, rfl, rfl, rfl⟩ | ⟨rfl, rfl, rfl, rfl, rfl⟩ | ⟨rfl, rfl, rfl, rfl, rfl⟩ | ⟨rfl, rfl, rfl, rfl, rfl⟩
  · exact free_c3_1_0_low E po hE h2
  · exact free_c5_0_1_low E po hE h2
  · exact free_c5_0_1_high E po hE h2
  · exact free_c5_1_1_low E po hE h2
  · exact free_c5_1_1_high E po hE h2
  · exact free_c5_1_2_low E po hE h2
  · exact free_c7_0_2_low E po hE h2
  · exact free_c7_0_2_high E po hE h2
  · exact free_c7_0_3_low E po hE h2
  · exact free_c7_0_3_high E po hE h2
  · exact free_c7_0_4_low E po hE h2
  · exact free_c7_0_4_high E po hE h2
  · exact free_c8_0_2_low E po hE h2
  · exact free_c8_0_2_high E po hE h2
  · exact free_c8_0_4_low E po hE h2
  · exact free_c8_0_4_high E po hE h2
  · exact free_c9_0_1_value E po hE h2
  · exact free_c9_0_2_value E po hE h2
  · exact free_c9_0_3_value E po hE h2
  · exact free_c9_0_5_modulus E po hE h2
  · exact free_c9_0_9_modulus E po hE h2
  · exact free_c15_1_0_low E po hE h2
  · exact free_c17_0_1_modulus E po hE h2
  · exact free_c18_0_1_high E po hE h2
  · exact free_c22_0_0_modulus E po hE h2
  · exact free_c22_1_1_modulus E po hE h2
  · exact free_c22_3_0_modulus E po hE h2
  · exact free_c22_3_9_low E po hE h2
  · exact free_c22_3_9_high E po hE h2
  · exact free_c22_3_10_value E po hE h2
  · exact free_c24_0_1_low E po hE h2
  · exact free_c24_0_1_high E po hE h2
  · exact free_c24_2_1_low E po hE h2
  · exact free_c24_2_1_high E po hE h2
  · exact free_c25_0_4_modulus E po hE h2
  · exact free_c25_1_1_low E po hE h2
  · exact free_c25_1_1_high E po hE h2
  · exact free_c25_1_3_modulus E po hE h2
  · exact free_c28_1_0_low E po hE h2
  · exact free_c29_0_2_low E po hE h2
  · exact free_c29_0_2_high E po hE h2
  · exact free_c29_1_2_high E po hE h2
  · exact free_c29_1_2_modulus E po hE h2
  · exact free_c29_1_4_low E po hE h2
  · exact free_c29_1_4_high E po hE h2
  · exact free_c29_1_6_low E po hE h2
  · exact free_c29_1_6_high E po hE h2
  · exact free_c29_1_6_modulus E po hE h2
  · exact free_c31_0_2_low E po hE h2
  · exact free_c31_0_2_high E po hE h2
  · exact free_c31_1_1_modulus E po hE h2
  · exact free_c31_1_3_low E po hE h2
  · exact free_c31_1_3_high E po hE h2
  · exact free_c31_1_5_low E po hE h2
  · exact free_c31_1_5_high E po hE h2
  · exact free_c31_2_1_modulus E po hE h2
  · exact free_c31_2_2_value E po hE h2
  · exact free_c31_2_2_modulus E po hE h2
  · exact free_o2_0_2_modulus E po hE h2
  · exact free_o2_0_3_modulus E po hE h2
  · exact free_o2_0_4_modulus E po hE h2
  · exact free_o2_0_5_modulus E po hE h2
  · exact free_o2_1_2_modulus E po hE h2
  · exact free_o2_2_0_modulus E po hE h2
  · exact free_o2_2_1_modulus E po hE h2
  · exact free_o2_2_5_modulus E po hE h2
  · exact free_o14_1_0_low E po hE h2
  · exact free_o14_1_0_high E po hE h2
  · exact free_o14_1_1_value E po hE h2
  · exact free_o14_1_2_high E po hE h2

theorem loose_tame : (looseNumbers.all fun x => (x.1.arms.all fun a => tame a.1 && onlyEqual a.1) &&
    ((changeIn x.1 x.2.1 x.2.2.1 x.2.2.2.1 x.2.2.2.2).arms.all fun a => tame a.1 && onlyEqual a.1) &&
    ((x.1.arms[x.2.1]?).bind fun a => numberOf x.2.2.2.1 (testAt a.1 x.2.2.1)) != some x.2.2.2.2) = true := by decide +kernel

attribute [local irreducible] Flt.ofNat Flt.ofRat

theorem call_firstWith (po : PluralOperands) (f : Closure) (h : (f.arms.all fun a => tame a.1 && onlyEqual a.1) = true) :
    f.call po = some (firstWith (fun k => Flt.eq po.n (Flt.ofNat b64 k)) po f.arms f.last) := by
  have h1 : (f.arms.all fun a => tame a.1) = true := by
    rw [List.all_eq_true] at h ⊢
    intro a ha
    have := h a ha
    simp only [Bool.and_eq_true] at this
    exact this.1
  rw [call_firstB po f h1]
  congr 1
  obtain ⟨arms, last⟩ := f
  simp only at h ⊢
  clear h1
  induction arms with
  | nil => rfl
  | cons a l ih =>
    obtain ⟨e, c⟩ := a
    simp only [List.all_cons, Bool.and_eq_true] at h
    simp only [firstB, firstWith, exprHolds_valueWith po e h.1.2, ih h.2]

theorem loose_call (f : Closure) (j k : Nat) (p : NumberPlace) (v : Nat) (h : (f, j, k, p, v) ∈ looseNumbers) (po : PluralOperands)
    (hE : InputFacts (fun k => Flt.eq po.n (Flt.ofNat b64 k)) po) (h2 : po.v = 2 → po.f < 100) : (changeIn f j k p v).call po = f.call po := by
  have ht := List.all_eq_true.1 loose_tame _ h
  simp only [Bool.and_eq_true] at ht
  rw [call_firstWith po _ ht.1.1, call_firstWith po _ ht.1.2]
  exact congrArg some (loose_free f j k p v h _ po hE h2)

/-! ## Numbers that cannot -/

/-- The changed test has the value `b`: the function is like the one with the test replaced by `b`. -/
theorem eval_change (po : PluralOperands) (p : NumberPlace) (v : Nat) (b : Bool) (e : RExpr) (k : Nat)
    (h : (withNumber v p (testAt e k)).eval po = some (.bool b)) : (changeTest p v e k).eval po = (fixTest b e k).eval po := by
  have ha : (always b).eval po = some (.bool b) := by cases b <;> rfl
  induction e generalizing k with
  | and x y ihx ihy =>
    simp only [testAt, changeTest, fixTest] at h ⊢
    split_ifs at h ⊢ with hk
    · simp only [RExpr.eval, ihx k h]
    · simp only [RExpr.eval, ihy _ h]
  | or x y ihx ihy =>
    simp only [testAt, changeTest, fixTest] at h ⊢
    split_ifs at h ⊢ with hk
    · simp only [RExpr.eval, ihx k h]
    · simp only [RExpr.eval, ihy _ h]
  | not x ih =>
    simp only [testAt, changeTest, fixTest] at h ⊢
    simp only [RExpr.eval, ih k h]
  | _ => simpa only [testAt, changeTest, fixTest, ha] using h

theorem evalArms_modify (po : PluralOperands) (g g' : RExpr → RExpr) (l : List (RExpr × PluralCategory)) (j : Nat) (d : PluralCategory)
    (arm : RExpr × PluralCategory) (ha : l[j]? = some arm) (h : (g arm.1).eval po = (g' arm.1).eval po) :
    evalArms po (l.modify j fun a => (g a.1, a.2)) d = evalArms po (l.modify j fun a => (g' a.1, a.2)) d := by
  induction l generalizing j with
  | nil => cases ha
  | cons a l ih =>
    obtain ⟨e, c⟩ := a
    cases j with
    | zero =>
      simp only [List.getElem?_cons_zero, Option.some.injEq] at ha
      subst ha
      simp only [List.modify_zero_cons, evalArms]
      simp only at h
      rw [h]
    | succ j =>
      simp only [List.getElem?_cons_succ] at ha
      simp only [List.modify_succ_cons, evalArms, ih j ha]

theorem call_change (po : PluralOperands) (f : Closure) (j k : Nat) (p : NumberPlace) (v : Nat) (b : Bool) (arm : RExpr × PluralCategory)
    (ha : f.arms[j]? = some arm) (h : (withNumber v p (testAt arm.1 k)).eval po = some (.bool b)) :
    (changeIn f j k p v).call po = (fixIn f j k b).call po :=
  evalArms_modify po (fun e => changeTest p v e k) (fun e => fixTest b e k) f.arms j f.last arm ha (eval_change po p v b arm.1 k h)

/-- The text gives the value `x` to the operand, or the remainder, in the test, and shows that the test matters. -/
def showsAt (f : Closure) (j k : Nat) (b : Bool) (a : RExpr) (x : Nat) (s : Str) : Bool :=
  match (tryFromStr s).toOption with
  | some po => a.eval po == some (.int x) && showsTest f (j, k, b) s
  | none => false

/-- The text has an `n` that is equal to `x`, and shows that the test matters. -/
def showsFloat (f : Closure) (j k : Nat) (b : Bool) (x : Nat) (s : Str) : Bool :=
  match (tryFromStr s).toOption with
  | some po => Flt.eq po.n (Flt.ofNat b64 x) && showsTest f (j, k, b) s
  | none => false

/-- The two texts show every change of the number. -/
def pinnedBy (f : Closure) (j k : Nat) (s s' : Str) : NumberPlace → RExpr → Bool
  | .value, .cmp .eq (.field .N) (.flt c) => decide (c < 1000) && showsFloat f j k false c s
  | .value, .cmp .ne (.field .N) (.flt c) => decide (c < 1000) && showsFloat f j k true c s
  | .value, .cmp .eq a (.int c) => showsAt f j k false a c s
  | .value, .cmp .ne a (.int c) => showsAt f j k true a c s
  | .low, .contains lo hi a => decide (lo ≤ hi) && showsAt f j k false a lo s && (lo == 0 || showsAt f j k true a (lo - 1) s')
  | .high, .contains lo hi a => decide (lo ≤ hi) && showsAt f j k false a hi s && showsAt f j k true a (hi + 1) s'
  | _, _ => false

/-- The changed function differs on the text. -/
def Differs (f : Closure) (j k : Nat) (p : NumberPlace) (v : Nat) (s : Str) : Prop :=
  ∃ po, tryFromStr s = .ok po ∧ (changeIn f j k p v).call po ≠ f.call po

theorem differs_of (f : Closure) (j k : Nat) (p : NumberPlace) (v : Nat) (b : Bool) (s : Str) (arm : RExpr × PluralCategory) (ha : f.arms[j]? = some arm)
    (hs : showsTest f (j, k, b) s = true) (h : ∀ po, tryFromStr s = .ok po → (withNumber v p (testAt arm.1 k)).eval po = some (.bool b)) :
    Differs f j k p v s := by
  unfold showsTest at hs
  cases hp : tryFromStr s with
  | error e => rw [hp] at hs; cases hs
  | ok po =>
    rw [hp] at hs
    simp only [Except.toOption, bne_iff_ne, ne_eq] at hs
    refine ⟨po, hp, ?_⟩
    rw [call_change po f j k p v b arm ha (h po hp)]
    exact hs

theorem showsAt_iff {f : Closure} {j k : Nat} {b : Bool} {a : RExpr} {x : Nat} {s : Str} (h : showsAt f j k b a x s = true) :
    (∀ po, tryFromStr s = .ok po → a.eval po = some (.int x)) ∧ showsTest f (j, k, b) s = true := by
  unfold showsAt at h
  cases hp : tryFromStr s with
  | error e => rw [hp] at h; cases h
  | ok po =>
    rw [hp] at h
    simp only [Except.toOption, Bool.and_eq_true, beq_iff_eq] at h
    exact ⟨fun po' h' => by rw [← Except.ok.inj h']; exact h.1, h.2⟩

theorem showsFloat_iff {f : Closure} {j k : Nat} {b : Bool} {x : Nat} {s : Str} (h : showsFloat f j k b x s = true) :
    (∀ po, tryFromStr s = .ok po → Flt.eq po.n (Flt.ofNat b64 x) = true) ∧ showsTest f (j, k, b) s = true := by
  unfold showsFloat at h
  cases hp : tryFromStr s with
  | error e => rw [hp] at h; cases h
  | ok po =>
    rw [hp] at h
    simp only [Except.toOption, Bool.and_eq_true] at h
    exact ⟨fun po' h' => by rw [← Except.ok.inj h']; exact h.1, h.2⟩

/-- A float is equal to one integer only, if that is small. -/
theorem eq_once (n : Flt) (c v : Nat) (hc : c < 1000) (h : Flt.eq n (Flt.ofNat b64 c) = true) (hv : v ≠ c) : Flt.eq n (Flt.ofNat b64 v) = false := by
  rw [← Bool.not_eq_true]
  intro h'
  obtain ⟨neg, rfl, hz⟩ := eq_integer n c hc h
  have h3 : Flt.eq (Flt.ofNat b64 v) (Flt.ofNat b64 c) = true := by
    rw [ofNat_exact c (by omega)]
    generalize Flt.ofNat b64 v = y at h'
    have hz' : neg = true → c * 2 ^ 1074 = 0 := fun h => by rw [hz h, Nat.zero_mul]
    generalize c * 2 ^ 1074 = q at *
    cases y with
    | nan => cases h'
    | inf neg' => cases h'
    | fin neg' m =>
      simp only [Flt.eq, Bool.and_eq_true, Bool.or_eq_true, beq_iff_eq] at h' ⊢
      cases neg <;> cases neg' <;> (simp_all; try omega)
  rcases (integer_facts v).int c hc h3 with h4 | ⟨-, h4⟩
  · exact hv h4
  · exact h4 rfl

theorem pinned_differs (f : Closure) (j k : Nat) (p : NumberPlace) (arm : RExpr × PluralCategory) (ha : f.arms[j]? = some arm) (s s' : Str)
    (h : pinnedBy f j k s s' p (testAt arm.1 k) = true) (c : Nat) (hc : numberOf p (testAt arm.1 k) = some c) (v : Nat) (hv : v ≠ c) :
    Differs f j k p v s ∨ Differs f j k p v s' := by
  generalize hT : testAt arm.1 k = T at *
  unfold pinnedBy at h
  split at h
  · rename_i c'
    simp only [Bool.and_eq_true, decide_eq_true_eq] at h
    cases hc
    obtain ⟨h1, h2⟩ := showsFloat_iff h.2
    refine .inl (differs_of f j k _ v false s arm ha h2 fun po hp => ?_)
    rw [hT]
    exact congrArg (fun b => some (Val.bool b)) (eq_once _ _ _ h.1 (h1 po hp) hv)
  · rename_i c'
    simp only [Bool.and_eq_true, decide_eq_true_eq] at h
    cases hc
    obtain ⟨h1, h2⟩ := showsFloat_iff h.2
    refine .inl (differs_of f j k _ v true s arm ha h2 fun po hp => ?_)
    rw [hT]
    exact congrArg (fun b => some (Val.bool !b)) (eq_once _ _ _ h.1 (h1 po hp) hv)
  · cases hc
    obtain ⟨h1, h2⟩ := showsAt_iff h
    refine .inl (differs_of f j k _ v false s arm ha h2 fun po hp => ?_)
    rw [hT]
    simp only [withNumber, RExpr.eval, h1 po hp, cmpInt]
    simp [Ne.symm hv]
  · cases hc
    obtain ⟨h1, h2⟩ := showsAt_iff h
    refine .inl (differs_of f j k _ v true s arm ha h2 fun po hp => ?_)
    rw [hT]
    simp only [withNumber, RExpr.eval, h1 po hp, cmpInt]
    simp [Ne.symm hv]
  · rename_i lo hi a
    simp only [Bool.and_eq_true, Bool.or_eq_true, decide_eq_true_eq, beq_iff_eq] at h
    obtain ⟨⟨hl, h1⟩, h2⟩ := h
    cases hc
    rcases Nat.lt_or_gt_of_ne hv with hlt | hgt
    · rcases h2 with h2 | h2
      · omega
      · obtain ⟨h3, h4⟩ := showsAt_iff h2
        refine .inr (differs_of f j k _ v true s' arm ha h4 fun po hp => ?_)
        rw [hT]
        simp only [withNumber, RExpr.eval, h3 po hp]
        simp
        omega
    · obtain ⟨h3, h4⟩ := showsAt_iff h1
      refine .inl (differs_of f j k _ v false s arm ha h4 fun po hp => ?_)
      rw [hT]
      simp only [withNumber, RExpr.eval, h3 po hp]
      simp
      omega
  · rename_i lo hi a
    simp only [Bool.and_eq_true, decide_eq_true_eq] at h
    obtain ⟨⟨hl, h1⟩, h2⟩ := h
    cases hc
    rcases Nat.lt_or_gt_of_ne hv with hlt | hgt
    · obtain ⟨h3, h4⟩ := showsAt_iff h1
      refine .inl (differs_of f j k _ v false s arm ha h4 fun po hp => ?_)
      rw [hT]
      simp only [withNumber, RExpr.eval, h3 po hp]
      simp
      omega
    · obtain ⟨h3, h4⟩ := showsAt_iff h2
      refine .inr (differs_of f j k _ v true s' arm ha h4 fun po hp => ?_)
      rw [hT]
      simp only [withNumber, RExpr.eval, h3 po hp]
      simp
      omega
  · cases h

/-- Texts that show every change of a number but the loose ones and one. -/
def numberTexts : List Str :=
  [c!"0", c!"0.01", c!"0.011", c!"0.101", c!"0.102", c!"0.103", c!"0.111", c!"0.112", c!"0.114", c!"0.16", c!"0.21", c!"0.22", c!"0.23", c!"0.51",
   c!"0.52", c!"0.53", c!"0.6", c!"0.61", c!"0.62", c!"1", c!"1.2", c!"2", c!"3", c!"4", c!"5", c!"4.9999999999999999999", c!"5.10", c!"6",
   c!"69e-1", c!"7", c!"7.9999999999999999999", c!"8.5", c!"9", c!"10", c!"11", c!"12", c!"13", c!"14.1", c!"15", c!"16", c!"17", c!"18", c!"19",
   c!"20", c!"21", c!"21.4", c!"22", c!"22.19", c!"23.20", c!"24", c!"25", c!"26", c!"27", c!"28", c!"29", c!"34", c!"37", c!"39", c!"40", c!"41.3",
   c!"42", c!"43", c!"44", c!"45", c!"50", c!"51", c!"52", c!"53", c!"55", c!"60", c!"61", c!"62", c!"63", c!"64", c!"65", c!"67", c!"68", c!"70",
   c!"71", c!"72", c!"73", c!"80", c!"81.6", c!"82", c!"83", c!"84", c!"85", c!"90", c!"91", c!"92", c!"93", c!"98", c!"99", c!"100.0", c!"101",
   c!"102", c!"103", c!"105", c!"111", c!"112", c!"112.11", c!"113", c!"114", c!"117", c!"118", c!"120", c!"121", c!"122", c!"123", c!"140", c!"141",
   c!"142", c!"143", c!"150", c!"160", c!"161", c!"162", c!"163", c!"170", c!"171", c!"172", c!"180", c!"181", c!"182", c!"183", c!"190", c!"191",
   c!"192", c!"200", c!"300", c!"400", c!"500", c!"600", c!"700", c!"800", c!"900", c!"1000", c!"1011", c!"1112", c!"1500", c!"1600", c!"1700",
   c!"1800", c!"1900", c!"40000", c!"60000", c!"80000", c!"90000", c!"100000", c!"140000", c!"160000", c!"180000", c!"500000", c!"600000",
   c!"1000000", c!"1100000"]

/-- For each number two texts, of which one shows the change. -/
def numberWitnesses : List (Closure × Nat × Nat × NumberPlace × Str × Str) :=
  [(cardinalFn0, 0, 0, .value, c!"1", c!""), (cardinalFn1, 0, 0, .low, c!"0", c!""), (cardinalFn1, 0, 0, .high, c!"1", c!"2"),
   (cardinalFn1, 0, 1, .value, c!"0", c!""), (cardinalFn2, 0, 0, .value, c!"0", c!""), (cardinalFn2, 0, 1, .value, c!"1", c!""),
   (cardinalFn3, 0, 0, .low, c!"3", c!"2"), (cardinalFn3, 0, 0, .high, c!"10", c!"11"), (cardinalFn3, 1, 0, .high, c!"99", c!"100.0"),
   (cardinalFn3, 2, 0, .value, c!"1", c!""), (cardinalFn3, 3, 0, .value, c!"2", c!""), (cardinalFn3, 4, 0, .value, c!"0", c!""),
   (cardinalFn4, 0, 0, .value, c!"1", c!""), (cardinalFn4, 0, 1, .value, c!"1", c!""), (cardinalFn5, 0, 0, .low, c!"2", c!"1"),
   (cardinalFn5, 0, 0, .high, c!"4", c!"5"), (cardinalFn5, 1, 0, .value, c!"0", c!""), (cardinalFn5, 1, 2, .high, c!"14.1", c!"15"),
   (cardinalFn5, 2, 0, .value, c!"1", c!""), (cardinalFn5, 2, 1, .value, c!"1011", c!""), (cardinalFn7, 0, 0, .value, c!"9", c!""),
   (cardinalFn7, 0, 1, .low, c!"3", c!"2"), (cardinalFn7, 0, 1, .high, c!"4", c!"5"), (cardinalFn7, 1, 0, .value, c!"0", c!""),
   (cardinalFn7, 1, 1, .value, c!"0.01", c!""), (cardinalFn7, 2, 0, .value, c!"1", c!""), (cardinalFn7, 2, 1, .value, c!"11", c!""),
   (cardinalFn7, 2, 2, .value, c!"71", c!""), (cardinalFn7, 2, 3, .value, c!"91", c!""), (cardinalFn7, 3, 0, .value, c!"2", c!""),
   (cardinalFn7, 3, 1, .value, c!"12", c!""), (cardinalFn7, 3, 2, .value, c!"72", c!""), (cardinalFn7, 3, 3, .value, c!"92", c!""),
   (cardinalFn8, 0, 0, .value, c!"2", c!""), (cardinalFn8, 0, 1, .low, c!"2", c!"1"), (cardinalFn8, 0, 1, .high, c!"4", c!"5"),
   (cardinalFn8, 0, 3, .low, c!"1.2", c!"0.01"), (cardinalFn8, 0, 3, .high, c!"21.4", c!"8.5"), (cardinalFn8, 1, 0, .value, c!"1", c!""),
   (cardinalFn8, 1, 1, .value, c!"1", c!""), (cardinalFn8, 1, 2, .value, c!"11", c!""), (cardinalFn8, 1, 3, .value, c!"0.01", c!""),
   (cardinalFn8, 1, 4, .value, c!"112.11", c!""), (cardinalFn9, 0, 4, .value, c!"0", c!""), (cardinalFn9, 0, 5, .value, c!"4", c!""),
   (cardinalFn9, 0, 6, .value, c!"6", c!""), (cardinalFn9, 0, 7, .value, c!"9", c!""), (cardinalFn9, 0, 8, .value, c!"4", c!""),
   (cardinalFn9, 0, 9, .value, c!"21.4", c!""), (cardinalFn9, 0, 10, .value, c!"81.6", c!""), (cardinalFn9, 0, 11, .value, c!"22.19", c!""),
   (cardinalFn10, 0, 0, .low, c!"2", c!"1"), (cardinalFn10, 0, 0, .high, c!"4", c!"5"), (cardinalFn10, 0, 1, .value, c!"2", c!""),
   (cardinalFn10, 1, 0, .value, c!"0", c!""), (cardinalFn10, 2, 0, .value, c!"1", c!""), (cardinalFn10, 2, 1, .value, c!"1", c!""),
   (cardinalFn11, 0, 0, .value, c!"3", c!""), (cardinalFn11, 1, 0, .value, c!"6", c!""), (cardinalFn11, 2, 0, .value, c!"1", c!""),
   (cardinalFn11, 3, 0, .value, c!"2", c!""), (cardinalFn11, 4, 0, .value, c!"0", c!""), (cardinalFn12, 0, 0, .value, c!"1", c!""),
   (cardinalFn12, 0, 1, .value, c!"0", c!""), (cardinalFn12, 0, 2, .value, c!"0.01", c!""), (cardinalFn12, 0, 3, .value, c!"1.2", c!""),
   (cardinalFn13, 0, 0, .value, c!"3", c!""), (cardinalFn13, 0, 1, .low, c!"3", c!"2"), (cardinalFn13, 0, 1, .high, c!"4", c!"5"),
   (cardinalFn13, 0, 2, .low, c!"41.3", c!"1.2"), (cardinalFn13, 0, 2, .high, c!"21.4", c!"8.5"), (cardinalFn13, 1, 0, .value, c!"1", c!""),
   (cardinalFn13, 1, 1, .value, c!"1", c!""), (cardinalFn13, 1, 2, .value, c!"0.01", c!""), (cardinalFn13, 2, 0, .value, c!"2", c!""),
   (cardinalFn13, 2, 1, .value, c!"2", c!""), (cardinalFn13, 2, 2, .value, c!"1.2", c!""), (cardinalFn14, 0, 0, .value, c!"0", c!""),
   (cardinalFn14, 0, 1, .value, c!"1", c!""), (cardinalFn15, 0, 0, .low, c!"3", c!"2"), (cardinalFn15, 0, 0, .high, c!"6", c!"7"),
   (cardinalFn15, 0, 1, .value, c!"3", c!""), (cardinalFn15, 1, 0, .high, c!"10", c!"11"), (cardinalFn15, 1, 1, .value, c!"7", c!""),
   (cardinalFn15, 2, 0, .value, c!"1", c!""), (cardinalFn15, 3, 0, .value, c!"2", c!""), (cardinalFn16, 0, 0, .low, c!"3", c!"2"),
   (cardinalFn16, 0, 0, .high, c!"10", c!"11"), (cardinalFn16, 0, 1, .value, c!"3", c!""), (cardinalFn16, 0, 2, .low, c!"13", c!"12"),
   (cardinalFn16, 0, 2, .high, c!"19", c!"20"), (cardinalFn16, 0, 3, .value, c!"13", c!""), (cardinalFn16, 1, 0, .value, c!"1", c!""),
   (cardinalFn16, 1, 1, .value, c!"11", c!""), (cardinalFn16, 2, 0, .value, c!"2", c!""), (cardinalFn16, 2, 1, .value, c!"12", c!""),
   (cardinalFn17, 0, 0, .value, c!"0", c!""), (cardinalFn17, 0, 1, .value, c!"0", c!""), (cardinalFn17, 0, 2, .value, c!"20", c!""),
   (cardinalFn17, 0, 3, .value, c!"40", c!""), (cardinalFn17, 0, 4, .value, c!"60", c!""), (cardinalFn17, 0, 5, .value, c!"80", c!""),
   (cardinalFn17, 1, 0, .value, c!"1", c!""), (cardinalFn17, 2, 0, .value, c!"1", c!""), (cardinalFn17, 2, 1, .value, c!"1", c!""),
   (cardinalFn17, 3, 0, .value, c!"2", c!""), (cardinalFn17, 3, 1, .value, c!"2", c!""), (cardinalFn18, 0, 0, .value, c!"20", c!""),
   (cardinalFn18, 0, 1, .low, c!"0", c!""), (cardinalFn18, 0, 2, .value, c!"20", c!""), (cardinalFn18, 0, 3, .value, c!"20", c!""),
   (cardinalFn18, 1, 0, .value, c!"1", c!""), (cardinalFn18, 1, 1, .value, c!"1", c!""), (cardinalFn18, 2, 0, .value, c!"2", c!""),
   (cardinalFn18, 2, 1, .value, c!"2", c!""), (cardinalFn19, 0, 0, .value, c!"1", c!""), (cardinalFn19, 0, 1, .value, c!"1", c!""),
   (cardinalFn19, 0, 2, .value, c!"11", c!""), (cardinalFn19, 0, 3, .value, c!"0", c!""), (cardinalFn20, 0, 0, .value, c!"1", c!""),
   (cardinalFn20, 1, 0, .value, c!"2", c!""), (cardinalFn21, 0, 0, .value, c!"1", c!""), (cardinalFn21, 1, 0, .value, c!"0", c!""),
   (cardinalFn22, 0, 0, .value, c!"3", c!""), (cardinalFn22, 0, 1, .value, c!"23.20", c!""), (cardinalFn22, 0, 2, .value, c!"43", c!""),
   (cardinalFn22, 0, 3, .value, c!"63", c!""), (cardinalFn22, 0, 4, .value, c!"83", c!""), (cardinalFn22, 1, 0, .value, c!"1", c!""),
   (cardinalFn22, 1, 1, .value, c!"1.2", c!""), (cardinalFn22, 1, 2, .value, c!"21.4", c!""), (cardinalFn22, 1, 3, .value, c!"41.3", c!""),
   (cardinalFn22, 1, 4, .value, c!"61", c!""), (cardinalFn22, 1, 5, .value, c!"81.6", c!""), (cardinalFn22, 2, 0, .value, c!"1", c!""),
   (cardinalFn22, 3, 0, .value, c!"2", c!""), (cardinalFn22, 3, 1, .value, c!"22.19", c!""), (cardinalFn22, 3, 2, .value, c!"42", c!""),
   (cardinalFn22, 3, 3, .value, c!"62", c!""), (cardinalFn22, 3, 4, .value, c!"82", c!""), (cardinalFn22, 3, 5, .value, c!"40000", c!""),
   (cardinalFn22, 3, 6, .value, c!"40000", c!""), (cardinalFn22, 3, 7, .value, c!"60000", c!""), (cardinalFn22, 3, 8, .value, c!"80000", c!""),
   (cardinalFn22, 3, 11, .value, c!"100000", c!""), (cardinalFn22, 4, 0, .value, c!"0", c!""), (cardinalFn23, 0, 0, .value, c!"0.01", c!""),
   (cardinalFn23, 0, 1, .value, c!"1", c!""), (cardinalFn23, 0, 2, .value, c!"0", c!""), (cardinalFn23, 1, 0, .value, c!"0", c!""),
   (cardinalFn24, 0, 0, .low, c!"2", c!"1"), (cardinalFn24, 0, 0, .high, c!"9", c!"10"), (cardinalFn24, 1, 0, .value, c!"0", c!""),
   (cardinalFn24, 2, 0, .value, c!"1", c!""), (cardinalFn25, 0, 0, .value, c!"1", c!""), (cardinalFn25, 0, 1, .value, c!"11", c!""),
   (cardinalFn25, 0, 2, .value, c!"0.01", c!""), (cardinalFn25, 0, 3, .value, c!"0.01", c!""), (cardinalFn25, 0, 4, .value, c!"112.11", c!""),
   (cardinalFn25, 0, 5, .value, c!"112.11", c!""), (cardinalFn25, 0, 6, .value, c!"14.1", c!""), (cardinalFn25, 1, 0, .value, c!"0", c!""),
   (cardinalFn25, 1, 2, .value, c!"22.19", c!""), (cardinalFn25, 1, 3, .low, c!"112.11", c!"5.10"),
   (cardinalFn25, 1, 3, .high, c!"22.19", c!"23.20"), (cardinalFn26, 0, 0, .value, c!"1", c!""), (cardinalFn26, 0, 1, .value, c!"1", c!""),
   (cardinalFn26, 0, 2, .value, c!"11", c!""), (cardinalFn26, 0, 3, .value, c!"0.01", c!""), (cardinalFn26, 0, 4, .value, c!"112.11", c!""),
   (cardinalFn27, 0, 0, .value, c!"1", c!""), (cardinalFn27, 0, 1, .value, c!"0", c!""), (cardinalFn27, 0, 2, .low, c!"2", c!"1"),
   (cardinalFn27, 0, 2, .high, c!"19", c!"20"), (cardinalFn27, 1, 0, .value, c!"1", c!""), (cardinalFn27, 1, 1, .value, c!"1", c!""),
   (cardinalFn28, 0, 0, .value, c!"0", c!""), (cardinalFn28, 0, 1, .low, c!"2", c!"1"), (cardinalFn28, 0, 1, .high, c!"10", c!"11"),
   (cardinalFn28, 1, 0, .high, c!"19", c!"20"), (cardinalFn28, 2, 0, .value, c!"1", c!""), (cardinalFn29, 0, 0, .value, c!"2", c!""),
   (cardinalFn29, 0, 1, .low, c!"2", c!"1"), (cardinalFn29, 0, 1, .high, c!"4", c!"5"), (cardinalFn29, 1, 0, .value, c!"0", c!""),
   (cardinalFn29, 1, 1, .value, c!"1", c!""), (cardinalFn29, 1, 2, .low, c!"0", c!""), (cardinalFn29, 1, 3, .value, c!"5", c!""),
   (cardinalFn29, 1, 5, .value, c!"12", c!""), (cardinalFn29, 2, 0, .value, c!"1", c!""), (cardinalFn29, 2, 1, .value, c!"1", c!""),
   (cardinalFn30, 0, 0, .low, c!"0", c!""), (cardinalFn30, 0, 0, .high, c!"1", c!"2"), (cardinalFn31, 0, 0, .value, c!"2", c!""),
   (cardinalFn31, 0, 1, .low, c!"2", c!"1"), (cardinalFn31, 0, 1, .high, c!"4", c!"5"), (cardinalFn31, 1, 0, .value, c!"0", c!""),
   (cardinalFn31, 1, 1, .value, c!"0", c!""), (cardinalFn31, 1, 2, .value, c!"5", c!""), (cardinalFn31, 1, 4, .value, c!"11", c!""),
   (cardinalFn31, 2, 0, .value, c!"1", c!""), (cardinalFn31, 2, 1, .value, c!"1", c!""), (cardinalFn32, 0, 0, .low, c!"2", c!"1"),
   (cardinalFn32, 0, 0, .high, c!"10", c!"11"), (cardinalFn32, 0, 1, .value, c!"2", c!""), (cardinalFn32, 1, 0, .value, c!"0", c!""),
   (cardinalFn32, 1, 1, .value, c!"1", c!""), (cardinalFn33, 0, 0, .value, c!"0", c!""), (cardinalFn33, 0, 1, .value, c!"1", c!""),
   (cardinalFn33, 0, 2, .value, c!"0.01", c!""), (cardinalFn33, 0, 3, .value, c!"0.01", c!""), (cardinalFn34, 0, 0, .value, c!"3", c!""),
   (cardinalFn34, 0, 1, .low, c!"3", c!"2"), (cardinalFn34, 0, 1, .high, c!"4", c!"5"), (cardinalFn34, 0, 2, .value, c!"0", c!""),
   (cardinalFn34, 1, 0, .value, c!"1", c!""), (cardinalFn34, 1, 1, .value, c!"1", c!""), (cardinalFn34, 2, 0, .value, c!"2", c!""),
   (cardinalFn34, 2, 1, .value, c!"2", c!""), (cardinalFn35, 0, 0, .low, c!"0", c!""), (cardinalFn35, 0, 0, .high, c!"1", c!"2"),
   (cardinalFn35, 0, 1, .value, c!"0", c!""), (cardinalFn35, 0, 2, .low, c!"11", c!"10"), (cardinalFn35, 0, 2, .high, c!"99", c!"100.0"),
   (cardinalFn35, 0, 3, .value, c!"11", c!""), (ordinalFn1, 0, 0, .value, c!"4", c!""), (ordinalFn1, 1, 0, .value, c!"6", c!""),
   (ordinalFn1, 2, 0, .value, c!"1", c!""), (ordinalFn1, 2, 1, .value, c!"5", c!""), (ordinalFn1, 2, 2, .value, c!"7", c!""),
   (ordinalFn1, 2, 3, .value, c!"7.9999999999999999999", c!""), (ordinalFn1, 2, 4, .value, c!"9", c!""), (ordinalFn1, 2, 5, .value, c!"10", c!""),
   (ordinalFn1, 3, 0, .value, c!"2", c!""), (ordinalFn1, 3, 1, .value, c!"3", c!""), (ordinalFn2, 0, 0, .value, c!"3", c!""),
   (ordinalFn2, 0, 1, .value, c!"4", c!""), (ordinalFn2, 0, 2, .value, c!"100.0", c!""), (ordinalFn2, 0, 3, .value, c!"200", c!""),
   (ordinalFn2, 0, 4, .value, c!"300", c!""), (ordinalFn2, 0, 5, .value, c!"400", c!""), (ordinalFn2, 0, 6, .value, c!"500", c!""),
   (ordinalFn2, 0, 7, .value, c!"600", c!""), (ordinalFn2, 0, 8, .value, c!"700", c!""), (ordinalFn2, 0, 9, .value, c!"800", c!""),
   (ordinalFn2, 0, 10, .value, c!"900", c!""), (ordinalFn2, 1, 0, .value, c!"0", c!""), (ordinalFn2, 1, 1, .value, c!"6", c!""),
   (ordinalFn2, 1, 2, .value, c!"40", c!""), (ordinalFn2, 1, 3, .value, c!"60", c!""), (ordinalFn2, 1, 4, .value, c!"90", c!""),
   (ordinalFn2, 2, 0, .value, c!"1", c!""), (ordinalFn2, 2, 1, .value, c!"2", c!""), (ordinalFn2, 2, 2, .value, c!"5", c!""),
   (ordinalFn2, 2, 3, .value, c!"7", c!""), (ordinalFn2, 2, 4, .value, c!"18", c!""), (ordinalFn2, 2, 5, .value, c!"20", c!""),
   (ordinalFn2, 2, 6, .value, c!"50", c!""), (ordinalFn2, 2, 7, .value, c!"70", c!""), (ordinalFn2, 2, 8, .value, c!"80", c!""),
   (ordinalFn3, 0, 0, .value, c!"2", c!""), (ordinalFn3, 0, 1, .value, c!"3", c!""), (ordinalFn3, 0, 2, .value, c!"12", c!""),
   (ordinalFn3, 0, 3, .value, c!"13", c!""), (ordinalFn4, 0, 0, .value, c!"4", c!""), (ordinalFn4, 1, 0, .value, c!"1", c!""),
   (ordinalFn4, 1, 1, .value, c!"3", c!""), (ordinalFn4, 2, 0, .value, c!"2", c!""), (ordinalFn5, 0, 0, .value, c!"3", c!""),
   (ordinalFn5, 0, 1, .value, c!"4", c!""), (ordinalFn5, 1, 0, .value, c!"5", c!""), (ordinalFn5, 1, 1, .value, c!"6", c!""),
   (ordinalFn5, 2, 0, .value, c!"1", c!""), (ordinalFn5, 3, 0, .value, c!"2", c!""), (ordinalFn5, 4, 0, .value, c!"0", c!""),
   (ordinalFn5, 4, 1, .value, c!"7", c!""), (ordinalFn5, 4, 2, .value, c!"7.9999999999999999999", c!""), (ordinalFn5, 4, 3, .value, c!"9", c!""),
   (ordinalFn6, 0, 0, .value, c!"3", c!""), (ordinalFn6, 0, 1, .value, c!"13", c!""), (ordinalFn6, 1, 0, .value, c!"1", c!""),
   (ordinalFn6, 1, 1, .value, c!"11", c!""), (ordinalFn6, 2, 0, .value, c!"2", c!""), (ordinalFn6, 2, 1, .value, c!"12", c!""),
   (ordinalFn7, 0, 0, .value, c!"1", c!""), (ordinalFn8, 0, 0, .value, c!"3", c!""), (ordinalFn8, 0, 1, .value, c!"13", c!""),
   (ordinalFn8, 1, 0, .value, c!"1", c!""), (ordinalFn8, 1, 1, .value, c!"11", c!""), (ordinalFn8, 2, 0, .value, c!"2", c!""),
   (ordinalFn8, 2, 1, .value, c!"12", c!""), (ordinalFn9, 0, 0, .value, c!"4", c!""), (ordinalFn9, 1, 0, .value, c!"6", c!""),
   (ordinalFn9, 2, 0, .value, c!"1", c!""), (ordinalFn9, 3, 0, .value, c!"2", c!""), (ordinalFn9, 3, 1, .value, c!"3", c!""),
   (ordinalFn10, 0, 0, .value, c!"1", c!""), (ordinalFn10, 0, 1, .value, c!"5", c!""), (ordinalFn11, 0, 0, .value, c!"11", c!""),
   (ordinalFn11, 0, 1, .value, c!"7.9999999999999999999", c!""), (ordinalFn11, 0, 2, .value, c!"80", c!""),
   (ordinalFn11, 0, 3, .value, c!"800", c!""), (ordinalFn12, 0, 0, .value, c!"0", c!""), (ordinalFn12, 0, 1, .value, c!"40", c!""),
   (ordinalFn12, 0, 2, .value, c!"60", c!""), (ordinalFn12, 0, 3, .value, c!"80", c!""), (ordinalFn12, 0, 4, .low, c!"2", c!"1"),
   (ordinalFn12, 0, 4, .high, c!"20", c!"21.4"), (ordinalFn12, 1, 0, .value, c!"1", c!""), (ordinalFn13, 0, 0, .value, c!"6", c!""),
   (ordinalFn13, 0, 1, .value, c!"9", c!""), (ordinalFn13, 0, 2, .value, c!"10", c!""), (ordinalFn13, 0, 3, .value, c!"0", c!""),
   (ordinalFn14, 0, 0, .value, c!"4.9999999999999999999", c!""), (ordinalFn14, 0, 1, .value, c!"5.10", c!""),
   (ordinalFn14, 1, 2, .low, c!"1.2", c!"0"), (ordinalFn14, 1, 3, .low, c!"21.4", c!"20"), (ordinalFn14, 1, 3, .high, c!"24", c!"25"),
   (ordinalFn14, 1, 4, .low, c!"41.3", c!"40"), (ordinalFn14, 1, 4, .high, c!"44", c!"45"), (ordinalFn14, 1, 5, .low, c!"61", c!"60"),
   (ordinalFn14, 1, 5, .high, c!"64", c!"65"), (ordinalFn14, 1, 6, .low, c!"81.6", c!"80"), (ordinalFn14, 1, 6, .high, c!"84", c!"85"),
   (ordinalFn15, 0, 0, .value, c!"7", c!""), (ordinalFn15, 0, 1, .value, c!"8.5", c!""), (ordinalFn15, 0, 2, .value, c!"17", c!""),
   (ordinalFn15, 0, 3, .value, c!"18", c!""), (ordinalFn15, 1, 0, .value, c!"1", c!""), (ordinalFn15, 1, 1, .value, c!"11", c!""),
   (ordinalFn15, 2, 0, .value, c!"2", c!""), (ordinalFn15, 2, 1, .value, c!"12", c!""), (ordinalFn16, 0, 0, .value, c!"4", c!""),
   (ordinalFn16, 1, 0, .value, c!"1", c!""), (ordinalFn16, 2, 0, .value, c!"2", c!""), (ordinalFn16, 2, 1, .value, c!"3", c!""),
   (ordinalFn17, 0, 0, .low, c!"1", c!"0"), (ordinalFn17, 0, 0, .high, c!"4", c!"5"), (ordinalFn17, 0, 1, .value, c!"1", c!""),
   (ordinalFn18, 0, 0, .value, c!"4", c!""), (ordinalFn18, 1, 0, .value, c!"6", c!""), (ordinalFn18, 2, 0, .value, c!"1", c!""),
   (ordinalFn18, 2, 1, .value, c!"5", c!""), (ordinalFn18, 2, 2, .high, c!"9", c!"10"), (ordinalFn18, 2, 3, .value, c!"7", c!""),
   (ordinalFn18, 3, 0, .value, c!"2", c!""), (ordinalFn18, 3, 1, .value, c!"3", c!""), (ordinalFn19, 0, 0, .value, c!"4", c!""),
   (ordinalFn19, 0, 1, .value, c!"14.1", c!""), (ordinalFn19, 1, 0, .value, c!"1", c!""), (ordinalFn20, 0, 0, .value, c!"1", c!""),
   (ordinalFn20, 0, 1, .value, c!"2", c!""), (ordinalFn20, 0, 2, .value, c!"11", c!""), (ordinalFn20, 0, 3, .value, c!"12", c!""),
   (ordinalFn21, 0, 0, .value, c!"6", c!""), (ordinalFn21, 0, 1, .value, c!"9", c!""), (ordinalFn21, 0, 2, .value, c!"10", c!""),
   (ordinalFn22, 0, 0, .value, c!"3", c!""), (ordinalFn22, 0, 1, .value, c!"13", c!""), (ordinalFn18, 2, 2, .low, c!"7", c!"69e-1")]

theorem witnesses_checked : (numberWitnesses.all fun x => numberTexts.contains x.2.2.2.2.1 && (x.2.2.2.2.2 == [] || numberTexts.contains x.2.2.2.2.2) &&
    match x.1.arms[x.2.1]? with
    | some arm => pinnedBy x.1 x.2.1 x.2.2.1 x.2.2.2.2.1 x.2.2.2.2.2 x.2.2.2.1 (testAt arm.1 x.2.2.1)
    | none => false) = true := by decide +kernel

/-! ## Moduli -/

/-- The text shows the change. -/
def showsNumber (f : Closure) (j k : Nat) (p : NumberPlace) (v : Nat) (s : Str) : Bool :=
  match (tryFromStr s).toOption with
  | some po => (changeIn f j k p v).call po != f.call po
  | none => false

theorem showsNumber_differs {f : Closure} {j k : Nat} {p : NumberPlace} {v : Nat} {s : Str} (h : showsNumber f j k p v s = true) : Differs f j k p v s := by
  unfold showsNumber at h
  cases hp : tryFromStr s with
  | error e => rw [hp] at h; cases h
  | ok po =>
    rw [hp] at h
    simp only [Except.toOption, bne_iff_ne, ne_eq] at h
    exact ⟨po, hp, h⟩

/-- The change to `v` is no change, or one of the texts shows it. -/
def shownOr (f : Closure) (j k m : Nat) (ws : List Str) (v : Nat) : Bool := v == m || ws.any fun s => showsNumber f j k .modulus v s

/-- For a modulus in `a % m == c`: the first text has the dividend `x`, with the remainder `c`, which it has only by the divisors of the difference; these are
shown by the other texts.  A divisor of `y` is at most `r`, or `y` divided by one that is. -/
def divisorsShown (f : Closure) (j k m : Nat) (b : Bool) (a : RExpr) (c x r : Nat) (s : Str) (ws : List Str) : Bool :=
  showsAt f j k b a x s && decide (c < x) && decide (x - c < (r + 1) * (r + 1)) && shownOr f j k m (s :: ws) 0 &&
    (List.range r).all fun w => (x - c) % (w + 1) != 0 || (shownOr f j k m (s :: ws) (w + 1) && shownOr f j k m (s :: ws) ((x - c) / (w + 1)))

/-- For a modulus in a range: the first text has the dividend `x` above the range, which is the remainder by all larger moduli. -/
def smallerShown (f : Closure) (j k m : Nat) (a : RExpr) (hi x : Nat) (s : Str) (ws : List Str) : Bool :=
  showsAt f j k false a x s && decide (hi < x) && (List.range (x + 1)).all fun v => shownOr f j k m (s :: ws) v

/-- The texts show every change of the modulus. -/
def modulusPinned (f : Closure) (j k x r : Nat) (s : Str) (ws : List Str) : RExpr → Bool
  | .cmp .eq (.rem a (.int m)) (.int c) => divisorsShown f j k m false a c x r s ws
  | .cmp .ne (.rem a (.int m)) (.int c) => divisorsShown f j k m true a c x r s ws
  | .contains _ hi (.rem a (.int m)) => smallerShown f j k m a hi x s ws
  | _ => false

theorem shownOr_differs {f : Closure} {j k m v : Nat} {ws : List Str} (h : shownOr f j k m ws v = true) (hv : v ≠ m) : ∃ s ∈ ws, Differs f j k .modulus v s := by
  simp only [shownOr, Bool.or_eq_true, beq_iff_eq, List.any_eq_true] at h
  obtain ⟨s, hs, h⟩ := h.resolve_left hv
  exact ⟨s, hs, showsNumber_differs h⟩

theorem divisors_differ (f : Closure) (j k m : Nat) (op : CmpOp) (b : Bool) (hb : ∀ x y, x ≠ y → cmpInt op x y = b) (a : RExpr) (c x r : Nat) (s : Str)
    (ws : List Str) (arm : RExpr × PluralCategory) (ha : f.arms[j]? = some arm) (hT : testAt arm.1 k = .cmp op (.rem a (.int m)) (.int c))
    (h : divisorsShown f j k m b a c x r s ws = true) (v : Nat) (hv : v ≠ m) : ∃ s' ∈ s :: ws, Differs f j k .modulus v s' := by
  unfold divisorsShown at h
  simp only [Bool.and_eq_true, decide_eq_true_eq, List.all_eq_true, List.mem_range] at h
  obtain ⟨⟨⟨⟨h1, h2⟩, h3⟩, h4⟩, h5⟩ := h
  obtain ⟨h6, h7⟩ := showsAt_iff h1
  rcases Nat.eq_zero_or_pos v with rfl | hpos
  · exact shownOr_differs h4 hv
  by_cases hd : x % v = c
  · have hdv : v ∣ x - c := by
      rw [← hd]
      exact Nat.dvd_sub_mod x
    obtain ⟨w, hw⟩ := hdv
    have hwpos : 0 < w := by
      rcases Nat.eq_zero_or_pos w with rfl | h
      · omega
      · exact h
    by_cases hvr : v ≤ r
    · have := h5 (v - 1) (by omega)
      rw [show v - 1 + 1 = v by omega, hw] at this
      simp only [Nat.mul_mod_right, bne_self_eq_false, Bool.false_or, Bool.and_eq_true] at this
      exact shownOr_differs this.1 hv
    · have hwr : w ≤ r := by
        by_contra hwr
        have : (r + 1) * (r + 1) ≤ v * w := Nat.mul_le_mul (by omega) (by omega)
        omega
      have := h5 (w - 1) (by omega)
      rw [show w - 1 + 1 = w by omega, hw] at this
      simp only [Nat.mul_mod_left, bne_self_eq_false, Bool.false_or, Bool.and_eq_true, Nat.mul_div_cancel v hwpos] at this
      exact shownOr_differs this.2 hv
  · refine ⟨s, List.mem_cons_self, differs_of f j k .modulus v b s arm ha h7 fun po hp => ?_⟩
    rw [hT]
    simp only [withNumber, RExpr.eval, h6 po hp, if_neg hpos.ne', hb _ _ hd]

theorem smaller_differ (f : Closure) (j k m : Nat) (a : RExpr) (lo hi x : Nat) (s : Str)
    (ws : List Str) (arm : RExpr × PluralCategory) (ha : f.arms[j]? = some arm) (hT : testAt arm.1 k = .contains lo hi (.rem a (.int m)))
    (h : smallerShown f j k m a hi x s ws = true) (v : Nat) (hv : v ≠ m) : ∃ s' ∈ s :: ws, Differs f j k .modulus v s' := by
  unfold smallerShown at h
  simp only [Bool.and_eq_true, decide_eq_true_eq, List.all_eq_true, List.mem_range] at h
  obtain ⟨⟨h1, h2⟩, h5⟩ := h
  obtain ⟨h6, h7⟩ := showsAt_iff h1
  by_cases hvx : v ≤ x
  · exact shownOr_differs (h5 v (by omega)) hv
  · refine ⟨s, List.mem_cons_self, differs_of f j k .modulus v false s arm ha h7 fun po hp => ?_⟩
    rw [hT]
    simp only [withNumber, RExpr.eval, h6 po hp, if_neg (show v ≠ 0 by omega), Nat.mod_eq_of_lt (show x < v by omega)]
    simp
    omega

theorem modulus_differs (f : Closure) (j k x r : Nat) (s : Str) (ws : List Str) (arm : RExpr × PluralCategory) (ha : f.arms[j]? = some arm)
    (h : modulusPinned f j k x r s ws (testAt arm.1 k) = true) (m : Nat) (hm : numberOf .modulus (testAt arm.1 k) = some m) (v : Nat) (hv : v ≠ m) :
    ∃ s' ∈ s :: ws, Differs f j k .modulus v s' := by
  generalize hT : testAt arm.1 k = T at *
  unfold modulusPinned at h
  split at h
  · cases hm
    exact divisors_differ f j k _ .eq false (fun x y hxy => by simp [cmpInt, hxy]) _ _ x r s ws arm ha hT h v hv
  · cases hm
    exact divisors_differ f j k _ .ne true (fun x y hxy => by simp [cmpInt, hxy]) _ _ x r s ws arm ha hT h v hv
  · cases hm
    exact smaller_differ f j k _ _ _ _ x s ws arm ha hT h v hv
  · cases h

/-- For each modulus texts, of which one shows the change, and the `x` and `r` of `divisorsShown`. -/
def modulusWitnesses : List (Closure × Nat × Nat × Nat × Nat × Str × List Str) :=
  [(cardinalFn5, 1, 0, 10, 3, c!"10", [c!"1", c!"16", c!"15"]), (cardinalFn5, 2, 0, 21, 4, c!"21", [c!"15", c!"17", c!"16", c!"51"]),
   (cardinalFn5, 2, 1, 111, 10, c!"111", [c!"51", c!"61"]), (cardinalFn7, 0, 0, 29, 4, c!"29", [c!"39"]),
   (cardinalFn7, 1, 1, 1000000, 1000, c!"1000000", [c!"1", c!"2", c!"12", c!"5", c!"16", c!"10", c!"20", c!"25", c!"64", c!"40", c!"50", c!"80", c!"200", c!"500", c!"160", c!"1600", c!"40000", c!"100000", c!"500000", c!"600000"]),
   (cardinalFn7, 2, 0, 21, 4, c!"21", [c!"5", c!"6", c!"51"]), (cardinalFn7, 2, 1, 111, 10, c!"111", [c!"51", c!"61"]),
   (cardinalFn7, 2, 2, 171, 10, c!"171", []), (cardinalFn7, 2, 3, 191, 10, c!"191", []), (cardinalFn7, 3, 0, 22, 4, c!"22", [c!"6", c!"7", c!"52"]),
   (cardinalFn7, 3, 1, 112, 10, c!"112", [c!"52", c!"62"]), (cardinalFn7, 3, 2, 172, 10, c!"172", []), (cardinalFn7, 3, 3, 192, 10, c!"192", []),
   (cardinalFn8, 0, 1, 22, 0, c!"22", [c!"4", c!"7", c!"9", c!"11", c!"20", c!"21", c!"34"]),
   (cardinalFn8, 0, 2, 112, 0, c!"112", [c!"34", c!"62", c!"114"]),
   (cardinalFn8, 0, 3, 22, 0, c!"0.22", [c!"0.6", c!"22.19", c!"0.16", c!"0.21", c!"0.52"]),
   (cardinalFn8, 0, 4, 112, 0, c!"0.112", [c!"0.52", c!"0.62", c!"0.114"]), (cardinalFn8, 1, 1, 21, 4, c!"21", [c!"5", c!"6", c!"51"]),
   (cardinalFn8, 1, 2, 111, 10, c!"111", [c!"51", c!"61"]), (cardinalFn8, 1, 3, 21, 4, c!"0.21", [c!"8.5", c!"0.6", c!"0.51"]),
   (cardinalFn8, 1, 4, 111, 10, c!"0.111", [c!"0.51", c!"0.61"]), (cardinalFn9, 0, 6, 16, 3, c!"16", []), (cardinalFn9, 0, 7, 19, 3, c!"19", []),
   (cardinalFn9, 0, 10, 16, 3, c!"0.16", []), (cardinalFn9, 0, 11, 19, 3, c!"22.19", []),
   (cardinalFn13, 0, 1, 103, 0, c!"103", [c!"4", c!"9", c!"12", c!"13", c!"15", c!"24", c!"28", c!"37", c!"53", c!"102"]),
   (cardinalFn13, 0, 2, 103, 0, c!"0.103", [c!"0.23", c!"0.21", c!"0.102", c!"0.53"]),
   (cardinalFn13, 1, 1, 101, 10, c!"101", [c!"5", c!"6", c!"11", c!"21", c!"26", c!"51"]),
   (cardinalFn13, 1, 2, 101, 10, c!"0.101", [c!"8.5", c!"0.6", c!"0.21", c!"0.51"]),
   (cardinalFn13, 2, 1, 102, 10, c!"102", [c!"6", c!"7", c!"12", c!"22", c!"27", c!"52"]),
   (cardinalFn13, 2, 2, 102, 10, c!"0.102", [c!"0.6", c!"0.22", c!"0.52"]), (cardinalFn17, 0, 2, 120, 10, c!"120", [c!"45", c!"70"]),
   (cardinalFn17, 0, 3, 140, 10, c!"140", [c!"90"]), (cardinalFn17, 0, 4, 160, 10, c!"160", []), (cardinalFn17, 0, 5, 180, 10, c!"180", []),
   (cardinalFn17, 2, 1, 11, 3, c!"11", [c!"3", c!"6"]), (cardinalFn17, 3, 1, 12, 3, c!"12", [c!"7"]),
   (cardinalFn18, 0, 3, 20, 4, c!"20", [c!"11", c!"12", c!"15", c!"50"]), (cardinalFn19, 0, 1, 21, 4, c!"21", [c!"3", c!"5", c!"6", c!"51"]),
   (cardinalFn19, 0, 2, 111, 10, c!"111", [c!"51", c!"61"]), (cardinalFn22, 0, 1, 123, 10, c!"123", [c!"73"]),
   (cardinalFn22, 0, 2, 143, 10, c!"143", [c!"93"]), (cardinalFn22, 0, 3, 163, 10, c!"163", []), (cardinalFn22, 0, 4, 183, 10, c!"183", []),
   (cardinalFn22, 1, 2, 121, 10, c!"121", [c!"71"]), (cardinalFn22, 1, 3, 141, 10, c!"141", [c!"91"]), (cardinalFn22, 1, 4, 161, 10, c!"161", []),
   (cardinalFn22, 1, 5, 181, 10, c!"181", []), (cardinalFn22, 3, 1, 122, 10, c!"122", [c!"72"]), (cardinalFn22, 3, 2, 142, 10, c!"142", [c!"92"]),
   (cardinalFn22, 3, 3, 162, 10, c!"162", []), (cardinalFn22, 3, 4, 182, 10, c!"182", []),
   (cardinalFn22, 3, 5, 1000, 31, c!"1000", [c!"1011", c!"1112", c!"1500", c!"1600"]), (cardinalFn22, 3, 6, 140000, 316, c!"140000", [c!"90000"]),
   (cardinalFn22, 3, 7, 160000, 316, c!"160000", []), (cardinalFn22, 3, 8, 180000, 316, c!"180000", []),
   (cardinalFn22, 3, 11, 1100000, 1000, c!"1100000", [c!"600000", c!"500000"]), (cardinalFn24, 2, 0, 21, 4, c!"21", [c!"25", c!"26", c!"51"]),
   (cardinalFn25, 0, 0, 21, 4, c!"21", [c!"3", c!"5", c!"6", c!"51"]), (cardinalFn25, 0, 1, 111, 10, c!"111", [c!"51", c!"61"]),
   (cardinalFn25, 0, 3, 21, 4, c!"0.21", [c!"0.23", c!"0.51", c!"0.16"]), (cardinalFn25, 0, 6, 11, 3, c!"0.011", [c!"8.5", c!"0.6"]),
   (cardinalFn25, 1, 0, 10, 3, c!"10", [c!"2", c!"5"]), (cardinalFn26, 0, 1, 21, 4, c!"21", [c!"3", c!"5", c!"6", c!"51"]),
   (cardinalFn26, 0, 2, 111, 10, c!"111", [c!"51", c!"61"]), (cardinalFn26, 0, 3, 21, 4, c!"0.21", [c!"8.5", c!"0.6", c!"0.51"]),
   (cardinalFn26, 0, 4, 111, 10, c!"0.111", [c!"0.51", c!"0.61"]),
   (cardinalFn29, 0, 1, 22, 0, c!"22", [c!"4", c!"7", c!"9", c!"11", c!"20", c!"21", c!"34"]),
   (cardinalFn29, 0, 2, 112, 0, c!"112", [c!"34", c!"62", c!"114"]), (cardinalFn29, 1, 4, 15, 0, c!"15", [c!"9"]),
   (cardinalFn31, 0, 1, 22, 0, c!"22", [c!"4", c!"7", c!"9", c!"11", c!"20", c!"21", c!"34"]),
   (cardinalFn31, 0, 2, 112, 0, c!"112", [c!"34", c!"62", c!"114"]), (cardinalFn31, 1, 3, 15, 0, c!"15", [c!"9"]),
   (cardinalFn31, 1, 5, 111, 0, c!"111", [c!"112", c!"51", c!"61", c!"114"]),
   (cardinalFn34, 0, 1, 103, 0, c!"103", [c!"4", c!"9", c!"12", c!"13", c!"15", c!"24", c!"28", c!"37", c!"53", c!"102"]),
   (cardinalFn34, 1, 1, 101, 10, c!"101", [c!"5", c!"6", c!"11", c!"21", c!"26", c!"51"]),
   (cardinalFn34, 2, 1, 102, 10, c!"102", [c!"6", c!"7", c!"12", c!"22", c!"27", c!"52"]), (ordinalFn2, 0, 0, 13, 3, c!"13", [c!"18"]),
   (ordinalFn2, 0, 1, 14, 3, c!"14.1", [c!"9"]), (ordinalFn2, 0, 6, 1500, 31, c!"1500", []), (ordinalFn2, 0, 7, 1600, 31, c!"1600", []),
   (ordinalFn2, 0, 8, 1700, 31, c!"1700", []), (ordinalFn2, 0, 9, 1800, 31, c!"1800", []), (ordinalFn2, 0, 10, 1900, 31, c!"1900", []),
   (ordinalFn2, 1, 1, 16, 3, c!"16", []), (ordinalFn2, 1, 3, 160, 10, c!"160", []), (ordinalFn2, 1, 4, 190, 10, c!"190", []),
   (ordinalFn2, 2, 2, 15, 3, c!"15", []), (ordinalFn2, 2, 3, 17, 3, c!"17", []), (ordinalFn2, 2, 4, 18, 3, c!"18", []),
   (ordinalFn2, 2, 6, 150, 10, c!"150", []), (ordinalFn2, 2, 7, 170, 10, c!"170", []), (ordinalFn2, 2, 8, 180, 10, c!"180", []),
   (ordinalFn3, 0, 0, 22, 4, c!"22", [c!"6", c!"7", c!"52"]), (ordinalFn3, 0, 1, 23, 4, c!"23.20", [c!"7", c!"18", c!"53"]),
   (ordinalFn3, 0, 2, 112, 10, c!"112", [c!"52", c!"62"]), (ordinalFn3, 0, 3, 113, 10, c!"113", [c!"53", c!"63"]),
   (ordinalFn6, 0, 0, 23, 4, c!"23.20", [c!"7", c!"18", c!"53"]), (ordinalFn6, 0, 1, 113, 10, c!"113", [c!"53", c!"63"]),
   (ordinalFn6, 1, 0, 21, 4, c!"21", [c!"5", c!"6", c!"51"]), (ordinalFn6, 1, 1, 111, 10, c!"111", [c!"51", c!"61"]),
   (ordinalFn6, 2, 0, 22, 4, c!"22", [c!"6", c!"7", c!"52"]), (ordinalFn6, 2, 1, 112, 10, c!"112", [c!"52", c!"62"]),
   (ordinalFn12, 0, 1, 140, 10, c!"140", [c!"90"]), (ordinalFn12, 0, 2, 160, 10, c!"160", []), (ordinalFn12, 0, 3, 180, 10, c!"180", []),
   (ordinalFn12, 0, 4, 102, 0, c!"102", [c!"4", c!"5", c!"7", c!"9", c!"10", c!"11", c!"12", c!"13", c!"15", c!"16", c!"18", c!"19", c!"20", c!"24", c!"25", c!"26", c!"27", c!"34", c!"37", c!"43", c!"44", c!"45", c!"50", c!"51", c!"52", c!"84", c!"85", c!"90", c!"91", c!"92", c!"93", c!"98", c!"99", c!"101"]),
   (ordinalFn13, 0, 0, 16, 3, c!"16", []), (ordinalFn13, 0, 1, 19, 3, c!"19", []), (ordinalFn13, 0, 2, 10, 3, c!"10", [c!"1", c!"2", c!"5"]),
   (ordinalFn14, 0, 1, 105, 10, c!"105", [c!"15", c!"25", c!"55"]), (ordinalFn15, 0, 0, 27, 4, c!"27", [c!"37"]),
   (ordinalFn15, 0, 1, 28, 4, c!"28", [c!"98"]), (ordinalFn15, 0, 2, 117, 10, c!"117", [c!"37", c!"67"]),
   (ordinalFn15, 0, 3, 118, 10, c!"118", [c!"98", c!"68"]), (ordinalFn15, 1, 0, 21, 4, c!"21", [c!"3", c!"5", c!"6", c!"51"]),
   (ordinalFn15, 1, 1, 111, 10, c!"111", [c!"51", c!"61"]), (ordinalFn15, 2, 0, 22, 4, c!"22", [c!"6", c!"17", c!"52"]),
   (ordinalFn15, 2, 1, 112, 10, c!"112", [c!"52", c!"62"]), (ordinalFn19, 0, 0, 24, 4, c!"24", [c!"9", c!"34"]),
   (ordinalFn19, 0, 1, 114, 10, c!"114", [c!"34", c!"64"]), (ordinalFn20, 0, 0, 21, 4, c!"21", [c!"3", c!"5", c!"6", c!"51"]),
   (ordinalFn20, 0, 1, 22, 4, c!"22", [c!"6", c!"7", c!"52"]), (ordinalFn20, 0, 2, 111, 10, c!"111", [c!"51", c!"61"]),
   (ordinalFn20, 0, 3, 112, 10, c!"112", [c!"52", c!"62"]), (ordinalFn21, 0, 0, 16, 3, c!"16", []), (ordinalFn21, 0, 1, 19, 3, c!"19", []),
   (ordinalFn22, 0, 0, 23, 4, c!"23.20", [c!"7", c!"18", c!"53"]), (ordinalFn22, 0, 1, 113, 10, c!"113", [c!"53", c!"63"])]

theorem moduli_checked : (modulusWitnesses.all fun x => ((x.2.2.2.2.2.1 :: x.2.2.2.2.2.2).all fun s => numberTexts.contains s) &&
    match x.1.arms[x.2.1]? with
    | some arm => modulusPinned x.1 x.2.1 x.2.2.1 x.2.2.2.1 x.2.2.2.2.1 x.2.2.2.2.2.1 x.2.2.2.2.2.2 (testAt arm.1 x.2.2.1)
    | none => false) = true := by decide +kernel

/-! ## All numbers -/

/-- All numbers in a function. -/
def allNumbers (f : Closure) : List (Nat × Nat × NumberPlace) :=
  (List.range f.arms.length).flatMap fun j => (List.range ((f.arms[j]?.map fun a => testsIn a.1).getD 0)).flatMap fun k =>
    [NumberPlace.value, .low, .high, .modulus].flatMap fun p => if ((f.arms[j]?).bind fun a => numberOf p (testAt a.1 k)).isSome then [(j, k, p)] else []

/-- The `v == 0` in ONE of Cebuano, Filipino and Tagalog. -/
def firstOfCebuano : Closure × Nat × Nat × NumberPlace := (cardinalFn9, 0, 0, .value)

/-- The places of a function in the lists. -/
def knownPlaces (f : Closure) : List (Nat × Nat × NumberPlace) :=
  (numberWitnesses.filter fun y => y.1 == f).map (fun y => (y.2.1, y.2.2.1, y.2.2.2.1)) ++
    (modulusWitnesses.filter fun y => y.1 == f).map (fun y => (y.2.1, y.2.2.1, .modulus)) ++
    (looseNumbers.filter fun y => y.1 == f).map (fun y => (y.2.1, y.2.2.1, y.2.2.2.1)) ++
    if f == cardinalFn9 then [(0, 0, .value)] else []

theorem all_numbers_known : (tellingApart.all fun z => (allNumbers z.1).all fun x => (knownPlaces z.1).contains x) = true := by decide +kernel

theorem mem_allNumbers {f : Closure} {j k : Nat} {arm : RExpr × PluralCategory} (ha : f.arms[j]? = some arm) (hk : k < testsIn arm.1) (p : NumberPlace)
    (c : Nat) (hc : numberOf p (testAt arm.1 k) = some c) : (j, k, p) ∈ allNumbers f := by
  refine List.mem_flatMap.2 ⟨j, List.mem_range.2 (List.getElem?_eq_some_iff.1 ha).1, List.mem_flatMap.2 ⟨k, ?_, List.mem_flatMap.2 ⟨p, ?_, ?_⟩⟩⟩
  · rw [ha]; exact List.mem_range.2 hk
  · cases p <;> simp
  · rw [ha]; simp [hc]

theorem select_differs (pr : PluralRules) (j k : Nat) (p : NumberPlace) (v : Nat) (s : Str) (h : Differs pr.function j k p v s) :
    select (changeRules pr j k p v) (tryFromStr s) ≠ select pr (tryFromStr s) := by
  obtain ⟨po, hp, h⟩ := h
  rw [hp]
  unfold select changeRules
  simp only
  cases h3 : (changeIn pr.function j k p v).call po <;> cases h4 : pr.function.call po <;> simp_all

/-- The text `1.0…04` with `v` fraction digits. -/
def fourAt (v : Nat) : Str := decText [1] (List.replicate (v - 1) 0 ++ [4])

theorem cebuano_differs (v : Nat) (hv : v ≠ 0) : Differs cardinalFn9 0 0 .value v (fourAt v) := by
  have hf : digitsNum (List.replicate (v - 1) (0 : Fin 10) ++ [4]) = 4 := by rw [digitsNum_leading]; rfl
  obtain ⟨po, hp, ho, -⟩ := C11_decimal [] (.inl rfl) [1] (List.replicate (v - 1) 0 ++ [4]) (by simp) (by simp) (by decide) (by rw [hf]; norm_num)
  refine ⟨po, hp, ?_⟩
  have hi : po.i = 1 := ho.i
  have hv' : po.v = v := by
    rw [ho.v]
    simp [decOf, Dec.v]
    omega
  have hf' : po.f = 4 := by rw [ho.f]; exact hf
  rw [call_change po cardinalFn9 0 0 .value v true _ rfl (by
    simp [testAt, testsIn, withNumber, RExpr.eval, readField, hv', cmpInt])]
  rw [call_firstB po _ (by decide +kernel), call_firstB po _ (by decide +kernel)]
  simp [fixIn, List.modify, List.modifyTailIdx, List.modifyTailIdx.go, List.modifyHead, fixTest, testsIn, always, cardinalFn9, firstB, exprHolds, numOf, cmpInt,
    hi, hv', hf', hv]

/-- What is known of each number. -/
theorem number_cases (t : PluralRuleType) (id : LangId) (pr : PluralRules) (h : create id t = .ok pr) (j k : Nat) (arm : RExpr × PluralCategory)
    (ha : pr.function.arms[j]? = some arm) (hk : k < testsIn arm.1) (p : NumberPlace) (c : Nat) (hc : numberOf p (testAt arm.1 k) = some c) :
    (∀ v, v ≠ c → ∃ s ∈ numberTexts, select (changeRules pr j k p v) (tryFromStr s) ≠ select pr (tryFromStr s)) ∨
    Loose pr.function j k p ∨ (pr.function, j, k, p) = firstOfCebuano := by
  obtain ⟨⟨g, ws0⟩, hg, hgf⟩ := List.any_eq_true.1 (List.all_eq_true.1 functions_checked _ (function_mem h))
  simp only [beq_iff_eq] at hgf
  have h1 := List.all_eq_true.1 (List.all_eq_true.1 all_numbers_known _ hg) (j, k, p) (by rw [hgf]; exact mem_allNumbers ha hk p c hc)
  simp only [knownPlaces, hgf, List.contains_iff_mem, List.mem_append, List.mem_map, List.mem_filter, beq_iff_eq, Prod.mk.injEq] at h1
  rcases h1 with ((⟨⟨f, j', k', p', s, s'⟩, ⟨hy, rfl⟩, rfl, rfl, rfl⟩ | ⟨⟨f, j', k', x, r, s, ws⟩, ⟨hy, rfl⟩, rfl, rfl, rfl⟩) |
    ⟨⟨f, j', k', p', v⟩, ⟨hy, rfl⟩, rfl, rfl, rfl⟩) | h1
  · left
    intro v hv
    have hw := List.all_eq_true.1 witnesses_checked _ hy
    simp only [Bool.and_eq_true, Bool.or_eq_true, List.contains_iff_mem, beq_iff_eq, ha] at hw
    obtain ⟨⟨hs, hs'⟩, hw⟩ := hw
    rcases pinned_differs _ _ _ _ arm ha s s' hw c hc v hv with hd | hd
    · exact ⟨s, hs, select_differs pr _ _ _ v s hd⟩
    · refine ⟨s', hs'.resolve_left ?_, select_differs pr _ _ _ v s' hd⟩
      rintro rfl
      obtain ⟨po, hp, -⟩ := hd
      have : (tryFromStr []).isOk = false := by decide +kernel
      rw [hp] at this
      cases this
  · left
    intro v hv
    have hw := List.all_eq_true.1 moduli_checked _ hy
    simp only [Bool.and_eq_true, List.all_eq_true, List.contains_iff_mem, ha] at hw
    obtain ⟨s', hs', hd⟩ := modulus_differs _ _ _ x r s ws arm ha hw.2 c hc v hv
    exact ⟨s', hw.1 s' hs', select_differs pr _ _ _ v s' hd⟩
  · exact .inr (.inl ⟨v, hy⟩)
  · right; right
    split_ifs at h1 with h2
    · obtain ⟨rfl, rfl, rfl⟩ := Prod.mk.injEq .. ▸ List.mem_singleton.1 h1
      rw [h2]
      rfl
    · cases h1

/-- C119: a number in a function of the tables that is not loose, any other number in its place changes the answer for one of the texts. -/
theorem C119_texts (t : PluralRuleType) (id : LangId) (pr : PluralRules) (h : create id t = .ok pr) (j k : Nat) (arm : RExpr × PluralCategory)
    (ha : pr.function.arms[j]? = some arm) (hk : k < testsIn arm.1) (p : NumberPlace) (c : Nat) (hc : numberOf p (testAt arm.1 k) = some c)
    (hl : ¬ Loose pr.function j k p) (v : Nat) (hv : v ≠ c) :
    ∃ s, (s ∈ numberTexts ∨ ((pr.function, j, k, p) = firstOfCebuano ∧ s = fourAt v)) ∧
      select (changeRules pr j k p v) (tryFromStr s) ≠ select pr (tryFromStr s) := by
  rcases number_cases t id pr h j k arm ha hk p c hc with h1 | h1 | h1
  · obtain ⟨s, hs, h2⟩ := h1 v hv
    exact ⟨s, .inl hs, h2⟩
  · exact absurd h1 hl
  · refine ⟨fourAt v, .inr ⟨h1, rfl⟩, select_differs pr j k p v _ ?_⟩
    simp only [firstOfCebuano, Prod.mk.injEq] at h1
    obtain ⟨h1, rfl, rfl, rfl⟩ := h1
    rw [h1] at ha ⊢
    cases ha
    cases hc
    exact cebuano_differs v hv

theorem select_change (pr : PluralRules) (j k : Nat) (p : NumberPlace) (v : Nat) (h : (pr.function, j, k, p, v) ∈ looseNumbers)
    (ops : Except OpsErr PluralOperands) (ho : ∀ po, ops = .ok po → InputFacts (fun k => Flt.eq po.n (Flt.ofNat b64 k)) po ∧ (po.v = 2 → po.f < 100)) :
    select (changeRules pr j k p v) ops = select pr ops := by
  cases ops with
  | error e => rfl
  | ok po =>
    have := loose_call _ j k p v h po (ho po rfl).1 (ho po rfl).2
    unfold select
    simp only [changeRules, this]

theorem text_two (s : Str) (po : PluralOperands) (h : tryFromStr s = .ok po) :
    InputFacts (fun k => Flt.eq po.n (Flt.ofNat b64 k)) po ∧ (po.v = 2 → po.f < 100) := by
  refine ⟨text_facts s po h, fun hv => ?_⟩
  have := (C16_consistent s po h).f_lt
  rw [hv] at this
  omega

/-- C119: with the other number in the place of a loose one, `select` gives the same for every text, integer and float. -/
theorem C119_loose (pr : PluralRules) (j k : Nat) (p : NumberPlace) (v : Nat) (h : (pr.function, j, k, p, v) ∈ looseNumbers) :
    (∀ s, select (changeRules pr j k p v) (tryFromStr s) = select pr (tryFromStr s)) ∧
    (∀ x, select (ε := OpsErr) (changeRules pr j k p v) (.ok (fromUnsigned x)) = select (ε := OpsErr) pr (.ok (fromUnsigned x))) ∧
    (∀ bits x, select (changeRules pr j k p v) (tryFromSigned bits x) = select pr (tryFromSigned bits x)) ∧
    ∀ F x, select (changeRules pr j k p v) (tryFromFloat F x) = select pr (tryFromFloat F x) := by
  refine ⟨fun s => select_change pr j k p v h _ (text_two s), fun x => select_change pr j k p v h _ ?_,
    fun bits x => select_change pr j k p v h _ ?_, fun F x => select_change pr j k p v h _ (text_two _)⟩
  · intro po hp
    rw [← Except.ok.inj hp]
    exact ⟨integer_facts x, fun _ => by norm_num [fromUnsigned]⟩
  · intro po hp
    unfold tryFromSigned at hp
    simp only at hp
    split_ifs at hp
    rw [← Except.ok.inj hp]
    exact ⟨integer_facts _, fun _ => by norm_num⟩

theorem loose_other (f : Closure) (j k : Nat) (p : NumberPlace) (v : Nat) (h : (f, j, k, p, v) ∈ looseNumbers) (arm : RExpr × PluralCategory)
    (ha : f.arms[j]? = some arm) (c : Nat) (hc : numberOf p (testAt arm.1 k) = some c) : v ≠ c := by
  have ht := List.all_eq_true.1 loose_tame _ h
  simp only [Bool.and_eq_true, ha, bne_iff_ne, ne_eq] at ht
  rintro rfl
  exact ht.2 hc

/-- C119: exactly which numbers in the functions of the tables are not pinned down by the answers. -/
theorem C119_numbers (t : PluralRuleType) (id : LangId) (pr : PluralRules) (h : create id t = .ok pr) (j k : Nat) (arm : RExpr × PluralCategory)
    (ha : pr.function.arms[j]? = some arm) (hk : k < testsIn arm.1) (p : NumberPlace) (c : Nat) (hc : numberOf p (testAt arm.1 k) = some c) :
    (∃ v, v ≠ c ∧ ∀ s, select (changeRules pr j k p v) (tryFromStr s) = select pr (tryFromStr s)) ↔ Loose pr.function j k p := by
  constructor
  · rintro ⟨v, hv, hall⟩
    by_contra hl
    obtain ⟨s, -, h2⟩ := C119_texts t id pr h j k arm ha hk p c hc hl v hv
    exact h2 (hall s)
  · rintro ⟨v, hv⟩
    exact ⟨v, loose_other _ j k p v hv arm ha c hc, (C119_loose pr j k p v hv).1⟩

/-- C119: the functions have 560 numbers, of which 70 are loose. -/
theorem C119_count : tellingApart.length = 59 ∧ (tellingApart.map fun y => (allNumbers y.1).length).sum = 560 ∧ looseNumbers.length = 70 ∧
    (looseNumbers.map fun x => (x.1, x.2.1, x.2.2.1, x.2.2.2.1)).Nodup ∧ numberTexts.length = 156 := by decide +kernel

/-! ## Examples -/

/-- Polish MANY: `(12..=14).contains(&(po.i % 100))` could be `(11..=14)`, as 11 is in MANY already. -/
example : (create (bareLanguage c!"pl") .CARDINAL).toOption.map (·.function) = some cardinalFn29 ∧ (cardinalFn29, 1, 6, .low, 11) ∈ looseNumbers ∧
    (cardinalFn29.arms[1]?.bind fun a => numberOf .low (testAt a.1 6)) = some 12 := by decide +kernel

/-- English `po.i == 1`: with any other number 1 would be OTHER. -/
example : (create (bareLanguage c!"en") .CARDINAL).toOption.map (·.function) = some cardinalFn4 ∧ (∀ v, (cardinalFn4, 0, 0, .value, v) ∉ looseNumbers) ∧
    (cardinalFn4.arms[0]?.bind fun a => numberOf .value (testAt a.1 0)) = some 1 := by
  refine ⟨by decide +kernel, fun v h => ?_, by decide +kernel⟩
  have : (looseNumbers.all fun x => x.1 != cardinalFn4) = true := by decide +kernel
  have := List.all_eq_true.1 this _ h
  simp at this

/-- Russian ONE: `po.i % 10 == 1` could be `po.i % 5 == 1`, as 6 is MANY before; `po.i % 100 != 11` could be `po.i % 10 != 11`. -/
example : (create (bareLanguage c!"ru") .CARDINAL).toOption.map (·.function) = some cardinalFn31 ∧ (cardinalFn31, 2, 1, .modulus, 5) ∈ looseNumbers ∧
    (cardinalFn31, 2, 2, .modulus, 10) ∈ looseNumbers ∧ (cardinalFn31.arms[2]?.bind fun a => numberOf .modulus (testAt a.1 1)) = some 10 := by decide +kernel

/-- `69e-1` has i = 6 and no fraction digits, but another n than 6; it shows a change of `(7..=9)` in the ordinals of Odia. -/
example : ((tryFromStr c!"69e-1").toOption.map fun po => (po.i, po.f)) = some (6, 0) ∧
    ((tryFromStr c!"69e-1").toOption.bind ordinalFn18.call) = some .OTHER ∧
    ((tryFromStr c!"69e-1").toOption.bind (changeIn ordinalFn18 2 2 .low 6).call) = some .ONE := by decide +kernel

end Verif.Props
