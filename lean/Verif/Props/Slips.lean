import Verif.Props.Pinned

/-!
# C120: slips in one place of rules.rs
-/

namespace Verif.Props
open Verif Api Rust PluralOperands RulesTable Verif.Grammar Uts35 Spec Strings Sem

/-- A slip in one place of a function.  Conditions, tests, and the `&&` and `||` in a condition are counted from 0. -/
inductive Slip where
  /-- The `k`th test of the `j`th condition is negated: `==` becomes `!=` and so on. -/
  | sign (j k : Nat)
  /-- The `k`th `&&` or `||` of the `j`th condition becomes the other one. -/
  | join (j k : Nat)
  /-- The `k`th test of the `j`th condition has the operand `x`. -/
  | operand (j k : Nat) (x : Operand)
  /-- The `j`th condition gives `c`. -/
  | category (j : Nat) (c : PluralCategory)
  /-- The `j`th condition is left out. -/
  | drop (j : Nat)
  /-- Where no condition holds, the function gives `c`. -/
  | last (c : PluralCategory)
  deriving DecidableEq, Repr

/-- The literal that an operand is compared with: `n` is a float. -/
def literalFor : Operand → Nat → RExpr
  | .N, c => .flt c
  | _, c => .int c

/-- The test with another operand. -/
def withOperand (x : Operand) : RExpr → RExpr
  | .cmp op (.field _) (.int c) => .cmp op (.field x) (literalFor x c)
  | .cmp op (.field _) (.flt c) => .cmp op (.field x) (literalFor x c)
  | .cmp op (.rem (.field _) m) b => .cmp op (.rem (.field x) m) b
  | .contains lo hi (.field _) => .contains lo hi (.field x)
  | .contains lo hi (.rem (.field _) m) => .contains lo hi (.rem (.field x) m)
  | e => e

/-- The operand can stand in the test and is not there: `n` has no remainders by integers and is in no range of integers, which would not compile. -/
def operandFits (x : Operand) : RExpr → Bool
  | .cmp _ (.field y) _ => x != y
  | .cmp _ (.rem (.field y) _) _ => x != y && x != .N
  | .contains _ _ (.field y) => x != y && x != .N
  | .contains _ _ (.rem (.field y) _) => x != y && x != .N
  | _ => false

/-- The condition with `g` done to its `k`th test. -/
def onTest (g : RExpr → RExpr) : RExpr → Nat → RExpr
  | .and x y, k => if k < testsIn x then .and (onTest g x k) y else .and x (onTest g y (k - testsIn x))
  | .or x y, k => if k < testsIn x then .or (onTest g x k) y else .or x (onTest g y (k - testsIn x))
  | .not x, k => .not (onTest g x k)
  | e, _ => g e

/-- The condition with its `k`th `&&` or `||` changed; it stands between the tests `k` and `k + 1`. -/
def changeJoin : RExpr → Nat → RExpr
  | .and x y, k => if k + 1 < testsIn x then .and (changeJoin x k) y else if k + 1 = testsIn x then .or x y else .and x (changeJoin y (k - testsIn x))
  | .or x y, k => if k + 1 < testsIn x then .or (changeJoin x k) y else if k + 1 = testsIn x then .and x y else .or x (changeJoin y (k - testsIn x))
  | .not x, k => .not (changeJoin x k)
  | e, _ => e

/-- The function with the slip. -/
def Slip.in (f : Closure) : Slip → Closure
  | .sign j k => { f with arms := f.arms.modify j fun a => (onTest .not a.1 k, a.2) }
  | .join j k => { f with arms := f.arms.modify j fun a => (changeJoin a.1 k, a.2) }
  | .operand j k x => { f with arms := f.arms.modify j fun a => (onTest (withOperand x) a.1 k, a.2) }
  | .category j c => { f with arms := f.arms.modify j fun a => (a.1, c) }
  | .drop j => { f with arms := f.arms.eraseIdx j }
  | .last c => { f with last := c }

/-- There is such a place in the function, and the slip puts something else there. -/
def Slip.Fits (f : Closure) : Slip → Prop
  | .sign j k => ∃ a, f.arms[j]? = some a ∧ k < testsIn a.1
  | .join j k => ∃ a, f.arms[j]? = some a ∧ k + 1 < testsIn a.1
  | .operand j k x => ∃ a, f.arms[j]? = some a ∧ k < testsIn a.1 ∧ operandFits x (testAt a.1 k) = true
  | .category j c => ∃ a, f.arms[j]? = some a ∧ c ≠ a.2
  | .drop j => j < f.arms.length
  | .last c => c ≠ f.last

/-- The rules of a locale with a slip. -/
def slipRules (pr : PluralRules) (s : Slip) : PluralRules := { pr with function := s.in pr.function }

/-- The texts that show the slips. -/
def slipTexts : List Str :=
  [c!"0.0", c!"0.1", c!"0.10", c!"0.4", c!"5e-1", c!"0.90", c!"1", c!"1.0", c!"0.9999999999999999999", c!"15e-1", c!"1.6", c!"2", c!"2.0", c!"2.12",
   c!"25e-1", c!"3.00", c!"3.10", c!"4", c!"4.000000000001", c!"4.9999999999999999999", c!"6", c!"5.9999999999999999999", c!"7.0", c!"7.4", c!"7.40",
   c!"8", c!"8.11", c!"9", c!"9.15", c!"9.60", c!"10", c!"10.3", c!"11.0000", c!"11.9999999999999999999", c!"13.0", c!"13.1", c!"14.42", c!"17.62",
   c!"18.21", c!"20", c!"20.0", c!"21", c!"22.110000", c!"23", c!"40", c!"41.9", c!"42", c!"43", c!"50", c!"60", c!"61", c!"62", c!"63", c!"70",
   c!"71", c!"72", c!"79", c!"80", c!"805e-1", c!"81.71", c!"82", c!"83", c!"90", c!"91.20", c!"92", c!"99.23", c!"100.61", c!"111", c!"200",
   c!"300", c!"400", c!"500", c!"600", c!"700", c!"800", c!"8005e-1", c!"900", c!"1112", c!"7000", c!"40000", c!"60000", c!"80000", c!"100000",
   c!"2000000"]

/-- The slips that change no answer. -/
def harmlessSlips : List (Closure × Slip) :=
  [(cardinalFn1, .operand 0 1 .W), (cardinalFn1, .operand 0 1 .T), (cardinalFn8, .operand 0 4 .T), (cardinalFn8, .operand 1 4 .T),
   (cardinalFn9, .join 0 1), (cardinalFn9, .join 0 2), (cardinalFn9, .operand 0 0 .N), (cardinalFn9, .operand 0 0 .I),
   (cardinalFn9, .operand 0 0 .W), (cardinalFn9, .operand 0 0 .F), (cardinalFn9, .operand 0 0 .T), (cardinalFn9, .operand 0 1 .N),
   (cardinalFn9, .operand 0 1 .V), (cardinalFn9, .operand 0 1 .W), (cardinalFn9, .operand 0 1 .F), (cardinalFn9, .operand 0 1 .T),
   (cardinalFn9, .operand 0 2 .N), (cardinalFn9, .operand 0 2 .V), (cardinalFn9, .operand 0 2 .W), (cardinalFn9, .operand 0 2 .F),
   (cardinalFn9, .operand 0 2 .T), (cardinalFn9, .operand 0 3 .N), (cardinalFn9, .operand 0 3 .V), (cardinalFn9, .operand 0 3 .W),
   (cardinalFn9, .operand 0 3 .F), (cardinalFn9, .operand 0 3 .T), (cardinalFn9, .operand 0 4 .W), (cardinalFn9, .operand 0 4 .F),
   (cardinalFn9, .operand 0 4 .T), (cardinalFn10, .operand 2 1 .W), (cardinalFn10, .operand 2 1 .F), (cardinalFn10, .operand 2 1 .T),
   (cardinalFn12, .operand 0 1 .W), (cardinalFn12, .operand 0 1 .F), (cardinalFn15, .operand 0 1 .W), (cardinalFn15, .operand 0 1 .T),
   (cardinalFn15, .operand 1 1 .W), (cardinalFn15, .operand 1 1 .T), (cardinalFn16, .operand 0 1 .W), (cardinalFn16, .operand 0 1 .T),
   (cardinalFn16, .operand 0 3 .W), (cardinalFn16, .operand 0 3 .T), (cardinalFn17, .operand 2 0 .W), (cardinalFn17, .operand 2 0 .F),
   (cardinalFn17, .operand 2 0 .T), (cardinalFn17, .operand 3 0 .W), (cardinalFn17, .operand 3 0 .F), (cardinalFn17, .operand 3 0 .T),
   (cardinalFn18, .operand 0 2 .V), (cardinalFn18, .operand 0 2 .W), (cardinalFn18, .operand 0 2 .T), (cardinalFn19, .operand 0 0 .W),
   (cardinalFn19, .operand 0 0 .F), (cardinalFn19, .operand 0 3 .W), (cardinalFn19, .operand 0 3 .F), (cardinalFn22, .operand 3 10 .I),
   (cardinalFn23, .operand 1 0 .I), (cardinalFn24, .operand 1 0 .W), (cardinalFn24, .operand 1 0 .T), (cardinalFn25, .operand 0 2 .W),
   (cardinalFn25, .operand 0 4 .T), (cardinalFn25, .operand 0 5 .W), (cardinalFn25, .operand 1 2 .W), (cardinalFn25, .operand 1 3 .T),
   (cardinalFn26, .operand 0 4 .T), (cardinalFn27, .operand 1 1 .W), (cardinalFn27, .operand 1 1 .F), (cardinalFn27, .operand 1 1 .T),
   (cardinalFn29, .operand 1 2 .V), (cardinalFn29, .operand 1 2 .W), (cardinalFn29, .operand 1 2 .F), (cardinalFn29, .operand 1 2 .T),
   (cardinalFn31, .operand 2 2 .V), (cardinalFn31, .operand 2 2 .W), (cardinalFn31, .operand 2 2 .F), (cardinalFn31, .operand 2 2 .T),
   (cardinalFn32, .operand 0 1 .W), (cardinalFn32, .operand 0 1 .T), (cardinalFn34, .operand 0 0 .W), (cardinalFn34, .operand 0 0 .F),
   (cardinalFn34, .operand 0 0 .T), (cardinalFn34, .operand 1 0 .W), (cardinalFn34, .operand 1 0 .F), (cardinalFn34, .operand 1 0 .T),
   (cardinalFn34, .operand 2 0 .W), (cardinalFn34, .operand 2 0 .F), (cardinalFn34, .operand 2 0 .T), (cardinalFn35, .operand 0 1 .W),
   (cardinalFn35, .operand 0 1 .T), (cardinalFn35, .operand 0 3 .W), (cardinalFn35, .operand 0 3 .T), (ordinalFn14, .operand 1 0 .W),
   (ordinalFn14, .operand 1 0 .F), (ordinalFn14, .operand 1 0 .T), (ordinalFn14, .sign 1 1), (ordinalFn14, .operand 1 1 .N),
   (ordinalFn14, .operand 1 1 .I), (ordinalFn14, .operand 1 1 .V), (ordinalFn14, .operand 1 1 .W), (ordinalFn14, .operand 1 1 .T),
   (ordinalFn17, .operand 0 1 .W), (ordinalFn17, .operand 0 1 .T), (ordinalFn18, .operand 2 3 .W), (ordinalFn18, .operand 2 3 .T)]

/-! ## Slips that change no answer -/

/-- What the fraction operands of all inputs have: `w` and `t` are without the zeros at the end. -/
structure FractionFacts (po : PluralOperands) : Prop where
  w_zero : po.w = 0 ↔ po.f = 0
  t_zero : po.t = 0 ↔ po.f = 0
  end_ : po.f % 10 ≠ 0 → po.w = po.v
  same : po.w = po.v → po.t = po.f
  two : po.v = 2 → po.w = po.v ∨ po.t < 10

/-- The function with the slip has the same values. -/
def Harmless (f : Closure) (s : Slip) : Prop := ∀ E po, InputFacts E po → FractionFacts po →
  firstWith E po (s.in f).arms (s.in f).last = firstWith E po f.arms f.last

syntax "harmless" ident : tactic
macro_rules
  | `(tactic| harmless $x) => `(tactic| (
      intro E po h h5
      obtain ⟨n, i, v, w, f, t⟩ := po
      obtain ⟨h1, h2, h3, -⟩ := h
      obtain ⟨h6, h7, h8, h9, h10⟩ := h5
      simp only at h1 h3 h6 h7 h8 h9 h10
      have e0 := h1 0 (by norm_num)
      have e1 := h1 1 (by norm_num)
      have e2 := h1 2 (by norm_num)
      have e3 := h1 3 (by norm_num)
      clear h1 h2
      simp [Slip.in, List.modify, List.modifyTailIdx, List.modifyTailIdx.go, List.modifyHead, onTest, changeJoin, withOperand, literalFor, testsIn, $x:ident,
        firstWith, valueWith, numOf, cmpInt, h6, h7]
      try first | done | grind | (split_ifs <;> first | rfl | omega)))

theorem same_c1_op_0_1_W : Harmless cardinalFn1 (.operand 0 1 .W) := by harmless cardinalFn1
theorem same_c1_op_0_1_T : Harmless cardinalFn1 (.operand 0 1 .T) := by harmless cardinalFn1
theorem same_c8_op_0_4_T : Harmless cardinalFn8 (.operand 0 4 .T) := by harmless cardinalFn8
theorem same_c8_op_1_4_T : Harmless cardinalFn8 (.operand 1 4 .T) := by harmless cardinalFn8
theorem same_c9_join_0_1 : Harmless cardinalFn9 (.join 0 1) := by harmless cardinalFn9
theorem same_c9_join_0_2 : Harmless cardinalFn9 (.join 0 2) := by harmless cardinalFn9
theorem same_c9_op_0_0_N : Harmless cardinalFn9 (.operand 0 0 .N) := by harmless cardinalFn9
theorem same_c9_op_0_0_I : Harmless cardinalFn9 (.operand 0 0 .I) := by harmless cardinalFn9
theorem same_c9_op_0_0_W : Harmless cardinalFn9 (.operand 0 0 .W) := by harmless cardinalFn9
theorem same_c9_op_0_0_F : Harmless cardinalFn9 (.operand 0 0 .F) := by harmless cardinalFn9
theorem same_c9_op_0_0_T : Harmless cardinalFn9 (.operand 0 0 .T) := by harmless cardinalFn9
theorem same_c9_op_0_1_N : Harmless cardinalFn9 (.operand 0 1 .N) := by harmless cardinalFn9
theorem same_c9_op_0_1_V : Harmless cardinalFn9 (.operand 0 1 .V) := by harmless cardinalFn9
theorem same_c9_op_0_1_W : Harmless cardinalFn9 (.operand 0 1 .W) := by harmless cardinalFn9
theorem same_c9_op_0_1_F : Harmless cardinalFn9 (.operand 0 1 .F) := by harmless cardinalFn9
theorem same_c9_op_0_1_T : Harmless cardinalFn9 (.operand 0 1 .T) := by harmless cardinalFn9
theorem same_c9_op_0_2_N : Harmless cardinalFn9 (.operand 0 2 .N) := by harmless cardinalFn9
theorem same_c9_op_0_2_V : Harmless cardinalFn9 (.operand 0 2 .V) := by harmless cardinalFn9
theorem same_c9_op_0_2_W : Harmless cardinalFn9 (.operand 0 2 .W) := by harmless cardinalFn9
theorem same_c9_op_0_2_F : Harmless cardinalFn9 (.operand 0 2 .F) := by harmless cardinalFn9
theorem same_c9_op_0_2_T : Harmless cardinalFn9 (.operand 0 2 .T) := by harmless cardinalFn9
theorem same_c9_op_0_3_N : Harmless cardinalFn9 (.operand 0 3 .N) := by harmless cardinalFn9
theorem same_c9_op_0_3_V : Harmless cardinalFn9 (.operand 0 3 .V) := by harmless cardinalFn9
theorem same_c9_op_0_3_W : Harmless cardinalFn9 (.operand 0 3 .W) := by harmless cardinalFn9
theorem same_c9_op_0_3_F : Harmless cardinalFn9 (.operand 0 3 .F) := by harmless cardinalFn9
theorem same_c9_op_0_3_T : Harmless cardinalFn9 (.operand 0 3 .T) := by harmless cardinalFn9
theorem same_c9_op_0_4_W : Harmless cardinalFn9 (.operand 0 4 .W) := by harmless cardinalFn9
theorem same_c9_op_0_4_F : Harmless cardinalFn9 (.operand 0 4 .F) := by harmless cardinalFn9
theorem same_c9_op_0_4_T : Harmless cardinalFn9 (.operand 0 4 .T) := by harmless cardinalFn9
theorem same_c10_op_2_1_W : Harmless cardinalFn10 (.operand 2 1 .W) := by harmless cardinalFn10
theorem same_c10_op_2_1_F : Harmless cardinalFn10 (.operand 2 1 .F) := by harmless cardinalFn10
theorem same_c10_op_2_1_T : Harmless cardinalFn10 (.operand 2 1 .T) := by harmless cardinalFn10
theorem same_c12_op_0_1_W : Harmless cardinalFn12 (.operand 0 1 .W) := by harmless cardinalFn12
theorem same_c12_op_0_1_F : Harmless cardinalFn12 (.operand 0 1 .F) := by harmless cardinalFn12
theorem same_c15_op_0_1_W : Harmless cardinalFn15 (.operand 0 1 .W) := by harmless cardinalFn15
theorem same_c15_op_0_1_T : Harmless cardinalFn15 (.operand 0 1 .T) := by harmless cardinalFn15
theorem same_c15_op_1_1_W : Harmless cardinalFn15 (.operand 1 1 .W) := by harmless cardinalFn15
theorem same_c15_op_1_1_T : Harmless cardinalFn15 (.operand 1 1 .T) := by harmless cardinalFn15
theorem same_c16_op_0_1_W : Harmless cardinalFn16 (.operand 0 1 .W) := by harmless cardinalFn16
theorem same_c16_op_0_1_T : Harmless cardinalFn16 (.operand 0 1 .T) := by harmless cardinalFn16
theorem same_c16_op_0_3_W : Harmless cardinalFn16 (.operand 0 3 .W) := by harmless cardinalFn16
theorem same_c16_op_0_3_T : Harmless cardinalFn16 (.operand 0 3 .T) := by harmless cardinalFn16
theorem same_c17_op_2_0_W : Harmless cardinalFn17 (.operand 2 0 .W) := by harmless cardinalFn17
theorem same_c17_op_2_0_F : Harmless cardinalFn17 (.operand 2 0 .F) := by harmless cardinalFn17
theorem same_c17_op_2_0_T : Harmless cardinalFn17 (.operand 2 0 .T) := by harmless cardinalFn17
theorem same_c17_op_3_0_W : Harmless cardinalFn17 (.operand 3 0 .W) := by harmless cardinalFn17
theorem same_c17_op_3_0_F : Harmless cardinalFn17 (.operand 3 0 .F) := by harmless cardinalFn17
theorem same_c17_op_3_0_T : Harmless cardinalFn17 (.operand 3 0 .T) := by harmless cardinalFn17
theorem same_c18_op_0_2_V : Harmless cardinalFn18 (.operand 0 2 .V) := by harmless cardinalFn18
theorem same_c18_op_0_2_W : Harmless cardinalFn18 (.operand 0 2 .W) := by harmless cardinalFn18
theorem same_c18_op_0_2_T : Harmless cardinalFn18 (.operand 0 2 .T) := by harmless cardinalFn18
theorem same_c19_op_0_0_W : Harmless cardinalFn19 (.operand 0 0 .W) := by harmless cardinalFn19
theorem same_c19_op_0_0_F : Harmless cardinalFn19 (.operand 0 0 .F) := by harmless cardinalFn19
theorem same_c19_op_0_3_W : Harmless cardinalFn19 (.operand 0 3 .W) := by harmless cardinalFn19
theorem same_c19_op_0_3_F : Harmless cardinalFn19 (.operand 0 3 .F) := by harmless cardinalFn19
theorem same_c22_op_3_10_I : Harmless cardinalFn22 (.operand 3 10 .I) := by
  intro E po h h5
  obtain ⟨n, i, v, w, f, t⟩ := po
  have e0 := h.int 0 (by norm_num)
  simp only at e0
  have key : (E 0 = false ∧ i % 1000000 = 100000) ↔ i % 1000000 = 100000 := by
    refine ⟨And.right, fun h => ⟨?_, h⟩⟩
    rw [← Bool.not_eq_true]
    intro hE
    rcases e0 hE with h' | h' <;> omega
  have key2 : (¬ i = 0 ∧ i % 1000000 = 100000) ↔ i % 1000000 = 100000 := by omega
  simp [Slip.in, List.modify, List.modifyTailIdx, List.modifyTailIdx.go, List.modifyHead, onTest, withOperand, literalFor, testsIn, cardinalFn22, firstWith,
    valueWith, cmpInt]
  simp only [numOf]
  simp only [key, key2]
theorem same_c23_op_1_0_I : Harmless cardinalFn23 (.operand 1 0 .I) := by harmless cardinalFn23
theorem same_c24_op_1_0_W : Harmless cardinalFn24 (.operand 1 0 .W) := by harmless cardinalFn24
theorem same_c24_op_1_0_T : Harmless cardinalFn24 (.operand 1 0 .T) := by harmless cardinalFn24
theorem same_c25_op_0_2_W : Harmless cardinalFn25 (.operand 0 2 .W) := by harmless cardinalFn25
theorem same_c25_op_0_4_T : Harmless cardinalFn25 (.operand 0 4 .T) := by harmless cardinalFn25
theorem same_c25_op_0_5_W : Harmless cardinalFn25 (.operand 0 5 .W) := by harmless cardinalFn25
theorem same_c25_op_1_2_W : Harmless cardinalFn25 (.operand 1 2 .W) := by harmless cardinalFn25
theorem same_c25_op_1_3_T : Harmless cardinalFn25 (.operand 1 3 .T) := by harmless cardinalFn25
theorem same_c26_op_0_4_T : Harmless cardinalFn26 (.operand 0 4 .T) := by harmless cardinalFn26
theorem same_c27_op_1_1_W : Harmless cardinalFn27 (.operand 1 1 .W) := by harmless cardinalFn27
theorem same_c27_op_1_1_F : Harmless cardinalFn27 (.operand 1 1 .F) := by harmless cardinalFn27
theorem same_c27_op_1_1_T : Harmless cardinalFn27 (.operand 1 1 .T) := by harmless cardinalFn27
theorem same_c29_op_1_2_V : Harmless cardinalFn29 (.operand 1 2 .V) := by harmless cardinalFn29
theorem same_c29_op_1_2_W : Harmless cardinalFn29 (.operand 1 2 .W) := by harmless cardinalFn29
theorem same_c29_op_1_2_F : Harmless cardinalFn29 (.operand 1 2 .F) := by harmless cardinalFn29
theorem same_c29_op_1_2_T : Harmless cardinalFn29 (.operand 1 2 .T) := by harmless cardinalFn29
theorem same_c31_op_2_2_V : Harmless cardinalFn31 (.operand 2 2 .V) := by harmless cardinalFn31
theorem same_c31_op_2_2_W : Harmless cardinalFn31 (.operand 2 2 .W) := by harmless cardinalFn31
theorem same_c31_op_2_2_F : Harmless cardinalFn31 (.operand 2 2 .F) := by harmless cardinalFn31
theorem same_c31_op_2_2_T : Harmless cardinalFn31 (.operand 2 2 .T) := by harmless cardinalFn31
theorem same_c32_op_0_1_W : Harmless cardinalFn32 (.operand 0 1 .W) := by harmless cardinalFn32
theorem same_c32_op_0_1_T : Harmless cardinalFn32 (.operand 0 1 .T) := by harmless cardinalFn32
theorem same_c34_op_0_0_W : Harmless cardinalFn34 (.operand 0 0 .W) := by harmless cardinalFn34
theorem same_c34_op_0_0_F : Harmless cardinalFn34 (.operand 0 0 .F) := by harmless cardinalFn34
theorem same_c34_op_0_0_T : Harmless cardinalFn34 (.operand 0 0 .T) := by harmless cardinalFn34
theorem same_c34_op_1_0_W : Harmless cardinalFn34 (.operand 1 0 .W) := by harmless cardinalFn34
theorem same_c34_op_1_0_F : Harmless cardinalFn34 (.operand 1 0 .F) := by harmless cardinalFn34
theorem same_c34_op_1_0_T : Harmless cardinalFn34 (.operand 1 0 .T) := by harmless cardinalFn34
theorem same_c34_op_2_0_W : Harmless cardinalFn34 (.operand 2 0 .W) := by harmless cardinalFn34
theorem same_c34_op_2_0_F : Harmless cardinalFn34 (.operand 2 0 .F) := by harmless cardinalFn34
theorem same_c34_op_2_0_T : Harmless cardinalFn34 (.operand 2 0 .T) := by harmless cardinalFn34
theorem same_c35_op_0_1_W : Harmless cardinalFn35 (.operand 0 1 .W) := by harmless cardinalFn35
theorem same_c35_op_0_1_T : Harmless cardinalFn35 (.operand 0 1 .T) := by harmless cardinalFn35
theorem same_c35_op_0_3_W : Harmless cardinalFn35 (.operand 0 3 .W) := by harmless cardinalFn35
theorem same_c35_op_0_3_T : Harmless cardinalFn35 (.operand 0 3 .T) := by harmless cardinalFn35
theorem same_o14_op_1_0_W : Harmless ordinalFn14 (.operand 1 0 .W) := by harmless ordinalFn14
theorem same_o14_op_1_0_F : Harmless ordinalFn14 (.operand 1 0 .F) := by harmless ordinalFn14
theorem same_o14_op_1_0_T : Harmless ordinalFn14 (.operand 1 0 .T) := by harmless ordinalFn14
theorem same_o14_neg_1_1 : Harmless ordinalFn14 (.sign 1 1) := by harmless ordinalFn14
theorem same_o14_op_1_1_N : Harmless ordinalFn14 (.operand 1 1 .N) := by harmless ordinalFn14
theorem same_o14_op_1_1_I : Harmless ordinalFn14 (.operand 1 1 .I) := by harmless ordinalFn14
theorem same_o14_op_1_1_V : Harmless ordinalFn14 (.operand 1 1 .V) := by harmless ordinalFn14
theorem same_o14_op_1_1_W : Harmless ordinalFn14 (.operand 1 1 .W) := by harmless ordinalFn14
theorem same_o14_op_1_1_T : Harmless ordinalFn14 (.operand 1 1 .T) := by harmless ordinalFn14
theorem same_o17_op_0_1_W : Harmless ordinalFn17 (.operand 0 1 .W) := by harmless ordinalFn17
theorem same_o17_op_0_1_T : Harmless ordinalFn17 (.operand 0 1 .T) := by harmless ordinalFn17
theorem same_o18_op_2_3_W : Harmless ordinalFn18 (.operand 2 3 .W) := by harmless ordinalFn18
theorem same_o18_op_2_3_T : Harmless ordinalFn18 (.operand 2 3 .T) := by harmless ordinalFn18

theorem harmless_same (f : Closure) (s : Slip) (h : (f, s) ∈ harmlessSlips) : Harmless f s := by
  intro E po hE h2
  simp only [harmlessSlips, List.mem_cons, List.not_mem_nil, or_false, Prod.mk.injEq] at h
  rcases h with ⟨rfl, rfl⟩ | ⟨rfl, rfl⟩ | ⟨rfl, rfl⟩ | ⟨rfl, rfl⟩ | ⟨rfl, rfl⟩ | ⟨rfl, rfl⟩ | ⟨rfl, rfl⟩ | ⟨rfl, rfl⟩ | ⟨rfl, rfl⟩ | ⟨rfl, rfl⟩ | ⟨rfl, rfl⟩ | ⟨rfl, rfl⟩ | ⟨rfl, rfl⟩ | ⟨rfl, rfl⟩ | ⟨rfl, rfl⟩ | ⟨rfl, rfl⟩ | ⟨rfl, rfl⟩ | ⟨rfl, rfl⟩ | ⟨rfl, rfl⟩ | ⟨rfl, rfl⟩ | ⟨rfl, rfl⟩ | ⟨rfl, rfl⟩ | ⟨rfl, rfl⟩ | ⟨rfl, rfl⟩ | ⟨rfl, rfl⟩ | ⟨rfl, rfl⟩ | ⟨rfl, rfl⟩ | ⟨rfl, rfl⟩ | ⟨rfl, rfl⟩ | ⟨rfl, rfl⟩ | ⟨rfl, rfl⟩ | ⟨rfl, rfl⟩ | ⟨rfl, rfl⟩ | ⟨rfl, rfl⟩ | ⟨rfl, rfl⟩ | ⟨rfl, rfl⟩ | ⟨rfl, rfl⟩ | ⟨rfl, rfl⟩ | ⟨rfl, rfl⟩ | ⟨rfl, rfl⟩ | ⟨rfl, rfl⟩ | ⟨rfl, rfl⟩ | ⟨rfl, rfl⟩ | ⟨rfl, rfl⟩ | ⟨rfl, rfl⟩ | ⟨rfl, rfl⟩ | ⟨rfl, rfl⟩ | ⟨rfl, rfl⟩ | ⟨rfl, rfl⟩ | ⟨rfl, rfl⟩ | ⟨rfl, rfl⟩ | ⟨rfl, rfl⟩ | ⟨rfl, rfl⟩ | ⟨rfl, rfl⟩ | ⟨rfl, rfl⟩ | ⟨rfl, rfl⟩ | ⟨rfl, rfl⟩ | ⟨rfl, rfl⟩ | ⟨rfl, rfl⟩ | ⟨rfl, rfl⟩ | ⟨rfl, rfl⟩ | ⟨rfl, rfl⟩ | ⟨rfl, rfl⟩ | ⟨rfl, rfl⟩ | ⟨rfl, rfl⟩ | ⟨rfl, rfl⟩ | ⟨rfl, rfl⟩ | ⟨rfl, rfl⟩ | ⟨rfl, rfl⟩ | ⟨rfl, rfl⟩ | ⟨rfl, rfl⟩ | ⟨rfl, rfl⟩ | ⟨rfl, rfl⟩ | ⟨rfl, rfl⟩ | ⟨rfl, rfl⟩ | ⟨rfl, rfl⟩ | ⟨rfl, rfl⟩ | ⟨rfl, rfl⟩ | ⟨rfl, rfl⟩ | ⟨rfl, rfl⟩ | ⟨rfl, rfl⟩ | ⟨rfl, rfl⟩ | ⟨rfl, rfl⟩ | ⟨rfl, rfl⟩ | ⟨rfl, rfl⟩ | ⟨rfl, rfl⟩ | ⟨rfl, rfl⟩ | ⟨rfl, rfl⟩ | ⟨rfl, rfl⟩ | ⟨rfl, rfl⟩ | ⟨rfl, rfl⟩ | ⟨rfl, rfl⟩ | ⟨rfl, rfl⟩ | ⟨rfl, rfl⟩ | ⟨rfl, rfl⟩ | ⟨rfl, rfl⟩ | ⟨rfl, rfl⟩ | ⟨rfl, rfl⟩ | ⟨rfl, rfl⟩ | ⟨rfl, rfl⟩ | ⟨rfl, rfl⟩ | ⟨rfl, rfl⟩ | ⟨rfl, rfl⟩ | ⟨rfl, rfl⟩
  · exact same_c1_op_0_1_W E po hE h2
  · exact same_c1_op_0_1_T E po hE h2
  · exact same_c8_op_0_4_T E po hE h2
  · exact same_c8_op_1_4_T E po hE h2
  · exact same_c9_join_0_1 E po hE h2
  · exact same_c9_join_0_2 E po hE h2
  · exact same_c9_op_0_0_N E po hE h2
  · exact same_c9_op_0_0_I E po hE h2
  · exact same_c9_op_0_0_W E po hE h2
  · exact same_c9_op_0_0_F E po hE h2
  · exact same_c9_op_0_0_T E po hE h2
  · exact same_c9_op_0_1_N E po hE h2
  · exact same_c9_op_0_1_V E po hE h2
  · exact same_c9_op_0_1_W E po hE h2
  · exact same_c9_op_0_1_F E po hE h2
  · exact same_c9_op_0_1_T E po hE h2
  · exact same_c9_op_0_2_N E po hE h2
  · exact same_c9_op_0_2_V E po hE h2
  · exact same_c9_op_0_2_W E po hE h2
  · exact same_c9_op_0_2_F E po hE h2
  · exact same_c9_op_0_2_T E po hE h2
  · exact same_c9_op_0_3_N E po hE h2
  · exact same_c9_op_0_3_V E po hE h2
  · exact same_c9_op_0_3_W E po hE h2
  · exact same_c9_op_0_3_F E po hE h2
  · exact same_c9_op_0_3_T E po hE h2
  · exact same_c9_op_0_4_W E po hE h2
  · exact same_c9_op_0_4_F E po hE h2
  · exact same_c9_op_0_4_T E po hE h2
  · exact same_c10_op_2_1_W E po hE h2
  · exact same_c10_op_2_1_F E po hE h2
  · exact same_c10_op_2_1_T E po hE h2
  · exact same_c12_op_0_1_W E po hE h2
  · exact same_c12_op_0_1_F E po hE h2
  · exact same_c15_op_0_1_W E po hE h2
  · exact same_c15_op_0_1_T E po hE h2
  · exact same_c15_op_1_1_W E po hE h2
  · exact same_c15_op_1_1_T E po hE h2
  · exact same_c16_op_0_1_W E po hE h2
  · exact same_c16_op_0_1_T E po hE h2
  · exact same_c16_op_0_3_W E po hE h2
  · exact same_c16_op_0_3_T E po hE h2
  · exact same_c17_op_2_0_W E po hE h2
  · exact same_c17_op_2_0_F E po hE h2
  · exact same_c17_op_2_0_T E po hE h2
  · exact same_c17_op_3_0_W E po hE h2
  · exact same_c17_op_3_0_F E po hE h2
  · exact same_c17_op_3_0_T E po hE h2
  · exact same_c18_op_0_2_V E po hE h2
  · exact same_c18_op_0_2_W E po hE h2
  · exact same_c18_op_0_2_T E po hE h2
  · exact same_c19_op_0_0_W E po hE h2
  · exact same_c19_op_0_0_F E po hE h2
  · exact same_c19_op_0_3_W E po hE h2
  · exact same_c19_op_0_3_F E po hE h2
  · exact same_c22_op_3_10_I E po hE h2
  · exact same_c23_op_1_0_I E po hE h2
  · exact same_c24_op_1_0_W E po hE h2
  · exact same_c24_op_1_0_T E po hE h2
  · exact same_c25_op_0_2_W E po hE h2
  · exact same_c25_op_0_4_T E po hE h2
  · exact same_c25_op_0_5_W E po hE h2
  · exact same_c25_op_1_2_W E po hE h2
  · exact same_c25_op_1_3_T E po hE h2
  · exact same_c26_op_0_4_T E po hE h2
  · exact same_c27_op_1_1_W E po hE h2
  · exact same_c27_op_1_1_F E po hE h2
  · exact same_c27_op_1_1_T E po hE h2
  · exact same_c29_op_1_2_V E po hE h2
  · exact same_c29_op_1_2_W E po hE h2
  · exact same_c29_op_1_2_F E po hE h2
  · exact same_c29_op_1_2_T E po hE h2
  · exact same_c31_op_2_2_V E po hE h2
  · exact same_c31_op_2_2_W E po hE h2
  · exact same_c31_op_2_2_F E po hE h2
  · exact same_c31_op_2_2_T E po hE h2
  · exact same_c32_op_0_1_W E po hE h2
  · exact same_c32_op_0_1_T E po hE h2
  · exact same_c34_op_0_0_W E po hE h2
  · exact same_c34_op_0_0_F E po hE h2
  · exact same_c34_op_0_0_T E po hE h2
  · exact same_c34_op_1_0_W E po hE h2
  · exact same_c34_op_1_0_F E po hE h2
  · exact same_c34_op_1_0_T E po hE h2
  · exact same_c34_op_2_0_W E po hE h2
  · exact same_c34_op_2_0_F E po hE h2
  · exact same_c34_op_2_0_T E po hE h2
  · exact same_c35_op_0_1_W E po hE h2
  · exact same_c35_op_0_1_T E po hE h2
  · exact same_c35_op_0_3_W E po hE h2
  · exact same_c35_op_0_3_T E po hE h2
  · exact same_o14_op_1_0_W E po hE h2
  · exact same_o14_op_1_0_F E po hE h2
  · exact same_o14_op_1_0_T E po hE h2
  · exact same_o14_neg_1_1 E po hE h2
  · exact same_o14_op_1_1_N E po hE h2
  · exact same_o14_op_1_1_I E po hE h2
  · exact same_o14_op_1_1_V E po hE h2
  · exact same_o14_op_1_1_W E po hE h2
  · exact same_o14_op_1_1_T E po hE h2
  · exact same_o17_op_0_1_W E po hE h2
  · exact same_o17_op_0_1_T E po hE h2
  · exact same_o18_op_2_3_W E po hE h2
  · exact same_o18_op_2_3_T E po hE h2

theorem harmless_tame : (harmlessSlips.all fun x => (x.1.arms.all fun a => tame a.1 && onlyEqual a.1) &&
    ((x.2.in x.1).arms.all fun a => tame a.1 && onlyEqual a.1)) = true := by decide +kernel

attribute [local irreducible] Flt.ofNat Flt.ofRat

theorem harmless_call (f : Closure) (s : Slip) (h : (f, s) ∈ harmlessSlips) (po : PluralOperands)
    (hE : InputFacts (fun k => Flt.eq po.n (Flt.ofNat b64 k)) po) (h2 : FractionFacts po) : (s.in f).call po = f.call po := by
  have ht := List.all_eq_true.1 harmless_tame _ h
  simp only [Bool.and_eq_true] at ht
  rw [call_firstWith po _ ht.1, call_firstWith po _ ht.2, harmless_same f s h _ po hE h2]

theorem text_fraction (s : Str) (po : PluralOperands) (h : tryFromStr s = .ok po) : FractionFacts po := by
  have hc := C16_consistent s po h
  have ht : po.t = 0 ↔ po.f = 0 := by
    rw [hc.f_eq]
    simp
  refine ⟨by rw [← hc.t_zero, ht], ht, fun h1 => ?_, fun h1 => by rw [hc.f_eq, h1]; simp, fun h1 => ?_⟩
  swap
  · by_contra hw
    push Not at hw
    have h2 := hc.t_lt
    have h3 := hc.w_le_v
    have h4 : 10 ^ po.w ≤ 10 ^ 1 := Nat.pow_le_pow_right (by norm_num) (by omega)
    omega
  by_contra hw
  apply h1
  have : po.v - po.w = po.v - po.w - 1 + 1 := by have := hc.w_le_v; omega
  rw [hc.f_eq, this, pow_succ, ← Nat.mul_assoc]
  exact Nat.mul_mod_left _ _

theorem integer_fraction (x : Nat) : FractionFacts (fromUnsigned x) := ⟨by simp [fromUnsigned], by simp [fromUnsigned], by simp [fromUnsigned],
  by simp [fromUnsigned], by simp [fromUnsigned]⟩

theorem select_harmless (pr : PluralRules) (s : Slip) (h : (pr.function, s) ∈ harmlessSlips)
    (ops : Except OpsErr PluralOperands)
    (ho : ∀ po, ops = .ok po → InputFacts (fun k => Flt.eq po.n (Flt.ofNat b64 k)) po ∧ FractionFacts po) :
    select (slipRules pr s) ops = select pr ops := by
  cases ops with
  | error e => rfl
  | ok po =>
    have := harmless_call _ s h po (ho po rfl).1 (ho po rfl).2
    unfold select
    simp only [slipRules, this]

/-- C120: with a harmless slip `select` gives the same for every text, integer and float. -/
theorem C120_harmless (pr : PluralRules) (s : Slip) (h : (pr.function, s) ∈ harmlessSlips) :
    (∀ x, select (slipRules pr s) (tryFromStr x) = select pr (tryFromStr x)) ∧
    (∀ x, select (ε := OpsErr) (slipRules pr s) (.ok (fromUnsigned x)) = select (ε := OpsErr) pr (.ok (fromUnsigned x))) ∧
    (∀ bits x, select (slipRules pr s) (tryFromSigned bits x) = select pr (tryFromSigned bits x)) ∧
    ∀ F x, select (slipRules pr s) (tryFromFloat F x) = select pr (tryFromFloat F x) := by
  refine ⟨fun x => select_harmless pr s h _ fun po hp => ⟨text_facts x po hp, text_fraction x po hp⟩, fun x => select_harmless pr s h _ ?_,
    fun bits x => select_harmless pr s h _ ?_, fun F x => select_harmless pr s h _ fun po hp => ⟨text_facts _ po hp, text_fraction _ po hp⟩⟩
  · intro po hp
    rw [← Except.ok.inj hp]
    exact ⟨integer_facts x, integer_fraction x⟩
  · intro po hp
    unfold tryFromSigned at hp
    simp only at hp
    split_ifs at hp
    rw [← Except.ok.inj hp]
    exact ⟨integer_facts _, integer_fraction _⟩

/-! ## Slips that a text shows -/

/-- All categories. -/
def categoriesAll : List PluralCategory := [.ZERO, .ONE, .TWO, .FEW, .MANY, .OTHER]

/-- All operands. -/
def operandsAll : List Operand := [.N, .I, .V, .W, .F, .T]

/-- The slips in the `j`th condition, with those together that the same text shows. -/
def slipsIn (j : Nat) (a : RExpr × PluralCategory) : List (List Slip) :=
  (List.range (testsIn a.1)).map (fun k => [.sign j k]) ++ (List.range (testsIn a.1 - 1)).map (fun k => [.join j k]) ++
    (List.range (testsIn a.1)).flatMap (fun k => (operandsAll.filter fun x => operandFits x (testAt a.1 k)).map fun x => [.operand j k x]) ++
    [(categoriesAll.filter fun c => c != a.2).map (.category j ·), [.drop j]]

/-- All slips of a function. -/
def allSlips (f : Closure) : List (List Slip) :=
  ((List.range f.arms.length).flatMap fun j => match f.arms[j]? with
    | some a => slipsIn j a
    | none => []) ++ [(categoriesAll.filter fun c => c != f.last).map .last]

theorem mem_allSlips (f : Closure) (s : Slip) (h : s.Fits f) : ∃ l ∈ allSlips f, s ∈ l := by
  have hc : ∀ c : PluralCategory, c ∈ categoriesAll := by intro c; cases c <;> decide
  have ho : ∀ x : Operand, x ∈ operandsAll := by intro x; cases x <;> decide
  have key : ∀ j a, f.arms[j]? = some a → ∀ l ∈ slipsIn j a, l ∈ allSlips f := by
    intro j a ha l hl
    refine List.mem_append_left _ (List.mem_flatMap.2 ⟨j, List.mem_range.2 ?_, by simp only [ha]; exact hl⟩)
    exact (List.getElem?_eq_some_iff.1 ha).1
  cases s with
  | sign j k =>
    obtain ⟨a, ha, hk⟩ := h
    exact ⟨_, key j a ha [.sign j k] (by simp [slipsIn]; exact .inl hk), by simp⟩
  | join j k =>
    obtain ⟨a, ha, hk⟩ := h
    exact ⟨_, key j a ha [.join j k] (by simp [slipsIn]; omega), by simp⟩
  | operand j k x =>
    obtain ⟨a, ha, hk, hx⟩ := h
    exact ⟨_, key j a ha [.operand j k x] (by simp [slipsIn]; exact .inl ⟨hk, ho x, hx⟩), by simp⟩
  | category j c =>
    obtain ⟨a, ha, hc'⟩ := h
    exact ⟨_, key j a ha ((categoriesAll.filter fun c => c != a.2).map (.category j ·)) (by simp [slipsIn]), by simp [hc, hc']⟩
  | drop j =>
    have ha : f.arms[j]? = some (f.arms[j]'h) := List.getElem?_eq_getElem h
    exact ⟨_, key j _ ha [.drop j] (by simp [slipsIn]), by simp⟩
  | last c => exact ⟨_, List.mem_append_right _ (List.mem_singleton.2 rfl), by simp [hc]; exact h⟩

/-- The function with the slip has another value on the text. -/
def showsSlip (f : Closure) (s : Slip) (x : Str) : Bool :=
  match (tryFromStr x).toOption with
  | some po => (s.in f).call po != f.call po
  | none => false

/-- Each slip of the function is harmless or shown by its text. -/
def slipsShown (y : Closure × List Nat) : Bool :=
  (allSlips y.1).length == y.2.length && ((allSlips y.1).zip y.2).all fun z => match slipTexts[z.2]? with
    | some x => z.1.all fun s => showsSlip y.1 s x || harmlessSlips.contains (y.1, s)
    | none => false

def slipRows0 : List (Closure × List Nat) :=
  [(cardinalFn0, [6, 10, 6, 6, 6, 6, 6, 6, 11]),
   (cardinalFn1, [6, 6, 11, 11, 11, 11, 11, 6, 6, 0, 0, 0, 6, 6, 11]),
   (cardinalFn2, [11, 6, 6, 1, 11, 11, 11, 11, 10, 6, 6, 6, 6, 6, 6, 11]),
   (cardinalFn3, [6, 17, 17, 17, 17, 17, 17, 6, 39, 39, 39, 39, 39, 39, 6, 10, 6, 6, 6, 6, 6, 6, 11, 13, 11, 11, 11, 11, 11, 11, 0, 1, 0, 67, 67, 67, 0, 0, 1]),
   (cardinalFn4, [6, 6, 11, 9, 6, 6, 6, 6, 6, 6, 7, 7, 7, 6, 6, 11]),
   (cardinalFn5, [6, 11, 6, 11, 11, 11, 11, 18, 18, 13, 13, 11, 11, 6, 6, 6, 20, 20, 6, 6, 6, 6, 20, 20, 20, 20, 34, 34, 34, 34, 20, 20, 6, 6, 43, 6, 6, 6, 6, 67,
    67, 67, 67, 6, 6, 43]),
   (cardinalFn6, [6]),
   (cardinalFn7, [6, 6, 17, 17, 17, 17, 6, 6, 6, 27, 27, 27, 27, 17, 17, 17, 17, 19, 19, 16, 28, 56, 56, 56, 56, 65, 65, 65, 65, 17, 17, 0, 6, 6, 1, 0, 83, 83, 83,
    6, 6, 6, 6, 1, 1, 6, 6, 6, 6, 11, 11, 11, 6, 6, 6, 6, 67, 67, 67, 67, 54, 54, 54, 54, 63, 63, 63, 63, 6, 6, 11, 11, 11, 11, 20, 20, 20, 11, 11,
    11, 11, 77, 77, 13, 13, 55, 55, 55, 55, 64, 64, 64, 64, 11, 11, 20]),
   (cardinalFn8, [11, 6, 11, 6, 3, 6, 6, 11, 6, 11, 11, 12, 12, 12, 11, 11, 11, 11, 77, 77, 77, 77, 3, 3, 3, 63, 13, 13, 13, 0, 11, 11, 6, 6, 6, 20, 1, 20, 20, 6,
    20, 6, 6, 7, 7, 7, 6, 6, 6, 6, 67, 67, 67, 67, 1, 0, 10, 2, 26, 26, 26, 0, 6, 6, 20]),
   (cardinalFn9, [10, 17, 17, 17, 25, 17, 20, 25, 17, 0, 0, 0, 17, 0, 0, 25, 17, 17, 17, 6, 17, 17, 17, 0, 0, 0, 0, 0, 0, 0, 0, 0, 0, 0, 0, 0, 0, 0, 0, 0, 0, 0, 0,
    25, 25, 0, 0, 0, 17, 17, 17, 17, 20, 20, 20, 20, 27, 27, 27, 27, 17, 17, 0, 0, 0, 3, 3, 3, 24, 10, 10, 10, 29, 28, 45, 45, 5, 6, 6, 17]),
   (cardinalFn10, [6, 11, 6, 11, 11, 11, 11, 11, 11, 12, 12, 12, 11, 11, 6, 6, 6, 0, 0, 0, 0, 0, 6, 6, 20, 9, 6, 6, 6, 6, 6, 6, 0, 0, 0, 6, 6, 20])]

def slipRows1 : List (Closure × List Nat) :=
  [(cardinalFn11, [6, 16, 15, 15, 15, 15, 15, 15, 6, 21, 20, 20, 20, 20, 20, 20, 6, 10, 6, 6, 6, 6, 6, 6, 11, 13, 11, 11, 11, 11, 11, 11, 17, 1, 17, 17, 17, 17, 0,
    0, 17]),
   (cardinalFn12, [6, 0, 1, 10, 6, 0, 1, 9, 6, 6, 6, 6, 4, 1, 0, 0, 0, 1, 1, 1, 1, 1, 10, 23, 23, 10, 10, 6, 6, 11]),
   (cardinalFn13, [17, 6, 6, 6, 17, 17, 17, 15, 15, 15, 17, 17, 17, 17, 3, 3, 3, 24, 17, 17, 6, 6, 11, 11, 6, 6, 6, 7, 7, 7, 6, 6, 6, 6, 1, 0, 10, 2, 6, 6, 11, 11,
    20, 20, 11, 11, 11, 12, 12, 12, 11, 11, 11, 11, 12, 2, 13, 63, 11, 11, 20]),
   (cardinalFn14, [11, 6, 6, 1, 11, 11, 11, 11, 10, 6, 6, 6, 6, 6, 6, 11]),
   (cardinalFn15, [6, 17, 6, 17, 17, 17, 17, 17, 17, 15, 0, 0, 17, 17, 6, 25, 6, 25, 25, 25, 25, 25, 25, 22, 0, 0, 25, 25, 6, 10, 6, 6, 6, 6, 6, 6, 11, 13, 11, 11,
    11, 11, 11, 11, 39]),
   (cardinalFn16, [6, 17, 6, 34, 6, 17, 6, 17, 17, 17, 17, 17, 17, 22, 0, 0, 34, 34, 34, 34, 34, 34, 34, 0, 0, 17, 17, 6, 11, 6, 10, 6, 6, 6, 6, 33, 32, 32, 26, 26,
    6, 6, 11, 39, 11, 13, 11, 11, 11, 11, 33, 33, 33, 13, 13, 11, 11, 39]),
   (cardinalFn17, [39, 6, 6, 6, 6, 6, 6, 39, 39, 39, 39, 39, 39, 0, 0, 0, 6, 6, 6, 6, 39, 39, 39, 39, 44, 44, 44, 44, 49, 49, 49, 49, 57, 57, 57, 57, 39, 39, 6, 6,
    6, 0, 0, 0, 0, 0, 6, 6, 11, 6, 6, 0, 0, 0, 6, 6, 6, 6, 6, 6, 11, 11, 17, 11, 11, 0, 0, 0, 11, 11, 11, 11, 11, 11, 17]),
   (cardinalFn18, [39, 30, 39, 39, 30, 30, 30, 39, 39, 40, 40, 40, 39, 39, 39, 39, 39, 39, 0, 0, 0, 41, 41, 41, 41, 39, 39, 6, 6, 11, 9, 6, 6, 6, 6, 6, 6, 7, 7, 7,
    6, 6, 11, 11, 17, 14, 11, 11, 11, 11, 11, 11, 12, 12, 12, 11, 11, 17]),
   (cardinalFn19, [6, 6, 6, 11, 11, 11, 6, 6, 6, 7, 0, 0, 6, 6, 6, 6, 67, 67, 67, 67, 11, 11, 0, 0, 0, 6, 6, 11]),
   (cardinalFn20, [6, 10, 6, 6, 6, 6, 6, 6, 11, 13, 11, 11, 11, 11, 11, 11, 17])]

def slipRows2 : List (Closure × List Nat) :=
  [(cardinalFn21, [6, 10, 6, 6, 6, 6, 6, 6, 11, 1, 11, 11, 11, 11, 0, 0, 11]),
   (cardinalFn22, [6, 6, 6, 6, 6, 43, 43, 43, 43, 15, 15, 15, 15, 43, 43, 43, 43, 47, 47, 47, 47, 52, 52, 52, 52, 61, 61, 61, 61, 43, 43, 6, 11, 11, 11, 11, 11, 6,
    41, 41, 41, 41, 10, 6, 6, 6, 6, 0, 1, 1, 1, 41, 41, 41, 41, 45, 45, 45, 45, 50, 50, 50, 50, 59, 59, 59, 59, 41, 41, 6, 8, 6, 6, 6, 6, 6, 6, 11,
    17, 17, 17, 17, 77, 0, 0, 0, 0, 82, 17, 11, 11, 11, 11, 11, 0, 79, 79, 78, 11, 17, 11, 11, 11, 11, 42, 42, 42, 42, 46, 46, 46, 46, 51, 51, 51,
    51, 60, 60, 60, 60, 77, 77, 77, 77, 79, 79, 79, 79, 80, 80, 80, 80, 81, 81, 81, 81, 78, 78, 78, 78, 0, 82, 82, 82, 82, 82, 82, 82, 82, 11, 11,
    17, 1, 17, 17, 17, 17, 0, 0, 17]),
   (cardinalFn23, [11, 6, 6, 6, 11, 1, 11, 11, 11, 11, 10, 6, 6, 6, 6, 1, 6, 6, 6, 6, 6, 6, 11, 0, 11, 11, 11, 11, 0, 0, 11]),
   (cardinalFn24, [6, 11, 6, 11, 11, 11, 11, 19, 19, 13, 13, 11, 11, 6, 6, 6, 0, 0, 0, 1, 1, 6, 6, 30, 6, 6, 6, 6, 32, 32, 32, 32, 6, 6, 30]),
   (cardinalFn25, [6, 6, 38, 2, 26, 1, 11, 11, 6, 2, 11, 6, 11, 6, 6, 6, 6, 67, 67, 67, 67, 38, 38, 0, 38, 38, 38, 38, 2, 2, 26, 26, 26, 0, 26, 26, 0, 26, 26, 1, 0,
    3, 42, 6, 6, 11, 11, 13, 13, 30, 30, 15, 11, 11, 11, 11, 34, 34, 34, 34, 13, 26, 0, 13, 13, 13, 13, 13, 0, 30, 30, 11]),
   (cardinalFn26, [6, 6, 6, 11, 1, 11, 11, 6, 11, 6, 6, 7, 7, 7, 6, 6, 6, 6, 67, 67, 67, 67, 1, 0, 3, 2, 26, 26, 26, 0, 6, 6, 11]),
   (cardinalFn27, [6, 6, 6, 1, 11, 6, 6, 7, 7, 7, 4, 6, 6, 6, 6, 11, 11, 11, 11, 11, 11, 6, 6, 39, 9, 6, 6, 6, 6, 6, 6, 0, 0, 0, 6, 6, 39]),
   (cardinalFn28, [6, 6, 11, 1, 6, 6, 6, 6, 11, 11, 11, 11, 11, 11, 6, 34, 34, 34, 34, 34, 34, 6, 10, 6, 6, 6, 6, 6, 6, 39]),
   (cardinalFn29, [11, 6, 11, 6, 6, 11, 11, 12, 12, 12, 11, 11, 11, 11, 77, 77, 77, 77, 11, 11, 30, 6, 30, 20, 6, 34, 6, 6, 6, 20, 6, 20, 6, 30, 30, 0, 0, 0, 9, 6,
    6, 6, 6, 0, 0, 0, 0, 20, 20, 22, 22, 22, 20, 20, 20, 20, 77, 77, 34, 34, 34, 77, 77, 77, 77, 20, 20, 6, 6, 7, 9, 6, 6, 6, 6, 6, 6, 7, 7, 7, 6, 6,
    0])]

def slipRows3 : List (Closure × List Nat) :=
  [(cardinalFn30, [6, 11, 11, 11, 11, 6, 6, 11]),
   (cardinalFn31, [11, 6, 11, 6, 6, 11, 11, 12, 12, 12, 11, 11, 11, 11, 77, 77, 77, 77, 11, 11, 30, 6, 20, 6, 67, 6, 6, 20, 6, 20, 6, 30, 30, 0, 0, 0, 6, 6, 6, 6,
    20, 20, 22, 22, 22, 20, 20, 20, 20, 67, 67, 34, 34, 34, 67, 67, 67, 67, 20, 20, 6, 6, 6, 7, 0, 6, 6, 7, 7, 7, 6, 6, 6, 6, 0, 0, 0, 0, 6, 6, 0]),
   (cardinalFn32, [6, 11, 6, 11, 11, 11, 11, 11, 11, 12, 0, 0, 11, 11, 39, 6, 6, 1, 39, 39, 39, 39, 10, 6, 6, 6, 6, 6, 6, 39]),
   (cardinalFn33, [11, 6, 1, 1, 6, 6, 3, 3, 11, 11, 11, 11, 10, 6, 6, 6, 6, 1, 1, 1, 1, 1, 1, 1, 3, 3, 2, 6, 6, 11]),
   (cardinalFn34, [17, 6, 6, 6, 17, 17, 17, 0, 0, 0, 17, 17, 17, 17, 6, 6, 0, 0, 0, 17, 17, 6, 6, 11, 6, 6, 0, 0, 0, 6, 6, 6, 6, 6, 6, 11, 11, 20, 11, 11, 0, 0, 0,
    11, 11, 11, 11, 11, 11, 20]),
   (cardinalFn35, [6, 6, 11, 39, 11, 6, 11, 11, 11, 11, 11, 6, 6, 0, 0, 0, 39, 39, 39, 39, 39, 39, 34, 0, 0, 6, 6, 11]),
   (ordinalFn0, [6]),
   (ordinalFn1, [6, 19, 17, 17, 17, 17, 17, 17, 6, 21, 20, 20, 20, 20, 20, 20, 6, 11, 11, 11, 11, 11, 6, 6, 6, 6, 6, 10, 6, 6, 6, 6, 19, 19, 19, 19, 19, 23, 22,
    22, 22, 22, 26, 25, 25, 25, 25, 28, 27, 27, 27, 27, 31, 30, 30, 30, 30, 6, 6, 11, 39, 11, 13, 11, 11, 11, 11, 16, 15, 15, 15, 15, 11, 11, 39]),
   (ordinalFn2, [6, 6, 6, 6, 6, 6, 6, 6, 6, 6, 6, 17, 17, 68, 68, 68, 68, 68, 68, 68, 68, 43, 43, 43, 43, 17, 17, 17, 17, 66, 66, 66, 66, 68, 68, 68, 68, 69, 69,
    69, 69, 70, 70, 70, 70, 71, 71, 71, 71, 72, 72, 72, 72, 73, 73, 73, 73, 74, 74, 74, 74, 76, 76, 76, 76, 17, 17, 6, 6, 6, 6, 6, 20, 20, 44, 44, 1,
    6, 6, 6, 6, 20, 20, 20, 20, 44, 44, 44, 44, 49, 49, 49, 49, 62, 62, 62, 62, 20, 20, 6, 11, 27, 27, 25, 27, 27, 27, 27, 6, 6, 6, 6, 6, 39, 39, 39,
    6, 6, 6, 6, 11, 11, 11, 11, 21, 21, 28, 28, 22, 22, 22, 22, 25, 25, 25, 25, 39, 39, 39, 39, 48, 48, 48, 48, 53, 53, 53, 53, 57, 57, 57, 57, 6, 6,
    27])]

def slipRows4 : List (Closure × List Nat) :=
  [(ordinalFn3, [6, 6, 11, 11, 11, 6, 6, 11, 11, 11, 11, 43, 43, 43, 43, 77, 77, 13, 13, 34, 34, 34, 34, 11, 11, 6]),
   (ordinalFn4, [6, 19, 17, 17, 17, 17, 17, 17, 6, 11, 6, 10, 6, 6, 6, 6, 16, 15, 15, 15, 15, 6, 6, 11, 13, 11, 11, 11, 11, 11, 11, 20]),
   (ordinalFn5, [6, 6, 17, 16, 15, 15, 15, 15, 19, 17, 17, 17, 17, 17, 17, 6, 6, 20, 19, 19, 19, 19, 19, 21, 20, 20, 20, 20, 20, 20, 6, 10, 6, 6, 6, 6, 6, 6, 11,
    13, 11, 11, 11, 11, 11, 11, 30, 30, 25, 27, 0, 25, 25, 1, 30, 30, 30, 30, 23, 22, 22, 22, 22, 26, 25, 25, 25, 25, 28, 27, 27, 27, 27, 25, 25, 30]),
   (ordinalFn6, [6, 43, 6, 43, 43, 43, 43, 34, 34, 34, 34, 43, 43, 6, 6, 11, 6, 6, 6, 6, 67, 67, 67, 67, 6, 6, 11, 11, 17, 11, 11, 11, 11, 77, 77, 13, 13, 11, 11,
    17]),
   (ordinalFn7, [6, 10, 6, 6, 6, 6, 6, 6, 11]),
   (ordinalFn8, [6, 6, 15, 16, 15, 15, 15, 15, 35, 34, 34, 34, 34, 15, 15, 6, 11, 6, 10, 6, 6, 6, 6, 33, 32, 32, 26, 26, 6, 6, 11, 17, 11, 13, 11, 11, 11, 11, 33,
    33, 33, 13, 13, 11, 11, 17]),
   (ordinalFn9, [6, 19, 17, 17, 17, 17, 17, 17, 6, 21, 20, 20, 20, 20, 20, 20, 6, 10, 6, 6, 6, 6, 6, 6, 11, 25, 11, 13, 11, 11, 11, 11, 16, 15, 15, 15, 15, 11,
    11, 25]),
   (ordinalFn10, [6, 11, 6, 10, 6, 6, 6, 6, 19, 19, 19, 19, 19, 6, 6, 11]),
   (ordinalFn11, [6, 6, 6, 6, 25, 25, 25, 33, 32, 32, 26, 26, 26, 25, 25, 25, 25, 58, 57, 57, 57, 57, 75, 74, 74, 74, 74, 25, 25, 6]),
   (ordinalFn12, [6, 6, 6, 6, 6, 11, 44, 44, 11, 1, 6, 6, 6, 6, 44, 44, 44, 44, 49, 49, 49, 49, 57, 57, 57, 57, 11, 11, 11, 11, 11, 11, 6, 10, 6, 6, 6, 6, 6, 6,
    41]),
   (ordinalFn13, [6, 6, 6, 30, 20, 20, 6, 20, 20, 20, 20, 27, 27, 27, 27, 6, 6, 6, 6, 1, 30, 30, 30, 30, 20, 20, 6]),
   (ordinalFn14, [6, 6, 19, 19, 19, 19, 19, 19, 21, 21, 21, 21, 19, 19, 20, 0, 20, 20, 20, 20, 20, 20, 41, 41, 41, 41, 41, 0, 0, 0, 0, 0, 0, 0, 0, 0, 0, 1, 1, 1,
    41, 41, 41, 41, 46, 46, 46, 46, 50, 50, 50, 50, 60, 60, 60, 60, 6, 6, 20])]

def slipRows5 : List (Closure × List Nat) :=
  [(ordinalFn15, [6, 6, 25, 25, 25, 6, 6, 22, 22, 22, 22, 25, 25, 25, 25, 37, 37, 37, 37, 38, 38, 38, 38, 25, 25, 6, 6, 11, 6, 6, 6, 6, 67, 67, 67, 67, 6, 6, 11,
    11, 17, 11, 11, 11, 11, 77, 77, 13, 13, 11, 11, 17]),
   (ordinalFn16, [6, 19, 17, 17, 17, 17, 17, 17, 6, 10, 6, 6, 6, 6, 6, 6, 11, 20, 11, 13, 11, 11, 11, 11, 16, 15, 15, 15, 15, 11, 11, 20]),
   (ordinalFn17, [6, 6, 20, 6, 6, 6, 6, 6, 6, 7, 0, 0, 6, 6, 20]),
   (ordinalFn18, [6, 19, 17, 17, 17, 17, 17, 17, 6, 21, 20, 20, 20, 20, 20, 20, 6, 11, 11, 25, 6, 6, 11, 10, 6, 6, 6, 6, 19, 19, 19, 19, 19, 25, 25, 25, 25, 25,
    25, 22, 0, 0, 6, 6, 11, 30, 11, 13, 11, 11, 11, 11, 16, 15, 15, 15, 15, 11, 11, 30]),
   (ordinalFn19, [6, 17, 6, 17, 17, 17, 17, 36, 36, 36, 36, 17, 17, 6, 10, 6, 6, 6, 6, 6, 6, 11]),
   (ordinalFn20, [6, 11, 6, 6, 6, 17, 17, 6, 6, 6, 6, 11, 11, 11, 11, 67, 67, 67, 67, 77, 77, 13, 13, 6, 6, 17]),
   (ordinalFn21, [6, 6, 6, 20, 20, 20, 20, 20, 20, 27, 27, 27, 27, 31, 30, 30, 30, 30, 20, 20, 6]),
   (ordinalFn22, [6, 43, 6, 43, 43, 43, 43, 34, 34, 34, 34, 43, 43, 6])]

/-- For each function, for each of `allSlips` the number of a text in `slipTexts`. -/
def slipRows : List (Closure × List Nat) := slipRows0 ++ slipRows1 ++ slipRows2 ++ slipRows3 ++ slipRows4 ++ slipRows5

theorem slips_checked0 : (slipRows0.all slipsShown) = true := by decide +kernel
theorem slips_checked1 : (slipRows1.all slipsShown) = true := by decide +kernel
theorem slips_checked2 : (slipRows2.all slipsShown) = true := by decide +kernel
theorem slips_checked3 : (slipRows3.all slipsShown) = true := by decide +kernel
theorem slips_checked4 : (slipRows4.all slipsShown) = true := by decide +kernel
theorem slips_checked5 : (slipRows5.all slipsShown) = true := by decide +kernel

theorem slips_checked : (slipRows.all slipsShown) = true := by
  simp only [slipRows, List.all_append, slips_checked0, slips_checked1, slips_checked2, slips_checked3, slips_checked4, slips_checked5, Bool.and_self]

theorem slip_functions : (closures.all fun f => slipRows.any fun y => y.1 == f) = true := by decide +kernel

theorem slip_cases (t : PluralRuleType) (id : LangId) (pr : PluralRules) (h : create id t = .ok pr) (s : Slip) (hs : s.Fits pr.function) :
    (∃ x ∈ slipTexts, showsSlip pr.function s x = true) ∨ (pr.function, s) ∈ harmlessSlips := by
  obtain ⟨⟨g, ws⟩, hg, hgf⟩ := List.any_eq_true.1 (List.all_eq_true.1 slip_functions _ (function_mem h))
  simp only [beq_iff_eq] at hgf
  have h1 := List.all_eq_true.1 slips_checked _ hg
  simp only [slipsShown, Bool.and_eq_true, beq_iff_eq] at h1
  rw [hgf] at h1
  obtain ⟨l, hl, hsl⟩ := mem_allSlips _ s hs
  obtain ⟨m, hm⟩ := fst_mem_zip _ _ h1.1 l hl
  have h2 := List.all_eq_true.1 h1.2 _ hm
  simp only at h2
  cases hx : slipTexts[m]? with
  | none => rw [hx] at h2; cases h2
  | some x =>
    rw [hx] at h2
    have h3 := List.all_eq_true.1 h2 s hsl
    simp only [Bool.or_eq_true, List.contains_iff_mem] at h3
    rcases h3 with h3 | h3
    · exact .inl ⟨x, List.mem_of_getElem? hx, h3⟩
    · exact .inr h3

theorem select_slip (pr : PluralRules) (s : Slip) (x : Str) (h : showsSlip pr.function s x = true) :
    select (slipRules pr s) (tryFromStr x) ≠ select pr (tryFromStr x) := by
  unfold showsSlip at h
  cases hp : tryFromStr x with
  | error e => rw [hp] at h; cases h
  | ok po =>
    rw [hp] at h
    simp only [Except.toOption, bne_iff_ne, ne_eq] at h
    unfold select slipRules
    simp only
    cases h3 : (s.in pr.function).call po <;> cases h4 : pr.function.call po <;> simp_all

/-- C120: every slip in one place of a function of the tables, but for the harmless ones, changes the answer for one of the texts. -/
theorem C120_texts (t : PluralRuleType) (id : LangId) (pr : PluralRules) (h : create id t = .ok pr) (s : Slip) (hs : s.Fits pr.function)
    (hn : (pr.function, s) ∉ harmlessSlips) : ∃ x ∈ slipTexts, select (slipRules pr s) (tryFromStr x) ≠ select pr (tryFromStr x) := by
  rcases slip_cases t id pr h s hs with ⟨x, hx, h1⟩ | h1
  · exact ⟨x, hx, select_slip pr s x h1⟩
  · exact absurd h1 hn

/-- C120: so a slip goes unseen by all texts exactly if it is in the list. -/
theorem C120_slips (t : PluralRuleType) (id : LangId) (pr : PluralRules) (h : create id t = .ok pr) (s : Slip) (hs : s.Fits pr.function) :
    (∀ x, select (slipRules pr s) (tryFromStr x) = select pr (tryFromStr x)) ↔ (pr.function, s) ∈ harmlessSlips := by
  constructor
  · intro hall
    by_contra hn
    obtain ⟨x, -, h1⟩ := C120_texts t id pr h s hs hn
    exact h1 (hall x)
  · exact fun h1 => (C120_harmless pr s h1).1

/-- C120: a negated test, another `&&` or `||`, another category, and a condition left out are all seen, but for three. -/
theorem C120_logic (t : PluralRuleType) (id : LangId) (pr : PluralRules) (h : create id t = .ok pr) (s : Slip) (hs : s.Fits pr.function)
    (ho : ∀ j k x, s ≠ .operand j k x)
    (h9 : ¬ (pr.function = cardinalFn9 ∧ (s = .join 0 1 ∨ s = .join 0 2))) (h14 : ¬ (pr.function = ordinalFn14 ∧ s = .sign 1 1)) :
    ∃ x ∈ slipTexts, select (slipRules pr s) (tryFromStr x) ≠ select pr (tryFromStr x) := by
  refine C120_texts t id pr h s hs fun hm => ?_
  have key : (harmlessSlips.all fun y => (match y.2 with | .operand .. => true | _ => false) ||
      (y.1 == cardinalFn9 && (y.2 == .join 0 1 || y.2 == .join 0 2)) || (y.1 == ordinalFn14 && y.2 == .sign 1 1)) = true := by decide +kernel
  have h1 := List.all_eq_true.1 key _ hm
  simp only [Bool.or_eq_true, Bool.and_eq_true, beq_iff_eq] at h1
  rcases h1 with (h1 | h1) | h1
  · cases s with
    | operand j k x => exact ho j k x rfl
    | _ => cases h1
  · exact h9 h1
  · exact h14 h1

/-- C120: the numbers of slips, harmless slips and texts. -/
theorem C120_count : (slipRows.map fun y => ((allSlips y.1).map List.length).sum).sum = 3258 ∧ harmlessSlips.length = 104 ∧ harmlessSlips.Nodup ∧
    slipTexts.length = 84 := by decide +kernel

/-! ## Examples -/

/-- English `po.i == 1 && po.v == 0`: `||` in place of `&&` is shown by 0. -/
example : (create (bareLanguage c!"en") .CARDINAL).toOption.map (·.function) = some cardinalFn4 ∧ Slip.Fits cardinalFn4 (.join 0 0) ∧
    (cardinalFn4, Slip.join 0 0) ∉ harmlessSlips ∧ showsSlip cardinalFn4 (.join 0 0) c!"0" = true :=
  ⟨by decide +kernel, ⟨_, rfl, by decide⟩, by decide +kernel, by decide +kernel⟩

/-- English with `n` in place of `i`: 15e-1 has i = 1, v = 0 and n = 1.5. -/
example : showsSlip cardinalFn4 (.operand 0 0 .N) c!"15e-1" = true ∧ showsSlip cardinalFn4 (.operand 0 0 .N) c!"1.5" = false := by decide +kernel

/-- Danish `po.t != 0` could be `po.f != 0`. -/
example : (create (bareLanguage c!"da") .CARDINAL).toOption.map (·.function) = some cardinalFn12 ∧ Slip.Fits cardinalFn12 (.operand 0 1 .F) ∧
    (cardinalFn12, Slip.operand 0 1 .F) ∈ harmlessSlips :=
  ⟨by decide +kernel, ⟨_, rfl, by decide, by decide⟩, by decide +kernel⟩

end Verif.Props
