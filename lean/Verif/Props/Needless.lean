import Verif.Props.Matters
import Verif.Props.Rounded

/-!
# C117: which tests in rules.rs are needless
-/

namespace Verif.Props
open Verif Api Rust PluralOperands RulesTable Verif.Grammar Uts35 Spec Strings Sem

/-- The number of tests in a condition: what is joined by `&&`, `||` and `!`. -/
def testsIn : RExpr → Nat
  | .and a b => testsIn a + testsIn b
  | .or a b => testsIn a + testsIn b
  | .not a => testsIn a
  | _ => 1

/-- A test that is always true, or always false: `0 == 0` and `0 == 1`. -/
def always (b : Bool) : RExpr := .cmp .eq (.int 0) (.int (if b then 0 else 1))

/-- The condition with its `k`th test, from the left, replaced by one that is always `b`. -/
def fixTest (b : Bool) : RExpr → Nat → RExpr
  | .and x y, k => if k < testsIn x then .and (fixTest b x k) y else .and x (fixTest b y (k - testsIn x))
  | .or x y, k => if k < testsIn x then .or (fixTest b x k) y else .or x (fixTest b y (k - testsIn x))
  | .not x, k => .not (fixTest b x k)
  | _, _ => always b

/-- The function with the `k`th test of its `j`th condition replaced. -/
def fixIn (f : Closure) (j k : Nat) (b : Bool) : Closure := { f with arms := f.arms.modify j fun a => (fixTest b a.1 k, a.2) }

/-- The tests that can be replaced. -/
def needless : List (Closure × Nat × Nat × Bool) :=
  [(cardinalFn5, 0, 1, false), (cardinalFn9, 0, 0, false), (cardinalFn9, 0, 1, false), (cardinalFn9, 0, 2, false), (cardinalFn9, 0, 3, false),
   (cardinalFn10, 2, 1, true), (cardinalFn17, 2, 0, true), (cardinalFn17, 3, 0, true), (cardinalFn18, 0, 2, true), (cardinalFn19, 0, 0, true),
   (cardinalFn22, 3, 10, true), (cardinalFn24, 0, 1, false), (cardinalFn25, 0, 2, true), (cardinalFn27, 1, 1, true), (cardinalFn29, 1, 2, true),
   (cardinalFn29, 2, 0, true), (cardinalFn31, 2, 1, true), (cardinalFn31, 2, 2, true), (cardinalFn34, 0, 0, true), (cardinalFn34, 1, 0, true),
   (cardinalFn34, 2, 0, true), (ordinalFn14, 1, 0, false), (ordinalFn14, 1, 1, true), (ordinalFn14, 1, 1, false)]

/-! ## Needless -/

/-- The value of an integer expression. -/
def numOf (po : PluralOperands) : RExpr → Nat
  | .int k => k
  | .field .I => po.i
  | .field .V => po.v
  | .field .W => po.w
  | .field .F => po.f
  | .field .T => po.t
  | .rem a b => numOf po a % numOf po b
  | _ => 0

/-- Made of literals, operands other than `n`, and remainders by literals that are not 0. -/
def tameNum : RExpr → Bool
  | .int _ => true
  | .field x => x != .N
  | .rem a (.int k) => tameNum a && k != 0
  | _ => false

theorem eval_numOf (po : PluralOperands) (e : RExpr) (h : tameNum e = true) : e.eval po = some (.int (numOf po e)) := by
  induction e with
  | int k => rfl
  | field x => cases x <;> first | rfl | cases h
  | rem a b iha ihb =>
    cases b <;> first | (cases h) | skip
    rename_i k
    simp only [tameNum, Bool.and_eq_true, bne_iff_ne, ne_eq] at h
    simp only [RExpr.eval, iha h.1, numOf, if_neg h.2]
  | _ => cases h

/-- The value of a condition. -/
def exprHolds (po : PluralOperands) : RExpr → Bool
  | .cmp op (.field .N) (.flt k) => cmpFlt op po.n (Flt.ofNat b64 k)
  | .cmp op a b => cmpInt op (numOf po a) (numOf po b)
  | .not a => !exprHolds po a
  | .and a b => exprHolds po a && exprHolds po b
  | .or a b => exprHolds po a || exprHolds po b
  | .contains lo hi a => lo ≤ numOf po a && numOf po a ≤ hi
  | _ => false

/-- Made of comparisons of such, and of `n` with a float literal. -/
def tame : RExpr → Bool
  | .cmp _ (.field .N) (.flt _) => true
  | .cmp _ a b => tameNum a && tameNum b
  | .not a => tame a
  | .and a b => tame a && tame b
  | .or a b => tame a && tame b
  | .contains _ _ a => tameNum a
  | _ => false

theorem eval_exprHolds (po : PluralOperands) (e : RExpr) (h : tame e = true) : e.eval po = some (.bool (exprHolds po e)) := by
  induction e with
  | cmp op a b iha ihb =>
    by_cases hn : a = .field .N ∧ ∃ k, b = .flt k
    · obtain ⟨rfl, k, rfl⟩ := hn
      rfl
    · have h' : tameNum a = true ∧ tameNum b = true := by
        unfold tame at h
        split at h <;> simp_all
      have h2 : exprHolds po (.cmp op a b) = cmpInt op (numOf po a) (numOf po b) := by
        unfold exprHolds
        split <;> simp_all
      rw [h2]
      simp only [RExpr.eval, eval_numOf po a h'.1, eval_numOf po b h'.2]
  | not a ih => simp only [tame] at h; simp only [RExpr.eval, ih h, exprHolds]
  | and a b iha ihb =>
    simp only [tame, Bool.and_eq_true] at h
    simp only [RExpr.eval, iha h.1, ihb h.2, exprHolds]
    cases exprHolds po a <;> rfl
  | or a b iha ihb =>
    simp only [tame, Bool.and_eq_true] at h
    simp only [RExpr.eval, iha h.1, ihb h.2, exprHolds]
    cases exprHolds po a <;> rfl
  | contains lo hi a ih => simp only [tame] at h; simp only [RExpr.eval, eval_numOf po a h, exprHolds]
  | _ => cases h

/-- The category of a list of conditions. -/
def firstB (po : PluralOperands) : List (RExpr × PluralCategory) → PluralCategory → PluralCategory
  | [], c => c
  | (e, c) :: rest, d => if exprHolds po e then c else firstB po rest d

theorem call_firstB (po : PluralOperands) (f : Closure) (h : (f.arms.all fun a => tame a.1) = true) : f.call po = some (firstB po f.arms f.last) := by
  unfold Closure.call
  generalize f.arms = l at h
  induction l with
  | nil => rfl
  | cons a l ih =>
    obtain ⟨e, c⟩ := a
    simp only [List.all_cons, Bool.and_eq_true] at h
    simp only [evalArms, eval_exprHolds po e h.1, firstB]
    cases exprHolds po e
    · exact ih h.2
    · rfl

theorem needless_tame : (needless.all fun x => (x.1.arms.all fun a => tame a.1) && ((fixIn x.1 x.2.1 x.2.2.1 x.2.2.2).arms.all fun a => tame a.1)) = true := by
  decide +kernel

/-- C117: the tests of the list can be replaced, for all operands with the two properties. -/
theorem C117_needless (f : Closure) (j k : Nat) (b : Bool) (h : (f, j, k, b) ∈ needless) (po : PluralOperands) (hv : po.v = 0 → po.f = 0)
    (hn : po.i ≠ 0 → Flt.eq po.n (Flt.ofNat b64 0) = false) : (fixIn f j k b).call po = f.call po := by
  have ht := List.all_eq_true.1 needless_tame _ h
  simp only [Bool.and_eq_true] at ht
  rw [call_firstB po _ ht.1, call_firstB po _ ht.2]
  congr 1
  clear ht
  simp only [needless, List.mem_cons, Prod.mk.injEq, List.not_mem_nil, or_false] at h
  obtain ⟨n, i, v, w, ff, tt⟩ := po
  simp only at hv hn
  rcases h with ⟨rfl, rfl, rfl, rfl⟩ | ⟨rfl, rfl, rfl, rfl⟩ | ⟨rfl, rfl, rfl, rfl⟩ | ⟨rfl, rfl, rfl, rfl⟩ | ⟨rfl, rfl, rfl, rfl⟩ | ⟨rfl, rfl, rfl, rfl⟩ | ⟨rfl, rfl, rfl, rfl⟩ | ⟨rfl, rfl, rfl, rfl⟩ | ⟨rfl, rfl, rfl, rfl⟩ | ⟨rfl, rfl, rfl, rfl⟩ | ⟨rfl, rfl, rfl, rfl⟩ | ⟨rfl, rfl, rfl, rfl⟩ | ⟨rfl, rfl, rfl, rfl⟩ | ⟨rfl, rfl, rfl, rfl⟩ | ⟨rfl, rfl, rfl, rfl⟩ | ⟨rfl, rfl, rfl, rfl⟩ | ⟨rfl, rfl, rfl, rfl⟩ | ⟨rfl, rfl, rfl, rfl⟩ | ⟨rfl, rfl, rfl, rfl⟩ | ⟨rfl, rfl, rfl, rfl⟩ | ⟨rfl, rfl, rfl, rfl⟩ | ⟨rfl, rfl, rfl, rfl⟩ | ⟨rfl, rfl, rfl, rfl⟩ | ⟨rfl, rfl, rfl, rfl⟩
  all_goals
    simp [fixIn, List.modify, List.modifyTailIdx, List.modifyTailIdx.go, List.modifyHead, fixTest, testsIn, always, cardinalFn5, cardinalFn9, cardinalFn10, cardinalFn17, cardinalFn18, cardinalFn19, cardinalFn22, cardinalFn24, cardinalFn25, cardinalFn27,
      cardinalFn29, cardinalFn31, cardinalFn34, ordinalFn14, firstB, exprHolds, numOf, cmpInt, cmpFlt]
  all_goals first | grind | (split_ifs <;> first | rfl | omega) | skip
  have e : (Flt.eq n (Flt.ofNat b64 0) = false ∧ i % 1000000 = 100000) = (i % 1000000 = 100000) :=
    propext ⟨And.right, fun h => ⟨hn (fun h0 => by rw [h0] at h; exact absurd h (by norm_num)), h⟩⟩
  simp only [e]

/-! ## Needed -/

/-- Texts that show all tests that matter. -/
def testTexts : List Str :=
  [c!"0", c!"0.1", c!"0.2", c!"1", c!"1.2", c!"2", c!"2.112", c!"2.6", c!"3", c!"3.9999999999999999999", c!"4.9999999999999999999", c!"5.1", c!"6",
   c!"6.00", c!"7", c!"7.11", c!"8", c!"9", c!"10", c!"11", c!"12", c!"13", c!"13.21", c!"14", c!"17", c!"18", c!"19", c!"20", c!"21.12", c!"22.4",
   c!"23", c!"40", c!"41", c!"42", c!"43", c!"50", c!"60", c!"61", c!"62", c!"63", c!"70", c!"71", c!"72", c!"79", c!"80", c!"81", c!"82", c!"83",
   c!"90", c!"91", c!"92", c!"99", c!"100.0", c!"200", c!"300", c!"400", c!"500", c!"600", c!"700", c!"800", c!"900", c!"1000", c!"1011", c!"40000",
   c!"60000", c!"80000", c!"100000"]

/-- Texts that tell the function from the one with a test replaced; in the order of the tests, first by true, then by false. -/
def tellingApart : List (Closure × List Str) :=
  [(cardinalFn0, [c!"0", c!"1"]),
   (cardinalFn1, [c!"2", c!"0", c!"0.1", c!"0"]),
   (cardinalFn2, [c!"1.2", c!"0", c!"1.2", c!"1"]),
   (cardinalFn3, [c!"0", c!"3", c!"0", c!"11", c!"0", c!"1", c!"0", c!"2", c!"0.1", c!"0"]),
   (cardinalFn4, [c!"0", c!"1", c!"1.2", c!"1"]),
   (cardinalFn5, [c!"0", c!"2", c!"2", c!"", c!"1", c!"0", c!"1", c!"5.1", c!"1", c!"11", c!"17", c!"1", c!"1011", c!"1"]),
   (cardinalFn6, []),
   (cardinalFn7, [c!"0", c!"9", c!"0", c!"3", c!"3", c!"19", c!"3", c!"79", c!"3", c!"99", c!"0", c!"0.1", c!"1", c!"0.1", c!"0", c!"1", c!"11", c!"1", c!"71",
      c!"1", c!"91", c!"1", c!"0", c!"2", c!"12", c!"2", c!"72", c!"2", c!"92", c!"2"]),
   (cardinalFn8, [c!"2.6", c!"2", c!"0", c!"2", c!"2", c!"12", c!"0", c!"0.2", c!"0.2", c!"21.12", c!"21.12", c!"1", c!"0", c!"1", c!"11", c!"1", c!"0", c!"0.1",
      c!"7.11", c!"0.1"]),
   (cardinalFn9, [c!"2.6", c!"", c!"6", c!"", c!"6", c!"", c!"6", c!"", c!"2.6", c!"0", c!"14", c!"0", c!"6", c!"0", c!"9", c!"0", c!"6", c!"0.1", c!"22.4",
      c!"0.1", c!"2.6", c!"0.1", c!"3.9999999999999999999", c!"0.1"]),
   (cardinalFn10, [c!"0", c!"2", c!"2.6", c!"2", c!"0", c!"0.1", c!"0", c!"1", c!"", c!"1"]),
   (cardinalFn11, [c!"0", c!"3", c!"0", c!"6", c!"0", c!"1", c!"0", c!"2", c!"0.1", c!"0"]),
   (cardinalFn12, [c!"0", c!"1", c!"0", c!"0.1", c!"2.6", c!"0.1", c!"2.6", c!"1.2"]),
   (cardinalFn13, [c!"3.9999999999999999999", c!"3", c!"0", c!"3", c!"0", c!"22.4", c!"1.2", c!"1", c!"0", c!"1", c!"0", c!"0.1", c!"2.6", c!"2", c!"0", c!"2",
      c!"0", c!"0.2"]),
   (cardinalFn14, [c!"2", c!"0", c!"2", c!"1"]),
   (cardinalFn15, [c!"0", c!"3", c!"3.9999999999999999999", c!"3", c!"0", c!"7", c!"7.11", c!"7", c!"0", c!"1", c!"0", c!"2"]),
   (cardinalFn16, [c!"0", c!"3", c!"3.9999999999999999999", c!"3", c!"0", c!"13", c!"13.21", c!"13", c!"0", c!"1", c!"0", c!"11", c!"0", c!"2", c!"0", c!"12"]),
   (cardinalFn17, [c!"0.1", c!"0", c!"1", c!"0", c!"1", c!"20", c!"1", c!"40", c!"1", c!"60", c!"1", c!"80", c!"1", c!"0.1", c!"", c!"1", c!"2", c!"1", c!"",
      c!"2", c!"3", c!"2"]),
   (cardinalFn18, [c!"100.0", c!"20", c!"20", c!"0", c!"", c!"20", c!"11", c!"20", c!"0", c!"1", c!"1.2", c!"1", c!"0", c!"2", c!"2.6", c!"2"]),
   (cardinalFn19, [c!"", c!"1", c!"0", c!"1", c!"11", c!"1", c!"0", c!"0.1"]),
   (cardinalFn20, [c!"0", c!"1", c!"0", c!"2"]),
   (cardinalFn21, [c!"0", c!"1", c!"0.1", c!"0"]),
   (cardinalFn22, [c!"0", c!"3", c!"0", c!"23", c!"0", c!"43", c!"0", c!"63", c!"0", c!"83", c!"1", c!"1.2", c!"0", c!"1.2", c!"0", c!"21.12", c!"0", c!"41",
      c!"0", c!"61", c!"0", c!"81", c!"0", c!"1", c!"0", c!"2", c!"0", c!"22.4", c!"0", c!"42", c!"0", c!"62", c!"0", c!"82", c!"1011", c!"1000",
      c!"0", c!"40000", c!"0", c!"60000", c!"0", c!"80000", c!"0", c!"1000", c!"", c!"100000", c!"0.1", c!"100000", c!"0.1", c!"0"]),
   (cardinalFn23, [c!"2", c!"0.1", c!"2", c!"1", c!"0", c!"0.1", c!"2", c!"0"]),
   (cardinalFn24, [c!"0", c!"2", c!"2", c!"", c!"0", c!"0.1", c!"0", c!"1", c!"1", c!"11"]),
   (cardinalFn25, [c!"0", c!"1", c!"11", c!"1", c!"", c!"13.21", c!"6.00", c!"13.21", c!"7.11", c!"13.21", c!"7.11", c!"0.1", c!"0", c!"0.1", c!"2", c!"0", c!"2",
      c!"11", c!"2.112", c!"7.11", c!"6.00", c!"7.11"]),
   (cardinalFn26, [c!"1.2", c!"1", c!"0", c!"1", c!"11", c!"1", c!"0", c!"0.1", c!"7.11", c!"0.1"]),
   (cardinalFn27, [c!"1", c!"0.1", c!"1", c!"0", c!"1", c!"2", c!"20", c!"1", c!"", c!"1"]),
   (cardinalFn28, [c!"0.1", c!"0", c!"0.1", c!"2", c!"0.1", c!"11", c!"0.1", c!"1"]),
   (cardinalFn29, [c!"2.6", c!"2", c!"0", c!"2", c!"2", c!"12", c!"0.1", c!"0", c!"1", c!"0", c!"", c!"0", c!"5.1", c!"6", c!"1", c!"6", c!"13.21", c!"12", c!"1",
      c!"12", c!"", c!"1", c!"1.2", c!"1"]),
   (cardinalFn30, [c!"2", c!"0"]),
   (cardinalFn31, [c!"2.6", c!"2", c!"0", c!"2", c!"2", c!"12", c!"0.1", c!"0", c!"1", c!"0", c!"5.1", c!"6", c!"1", c!"6", c!"13.21", c!"11", c!"1", c!"11",
      c!"1.2", c!"1", c!"", c!"1", c!"", c!"1"]),
   (cardinalFn32, [c!"0", c!"2", c!"2.6", c!"2", c!"1.2", c!"0", c!"1.2", c!"1"]),
   (cardinalFn33, [c!"0.2", c!"0", c!"0.2", c!"1", c!"5.1", c!"0.1", c!"0.2", c!"0.1"]),
   (cardinalFn34, [c!"", c!"3", c!"0", c!"3", c!"0", c!"0.1", c!"", c!"1", c!"0", c!"1", c!"", c!"2", c!"0", c!"2"]),
   (cardinalFn35, [c!"2", c!"0", c!"0.1", c!"0", c!"2", c!"11", c!"13.21", c!"11"]),
   (ordinalFn0, []),
   (ordinalFn1, [c!"0", c!"3.9999999999999999999", c!"0", c!"6", c!"0", c!"1", c!"0", c!"4.9999999999999999999", c!"0", c!"7", c!"0", c!"8", c!"0", c!"9",
      c!"0", c!"10", c!"0", c!"2", c!"0", c!"3"]),
   (ordinalFn2, [c!"0", c!"3", c!"0", c!"4.9999999999999999999", c!"0", c!"100.0", c!"0", c!"200", c!"0", c!"300", c!"0", c!"400", c!"0", c!"500", c!"0",
      c!"600", c!"0", c!"700", c!"0", c!"800", c!"0", c!"900", c!"1", c!"0", c!"1", c!"6", c!"1", c!"40", c!"1", c!"60", c!"1", c!"90", c!"9", c!"1",
      c!"9", c!"2", c!"9", c!"5.1", c!"9", c!"7", c!"9", c!"8", c!"9", c!"20", c!"9", c!"50", c!"9", c!"70", c!"9", c!"80"]),
   (ordinalFn3, [c!"0", c!"2", c!"0", c!"3", c!"12", c!"2", c!"13", c!"2"]),
   (ordinalFn4, [c!"0", c!"3.9999999999999999999", c!"0", c!"1", c!"0", c!"3", c!"0", c!"2"]),
   (ordinalFn5, [c!"0", c!"3", c!"0", c!"3.9999999999999999999", c!"0", c!"4.9999999999999999999", c!"0", c!"6", c!"0", c!"1", c!"0", c!"2", c!"0.1", c!"0",
      c!"0.1", c!"7", c!"0.1", c!"8", c!"0.1", c!"9"]),
   (ordinalFn6, [c!"0", c!"3", c!"13", c!"3", c!"0", c!"1", c!"11", c!"1", c!"0", c!"2", c!"12", c!"2"]),
   (ordinalFn7, [c!"0", c!"1"]),
   (ordinalFn8, [c!"0", c!"3", c!"0", c!"13", c!"0", c!"1", c!"0", c!"11", c!"0", c!"2", c!"0", c!"12"]),
   (ordinalFn9, [c!"0", c!"3.9999999999999999999", c!"0", c!"6", c!"0", c!"1", c!"0", c!"2", c!"0", c!"3"]),
   (ordinalFn10, [c!"0", c!"1", c!"0", c!"4.9999999999999999999"]),
   (ordinalFn11, [c!"0", c!"11", c!"0", c!"8", c!"0", c!"80", c!"0", c!"800"]),
   (ordinalFn12, [c!"1", c!"0", c!"1", c!"40", c!"1", c!"60", c!"1", c!"80", c!"1", c!"2", c!"21.12", c!"1"]),
   (ordinalFn13, [c!"0", c!"6", c!"0", c!"9", c!"1", c!"0.1", c!"0", c!"0.1"]),
   (ordinalFn14, [c!"0", c!"4.9999999999999999999", c!"0", c!"5.1", c!"0", c!"", c!"", c!"", c!"0", c!"1.2", c!"0", c!"21.12", c!"0", c!"41", c!"0", c!"61",
      c!"0", c!"81"]),
   (ordinalFn15, [c!"0", c!"7", c!"0", c!"8", c!"17", c!"7", c!"18", c!"7", c!"0", c!"1", c!"11", c!"1", c!"0", c!"2", c!"12", c!"2"]),
   (ordinalFn16, [c!"0", c!"3.9999999999999999999", c!"0", c!"1", c!"0", c!"2", c!"0", c!"3"]),
   (ordinalFn17, [c!"0", c!"1", c!"1.2", c!"1"]),
   (ordinalFn18, [c!"0", c!"3.9999999999999999999", c!"0", c!"6", c!"0", c!"1", c!"0", c!"4.9999999999999999999", c!"0", c!"7", c!"7.11", c!"7", c!"0", c!"2",
      c!"0", c!"3"]),
   (ordinalFn19, [c!"0", c!"4.9999999999999999999", c!"14", c!"4.9999999999999999999", c!"0", c!"1"]),
   (ordinalFn20, [c!"0", c!"1", c!"0", c!"2", c!"11", c!"1", c!"12", c!"1"]),
   (ordinalFn21, [c!"0", c!"6", c!"0", c!"9", c!"0", c!"10"]),
   (ordinalFn22, [c!"0", c!"3", c!"13", c!"3"])]

/-- All replacements in a function. -/
def allTests (f : Closure) : List (Nat × Nat × Bool) :=
  (List.range f.arms.length).flatMap fun j => (List.range ((f.arms[j]?.map fun a => testsIn a.1).getD 0)).flatMap fun k => [(j, k, true), (j, k, false)]

theorem mem_allTests {f : Closure} {j k : Nat} {arm : RExpr × PluralCategory} (ha : f.arms[j]? = some arm) (hk : k < testsIn arm.1) (b : Bool) :
    (j, k, b) ∈ allTests f := by
  refine List.mem_flatMap.2 ⟨j, List.mem_range.2 (List.getElem?_eq_some_iff.1 ha).1, List.mem_flatMap.2 ⟨k, ?_, ?_⟩⟩
  · rw [ha]; exact List.mem_range.2 hk
  · cases b <;> simp

/-- The text shows that the test matters. -/
def showsTest (f : Closure) (x : Nat × Nat × Bool) (s : Str) : Bool :=
  match (tryFromStr s).toOption with
  | some po => (fixIn f x.1 x.2.1 x.2.2).call po != f.call po
  | none => false

theorem needed_checked : (tellingApart.all fun y => (allTests y.1).length == y.2.length &&
    ((allTests y.1).zip y.2).all fun z => needless.contains (y.1, z.1) || (testTexts.contains z.2 && showsTest y.1 z.1 z.2)) = true := by decide +kernel

theorem functions_checked : (closures.all fun f => tellingApart.any fun y => y.1 == f) = true := by decide +kernel

theorem fst_mem_zip {α β : Type} (l : List α) (l' : List β) (h : l.length = l'.length) (x : α) (hx : x ∈ l) : ∃ y, (x, y) ∈ l.zip l' := by
  induction l generalizing l' with
  | nil => cases hx
  | cons a l ih =>
    cases l' with
    | nil => cases h
    | cons b l' =>
      rcases List.mem_cons.1 hx with rfl | hx
      · exact ⟨b, by simp⟩
      · obtain ⟨y, hy⟩ := ih l' (by simpa using h) hx
        exact ⟨y, by simp [hy]⟩

/-! ## Inputs -/

attribute [local irreducible] Flt.ofNat Flt.ofRat

theorem tiny_lt_one (m : Nat) (hm : m ≠ 0) : (1 : ℚ) / 2 ^ m < 1 := by
  rw [div_lt_one (by positivity)]
  exact one_lt_pow₀ (by norm_num) hm

/-- A number that is rounded to zero is below 1. -/
theorem zero_below_one (d : Dec) (n : Flt) (hn : Ieee b64 d.value n) (hi : d.i ≠ 0) : Flt.eq n (Flt.ofNat b64 0) = false := by
  rw [← Bool.not_eq_true]
  intro h'
  rw [equal_readAs d n hn 0 (by norm_num), ReadAs, if_pos rfl] at h'
  have h3 : (d.i : ℚ) ≤ d.value := by
    rw [Dec.value]
    exact le_add_of_nonneg_right (by positivity)
  have h4 : (1 : ℚ) ≤ (d.i : ℚ) := by exact_mod_cast Nat.one_le_iff_ne_zero.2 hi
  exact absurd (h4.trans (h3.trans h')) (not_le.2 (tiny_lt_one 1075 (by norm_num)))

theorem fromUnsigned_zero (k : Nat) : k ≠ 0 → Flt.eq (Flt.ofNat b64 k) (Flt.ofNat b64 0) = false := fun hk =>
  zero_below_one ⟨k, []⟩ _ (C08_operands k).n hk

theorem text_zero (s : Str) (po : PluralOperands) (h : tryFromStr s = .ok po) :
    (po.v = 0 → po.f = 0) ∧ (po.i ≠ 0 → Flt.eq po.n (Flt.ofNat b64 0) = false) := by
  refine ⟨fun hv => ?_, ?_⟩
  · have := (C16_consistent s po h).f_lt
    rw [hv] at this
    omega
  · rcases tryFromStr_ok s po h with ⟨-, x, -, rfl⟩ | ⟨ip, fp, -, -, -, -, -, rfl⟩
    · intro hi
      rw [ofNat_exact 0 (by norm_num), Nat.zero_mul]
      simp only at hi ⊢
      cases x with
      | nan => rfl
      | inf neg => rfl
      | fin neg m =>
        have hm : m ≠ 0 := by
          rintro rfl
          cases neg <;> simp [Flt.toU64] at hi
        simp [Flt.eq, hm]
    · exact zero_below_one (decOf ip fp) _ (ieee_value _)

/-- The rules of a locale with a test replaced. -/
def fixRules (pr : PluralRules) (j k : Nat) (b : Bool) : PluralRules := { pr with function := fixIn pr.function j k b }

theorem select_fix (pr : PluralRules) (j k : Nat) (b : Bool) (h : (pr.function, j, k, b) ∈ needless) (ops : Except OpsErr PluralOperands)
    (ho : ∀ po, ops = .ok po → (po.v = 0 → po.f = 0) ∧ (po.i ≠ 0 → Flt.eq po.n (Flt.ofNat b64 0) = false)) :
    select (fixRules pr j k b) ops = select pr ops := by
  cases ops with
  | error e => rfl
  | ok po =>
    obtain ⟨h1, h2⟩ := ho po rfl
    have := C117_needless _ j k b h po h1 h2
    unfold select
    simp only [fixRules, this]

/-- C117: with a needless test replaced, `select` gives the same for every text, integer and float. -/
theorem C117_inputs (pr : PluralRules) (j k : Nat) (b : Bool) (h : (pr.function, j, k, b) ∈ needless) :
    (∀ s, select (fixRules pr j k b) (tryFromStr s) = select pr (tryFromStr s)) ∧
    (∀ x, select (ε := OpsErr) (fixRules pr j k b) (.ok (fromUnsigned x)) = select (ε := OpsErr) pr (.ok (fromUnsigned x))) ∧
    (∀ bits x, select (fixRules pr j k b) (tryFromSigned bits x) = select pr (tryFromSigned bits x)) ∧
    ∀ F x, select (fixRules pr j k b) (tryFromFloat F x) = select pr (tryFromFloat F x) := by
  refine ⟨fun s => select_fix pr j k b h _ (text_zero s), fun x => select_fix pr j k b h _ ?_, fun bits x => select_fix pr j k b h _ ?_,
    fun F x => select_fix pr j k b h _ (text_zero _)⟩
  · intro po hp
    rw [← Except.ok.inj hp]
    exact ⟨fun _ => rfl, fromUnsigned_zero x⟩
  · intro po hp
    unfold tryFromSigned at hp
    simp only at hp
    split_ifs at hp
    rw [← Except.ok.inj hp]
    exact ⟨fun _ => rfl, fromUnsigned_zero _⟩

theorem needed_text (t : PluralRuleType) (id : LangId) (pr : PluralRules) (h : create id t = .ok pr) (j k : Nat) (arm : RExpr × PluralCategory)
    (ha : pr.function.arms[j]? = some arm) (hk : k < testsIn arm.1) (b : Bool)
    (hall : ∀ s ∈ testTexts, select (fixRules pr j k b) (tryFromStr s) = select pr (tryFromStr s)) : (pr.function, j, k, b) ∈ needless := by
  obtain ⟨⟨f, ws⟩, hy, hf⟩ := List.any_eq_true.1 (List.all_eq_true.1 functions_checked _ (function_mem h))
  simp only [beq_iff_eq] at hf
  have hc := List.all_eq_true.1 needed_checked _ hy
  simp only [Bool.and_eq_true, beq_iff_eq] at hc
  rw [hf] at hc
  obtain ⟨s, hs⟩ := fst_mem_zip _ _ hc.1 _ (mem_allTests ha hk b)
  have := List.all_eq_true.1 hc.2 _ hs
  simp only [Bool.or_eq_true, Bool.and_eq_true, List.contains_iff_mem] at this
  rcases this with h1 | ⟨hmem, h1⟩
  · exact h1
  · exfalso
    have h2 := hall s hmem
    unfold showsTest at h1
    cases hx : tryFromStr s with
    | error e => rw [hx] at h1; cases h1
    | ok po =>
      rw [hx] at h1 h2
      simp only [Except.toOption, bne_iff_ne, ne_eq] at h1
      unfold select fixRules at h2
      simp only at h2
      cases h3 : (fixIn pr.function j k b).call po <;> cases h4 : pr.function.call po <;> simp_all

/-- C117: exactly which tests in the functions of the tables can be replaced by true, or by false, without a change of the answer for any text. -/
theorem C117_tests (t : PluralRuleType) (id : LangId) (pr : PluralRules) (h : create id t = .ok pr) (j k : Nat) (arm : RExpr × PluralCategory)
    (ha : pr.function.arms[j]? = some arm) (hk : k < testsIn arm.1) (b : Bool) :
    (∀ s, select (fixRules pr j k b) (tryFromStr s) = select pr (tryFromStr s)) ↔ (pr.function, j, k, b) ∈ needless :=
  ⟨fun hall => needed_text t id pr h j k arm ha hk b fun s _ => hall s, fun hn => (C117_inputs pr j k b hn).1⟩

/-- C117: the texts of the list show each replacement that changes any answer. -/
theorem C117_texts (t : PluralRuleType) (id : LangId) (pr : PluralRules) (h : create id t = .ok pr) (j k : Nat) (arm : RExpr × PluralCategory)
    (ha : pr.function.arms[j]? = some arm) (hk : k < testsIn arm.1) (b : Bool)
    (hall : ∀ s ∈ testTexts, select (fixRules pr j k b) (tryFromStr s) = select pr (tryFromStr s)) :
    ∀ s, select (fixRules pr j k b) (tryFromStr s) = select pr (tryFromStr s) :=
  (C117_inputs pr j k b (needed_text t id pr h j k arm ha hk b hall)).1

/-! ## Examples -/

/-- Belarusian: `(2..=4).contains(&po.i) && !(12..=14).contains(&po.i)`. -/
example : (create (bareLanguage c!"be") .CARDINAL).toOption.map (·.function) = some cardinalFn5 ∧ (cardinalFn5, 0, 1, false) ∈ needless ∧
    (cardinalFn5, 0, 1, true) ∉ needless ∧ (cardinalFn5.arms[0]?).map (fun a => testsIn a.1) = some 2 := by decide +kernel

/-- `po.n == 5.0 || po.i % 100 == 5` in the ordinals of kw: the first test matters, for numbers that are rounded to 5. -/
example : showsTest ordinalFn14 (0, 0, false) c!"4.9999999999999999999" = true ∧ (ordinalFn14, 0, 0, false) ∉ needless := by decide +kernel

/-- In Russian `i % 10 == 1` and `i % 100 != 11` are needless, as the rules before have the other integers; without `v == 0` 1.5 would be ONE. -/
example : (cardinalFn31, 2, 1, true) ∈ needless ∧ (cardinalFn31, 2, 2, true) ∈ needless ∧ showsTest cardinalFn31 (2, 0, true) c!"1.5" = true := by decide +kernel

end Verif.Props
