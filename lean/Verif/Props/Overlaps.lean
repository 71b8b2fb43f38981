import Verif.Props.Needless

/-!
# C118: where the order of the tests matters
-/

namespace Verif.Props
open Verif Api Rust PluralOperands RulesTable Verif.Grammar Uts35 Spec Strings Sem

/-! ## Conditions that exclude each other -/

/-- The value of a condition, given which integers `n` is equal to. -/
def valueWith (E : Nat → Bool) (po : PluralOperands) : RExpr → Bool
  | .cmp .eq (.field .N) (.flt k) => E k
  | .cmp .ne (.field .N) (.flt k) => !E k
  | .cmp op a b => cmpInt op (numOf po a) (numOf po b)
  | .not a => !valueWith E po a
  | .and a b => valueWith E po a && valueWith E po b
  | .or a b => valueWith E po a || valueWith E po b
  | .contains lo hi a => lo ≤ numOf po a && numOf po a ≤ hi
  | _ => false

/-- No two of the conditions are true together. -/
def Exclusive (E : Nat → Bool) (po : PluralOperands) (f : Closure) : Prop :=
  f.arms.Pairwise fun a b => ¬ (valueWith E po a.1 = true ∧ valueWith E po b.1 = true)

/-- What all inputs have: if `n` is equal to an integer, `i` is it, or one less with a fraction (when `n` was rounded up). -/
structure InputFacts (E : Nat → Bool) (po : PluralOperands) : Prop where
  int : ∀ k, k < 1000 → E k = true → po.i = k ∨ (po.i + 1 = k ∧ po.f ≠ 0)
  one : ∀ k k', k < 1000 → k' < 1000 → E k = true → E k' = true → k = k'
  v : po.v = 0 → po.f = 0
  t : po.t = 0 → po.f = 0

syntax "exclusive" ident : tactic
macro_rules
  | `(tactic| exclusive $x) => `(tactic| (
      intro E po h
      obtain ⟨n, i, v, w, f, t⟩ := po
      obtain ⟨h1, h2, h3, h4⟩ := h
      simp only at h1 h3 h4
      simp [Exclusive, $x:ident, valueWith, numOf, cmpInt]
      try grind))

theorem exclusive_c0 : ∀ E po, InputFacts E po → Exclusive E po cardinalFn0 := by exclusive cardinalFn0
theorem exclusive_c1 : ∀ E po, InputFacts E po → Exclusive E po cardinalFn1 := by exclusive cardinalFn1
theorem exclusive_c2 : ∀ E po, InputFacts E po → Exclusive E po cardinalFn2 := by exclusive cardinalFn2
theorem exclusive_c3 : ∀ E po, InputFacts E po → Exclusive E po cardinalFn3 := by exclusive cardinalFn3
theorem exclusive_c4 : ∀ E po, InputFacts E po → Exclusive E po cardinalFn4 := by exclusive cardinalFn4
theorem exclusive_c5 : ∀ E po, InputFacts E po → Exclusive E po cardinalFn5 := by exclusive cardinalFn5
theorem exclusive_c6 : ∀ E po, InputFacts E po → Exclusive E po cardinalFn6 := by exclusive cardinalFn6
theorem exclusive_c7 : ∀ E po, InputFacts E po → Exclusive E po cardinalFn7 := by exclusive cardinalFn7
theorem exclusive_c8 : ∀ E po, InputFacts E po → Exclusive E po cardinalFn8 := by exclusive cardinalFn8
theorem exclusive_c9 : ∀ E po, InputFacts E po → Exclusive E po cardinalFn9 := by exclusive cardinalFn9
theorem exclusive_c10 : ∀ E po, InputFacts E po → Exclusive E po cardinalFn10 := by exclusive cardinalFn10
theorem exclusive_c11 : ∀ E po, InputFacts E po → Exclusive E po cardinalFn11 := by exclusive cardinalFn11
theorem exclusive_c12 : ∀ E po, InputFacts E po → Exclusive E po cardinalFn12 := by exclusive cardinalFn12
theorem exclusive_c13 : ∀ E po, InputFacts E po → Exclusive E po cardinalFn13 := by exclusive cardinalFn13
theorem exclusive_c14 : ∀ E po, InputFacts E po → Exclusive E po cardinalFn14 := by exclusive cardinalFn14
theorem exclusive_c15 : ∀ E po, InputFacts E po → Exclusive E po cardinalFn15 := by exclusive cardinalFn15
theorem exclusive_c16 : ∀ E po, InputFacts E po → Exclusive E po cardinalFn16 := by exclusive cardinalFn16
theorem exclusive_c17 : ∀ E po, InputFacts E po → Exclusive E po cardinalFn17 := by exclusive cardinalFn17
theorem exclusive_c18 : ∀ E po, InputFacts E po → Exclusive E po cardinalFn18 := by exclusive cardinalFn18
theorem exclusive_c19 : ∀ E po, InputFacts E po → Exclusive E po cardinalFn19 := by exclusive cardinalFn19
theorem exclusive_c20 : ∀ E po, InputFacts E po → Exclusive E po cardinalFn20 := by exclusive cardinalFn20
theorem exclusive_c21 : ∀ E po, InputFacts E po → Exclusive E po cardinalFn21 := by exclusive cardinalFn21
theorem exclusive_c23 : ∀ E po, InputFacts E po → Exclusive E po cardinalFn23 := by exclusive cardinalFn23
theorem exclusive_c26 : ∀ E po, InputFacts E po → Exclusive E po cardinalFn26 := by exclusive cardinalFn26
theorem exclusive_c27 : ∀ E po, InputFacts E po → Exclusive E po cardinalFn27 := by exclusive cardinalFn27
theorem exclusive_c28 : ∀ E po, InputFacts E po → Exclusive E po cardinalFn28 := by exclusive cardinalFn28
theorem exclusive_c29 : ∀ E po, InputFacts E po → Exclusive E po cardinalFn29 := by exclusive cardinalFn29
theorem exclusive_c30 : ∀ E po, InputFacts E po → Exclusive E po cardinalFn30 := by exclusive cardinalFn30
theorem exclusive_c31 : ∀ E po, InputFacts E po → Exclusive E po cardinalFn31 := by exclusive cardinalFn31
theorem exclusive_c32 : ∀ E po, InputFacts E po → Exclusive E po cardinalFn32 := by exclusive cardinalFn32
theorem exclusive_c33 : ∀ E po, InputFacts E po → Exclusive E po cardinalFn33 := by exclusive cardinalFn33
theorem exclusive_c34 : ∀ E po, InputFacts E po → Exclusive E po cardinalFn34 := by exclusive cardinalFn34
theorem exclusive_c35 : ∀ E po, InputFacts E po → Exclusive E po cardinalFn35 := by exclusive cardinalFn35
theorem exclusive_o0 : ∀ E po, InputFacts E po → Exclusive E po ordinalFn0 := by exclusive ordinalFn0
theorem exclusive_o1 : ∀ E po, InputFacts E po → Exclusive E po ordinalFn1 := by exclusive ordinalFn1
theorem exclusive_o2 : ∀ E po, InputFacts E po → Exclusive E po ordinalFn2 := by
  intro E po h
  obtain ⟨n, i, v, w, f, t⟩ := po
  obtain ⟨h1, h2, h3, h4⟩ := h
  simp only at h1 h3 h4
  simp [Exclusive, ordinalFn2, valueWith, numOf, cmpInt]
  clear h1 h2 h3 h4
  and_intros <;> intro h <;> omega
theorem exclusive_o3 : ∀ E po, InputFacts E po → Exclusive E po ordinalFn3 := by exclusive ordinalFn3
theorem exclusive_o4 : ∀ E po, InputFacts E po → Exclusive E po ordinalFn4 := by exclusive ordinalFn4
theorem exclusive_o5 : ∀ E po, InputFacts E po → Exclusive E po ordinalFn5 := by
  intro E po h
  obtain ⟨n, i, v, w, f, t⟩ := po
  obtain ⟨h1, h2, h3, h4⟩ := h
  simp only at h1 h3 h4
  simp [Exclusive, ordinalFn5, valueWith, numOf, cmpInt]
  and_intros <;> grind
theorem exclusive_o6 : ∀ E po, InputFacts E po → Exclusive E po ordinalFn6 := by exclusive ordinalFn6
theorem exclusive_o7 : ∀ E po, InputFacts E po → Exclusive E po ordinalFn7 := by exclusive ordinalFn7
theorem exclusive_o8 : ∀ E po, InputFacts E po → Exclusive E po ordinalFn8 := by exclusive ordinalFn8
theorem exclusive_o9 : ∀ E po, InputFacts E po → Exclusive E po ordinalFn9 := by exclusive ordinalFn9
theorem exclusive_o10 : ∀ E po, InputFacts E po → Exclusive E po ordinalFn10 := by exclusive ordinalFn10
theorem exclusive_o11 : ∀ E po, InputFacts E po → Exclusive E po ordinalFn11 := by exclusive ordinalFn11
theorem exclusive_o12 : ∀ E po, InputFacts E po → Exclusive E po ordinalFn12 := by exclusive ordinalFn12
theorem exclusive_o13 : ∀ E po, InputFacts E po → Exclusive E po ordinalFn13 := by exclusive ordinalFn13
theorem exclusive_o15 : ∀ E po, InputFacts E po → Exclusive E po ordinalFn15 := by exclusive ordinalFn15
theorem exclusive_o16 : ∀ E po, InputFacts E po → Exclusive E po ordinalFn16 := by exclusive ordinalFn16
theorem exclusive_o17 : ∀ E po, InputFacts E po → Exclusive E po ordinalFn17 := by exclusive ordinalFn17
theorem exclusive_o18 : ∀ E po, InputFacts E po → Exclusive E po ordinalFn18 := by exclusive ordinalFn18
theorem exclusive_o19 : ∀ E po, InputFacts E po → Exclusive E po ordinalFn19 := by exclusive ordinalFn19
theorem exclusive_o20 : ∀ E po, InputFacts E po → Exclusive E po ordinalFn20 := by exclusive ordinalFn20
theorem exclusive_o21 : ∀ E po, InputFacts E po → Exclusive E po ordinalFn21 := by exclusive ordinalFn21
theorem exclusive_o22 : ∀ E po, InputFacts E po → Exclusive E po ordinalFn22 := by exclusive ordinalFn22

theorem exclusive_c22 : ∀ E po, InputFacts E po → Exclusive E po cardinalFn22 := by
  intro E po h
  obtain ⟨n, i, v, w, f, t⟩ := po
  obtain ⟨h1, h2, h3, h4⟩ := h
  simp only at h1 h3 h4
  have e0 := h1 0 (by norm_num)
  have e1 := h1 1 (by norm_num)
  have e2 := h2 0 1 (by norm_num) (by norm_num)
  clear h1 h2 h3 h4
  simp [Exclusive, cardinalFn22, valueWith, numOf, cmpInt]
  generalize E 0 = b0, E 1 = b1 at *
  cases b0 <;> cases b1 <;> simp only [decide_eq_true_eq, decide_eq_false_iff_not, forall_const, true_implies, reduceCtorEq, false_implies, implies_true, true_and, and_true] at e0 e1 e2 ⊢ <;> and_intros <;> intros <;> first | omega | grind

/-- The functions in which no two conditions are true together. -/
def exclusives : List Closure :=
  [cardinalFn0, cardinalFn1, cardinalFn2, cardinalFn3, cardinalFn4, cardinalFn5, cardinalFn6, cardinalFn7, cardinalFn8, cardinalFn9, cardinalFn10,
   cardinalFn11, cardinalFn12, cardinalFn13, cardinalFn14, cardinalFn15, cardinalFn16, cardinalFn17, cardinalFn18, cardinalFn19, cardinalFn20,
   cardinalFn21, cardinalFn22, cardinalFn23, cardinalFn26, cardinalFn27, cardinalFn28, cardinalFn29, cardinalFn30, cardinalFn31, cardinalFn32,
   cardinalFn33, cardinalFn34, cardinalFn35, ordinalFn0, ordinalFn1, ordinalFn2, ordinalFn3, ordinalFn4, ordinalFn5, ordinalFn6, ordinalFn7,
   ordinalFn8, ordinalFn9, ordinalFn10, ordinalFn11, ordinalFn12, ordinalFn13, ordinalFn15, ordinalFn16, ordinalFn17, ordinalFn18, ordinalFn19,
   ordinalFn20, ordinalFn21, ordinalFn22]

theorem exclusives_hold (f : Closure) (hf : f ∈ exclusives) (E : Nat → Bool) (po : PluralOperands) (hE : InputFacts E po) : Exclusive E po f := by
  simp only [exclusives, List.mem_cons, List.not_mem_nil, or_false] at hf
  rcases hf with rfl | rfl | rfl | rfl | rfl | rfl | rfl | rfl | rfl | rfl | rfl | rfl | rfl | rfl | rfl | rfl | rfl | rfl | rfl | rfl | rfl | rfl | rfl | rfl | rfl | rfl | rfl | rfl | rfl | rfl | rfl | rfl | rfl | rfl | rfl | rfl | rfl | rfl | rfl | rfl | rfl | rfl | rfl | rfl | rfl | rfl | rfl | rfl | rfl | rfl | rfl | rfl | rfl | rfl | rfl | rfl
  · exact exclusive_c0 E po hE
  · exact exclusive_c1 E po hE
  · exact exclusive_c2 E po hE
  · exact exclusive_c3 E po hE
  · exact exclusive_c4 E po hE
  · exact exclusive_c5 E po hE
  · exact exclusive_c6 E po hE
  · exact exclusive_c7 E po hE
  · exact exclusive_c8 E po hE
  · exact exclusive_c9 E po hE
  · exact exclusive_c10 E po hE
  · exact exclusive_c11 E po hE
  · exact exclusive_c12 E po hE
  · exact exclusive_c13 E po hE
  · exact exclusive_c14 E po hE
  · exact exclusive_c15 E po hE
  · exact exclusive_c16 E po hE
  · exact exclusive_c17 E po hE
  · exact exclusive_c18 E po hE
  · exact exclusive_c19 E po hE
  · exact exclusive_c20 E po hE
  · exact exclusive_c21 E po hE
  · exact exclusive_c22 E po hE
  · exact exclusive_c23 E po hE
  · exact exclusive_c26 E po hE
  · exact exclusive_c27 E po hE
  · exact exclusive_c28 E po hE
  · exact exclusive_c29 E po hE
  · exact exclusive_c30 E po hE
  · exact exclusive_c31 E po hE
  · exact exclusive_c32 E po hE
  · exact exclusive_c33 E po hE
  · exact exclusive_c34 E po hE
  · exact exclusive_c35 E po hE
  · exact exclusive_o0 E po hE
  · exact exclusive_o1 E po hE
  · exact exclusive_o2 E po hE
  · exact exclusive_o3 E po hE
  · exact exclusive_o4 E po hE
  · exact exclusive_o5 E po hE
  · exact exclusive_o6 E po hE
  · exact exclusive_o7 E po hE
  · exact exclusive_o8 E po hE
  · exact exclusive_o9 E po hE
  · exact exclusive_o10 E po hE
  · exact exclusive_o11 E po hE
  · exact exclusive_o12 E po hE
  · exact exclusive_o13 E po hE
  · exact exclusive_o15 E po hE
  · exact exclusive_o16 E po hE
  · exact exclusive_o17 E po hE
  · exact exclusive_o18 E po hE
  · exact exclusive_o19 E po hE
  · exact exclusive_o20 E po hE
  · exact exclusive_o21 E po hE
  · exact exclusive_o22 E po hE

/-! ## Inputs -/

attribute [local irreducible] Flt.ofNat Flt.ofRat

/-- `n` is only compared by `==` and `!=`. -/
def onlyEqual : RExpr → Bool
  | .cmp op a _ => a != .field .N || op == .eq || op == .ne
  | .not a => onlyEqual a
  | .and a b => onlyEqual a && onlyEqual b
  | .or a b => onlyEqual a && onlyEqual b
  | _ => true

theorem exprHolds_valueWith (po : PluralOperands) (e : RExpr) (h : onlyEqual e = true) :
    exprHolds po e = valueWith (fun k => Flt.eq po.n (Flt.ofNat b64 k)) po e := by
  induction e with
  | cmp op a b iha ihb =>
    by_cases hn : a = .field .N ∧ ∃ k, b = .flt k
    · obtain ⟨rfl, k, rfl⟩ := hn
      cases op <;> first | rfl | (simp [onlyEqual] at h)
    · have h1 : exprHolds po (.cmp op a b) = cmpInt op (numOf po a) (numOf po b) := by
        unfold exprHolds
        split <;> simp_all
      have h2 : valueWith (fun k => Flt.eq po.n (Flt.ofNat b64 k)) po (.cmp op a b) = cmpInt op (numOf po a) (numOf po b) := by
        unfold valueWith
        split <;> simp_all
      rw [h1, h2]
  | not a ih => simp only [onlyEqual] at h; simp only [exprHolds, valueWith, ih h]
  | and a b iha ihb =>
    simp only [onlyEqual, Bool.and_eq_true] at h
    simp only [exprHolds, valueWith, iha h.1, ihb h.2]
  | or a b iha ihb =>
    simp only [onlyEqual, Bool.and_eq_true] at h
    simp only [exprHolds, valueWith, iha h.1, ihb h.2]
  | contains lo hi a ih => rfl
  | _ => rfl

theorem eq_integer (x : Flt) (k : Nat) (hk : k < 1000) (h : Flt.eq x (Flt.ofNat b64 k) = true) :
    ∃ neg, x = .fin neg (k * 2 ^ 1074) ∧ (neg = true → k = 0) := by
  rw [ofNat_exact k (by omega)] at h
  have hz : k * 2 ^ 1074 = 0 → k = 0 := fun h => (Nat.mul_eq_zero.1 h).resolve_right (by positivity)
  generalize k * 2 ^ 1074 = q at *
  cases x with
  | nan => cases h
  | inf neg => cases h
  | fin neg m =>
    simp only [Flt.eq, Bool.and_eq_true, Bool.or_eq_true, beq_iff_eq] at h
    obtain ⟨rfl, h2⟩ := h
    refine ⟨neg, rfl, fun hneg => hz (h2.resolve_left (by rw [hneg]; decide))⟩

theorem text_facts (s : Str) (po : PluralOperands) (h : tryFromStr s = .ok po) : InputFacts (fun k => Flt.eq po.n (Flt.ofNat b64 k)) po := by
  refine ⟨?_, ?_, (text_zero s po h).1, fun ht => ?_⟩
  · rcases tryFromStr_ok s po h with ⟨-, x, -, rfl⟩ | ⟨ip, fp, -, -, -, -, -, rfl⟩
    · intro k hk he
      obtain ⟨neg, rfl, hz⟩ := eq_integer x k hk he
      refine .inl ?_
      simp only [Flt.toU64]
      have : k * 2 ^ 1074 / 2 ^ b64.scale = k := Nat.mul_div_cancel k (by positivity)
      rw [this]
      cases neg
      · simp only [Bool.false_eq_true, if_false]; omega
      · rw [hz rfl]; rfl
    · intro k hk he
      have ho : OperandsOf (decOperands ip fp) (decOf ip fp) := ⟨rfl, rfl, rfl, rfl, rfl, ieee_value _⟩
      rcases right_or_near _ _ ho k (by omega) with h1 | ⟨-, -, h1, h2⟩
      · rw [he] at h1
        have h2 := (flt_eq_iff (ideal_represents (decOf ip fp)) trivial k (by omega)).1 h1.symm
        exact .inl h2.2
      · rcases h2 with h2 | h2
        · exact .inl h2
        · exact .inr ⟨h2, h1⟩
  · intro k k' hk hk' h1 h2
    obtain ⟨neg, e1, -⟩ := eq_integer _ k hk h1
    obtain ⟨neg', e2, -⟩ := eq_integer _ k' hk' h2
    have e3 := (Flt.fin.inj (e1.symm.trans e2)).2
    exact Nat.eq_of_mul_eq_mul_right (by positivity) e3
  · rw [(C16_consistent s po h).f_eq, ht, Nat.zero_mul]

/-! ## Which conditions overlap -/

/-- The functions, with pairs of conditions that are true together of some text. -/
def overlaps : List (Closure × Nat × Nat) := [(cardinalFn24, 0, 1), (cardinalFn24, 1, 2), (cardinalFn25, 0, 1), (ordinalFn14, 0, 1)]

/-- Texts that show it. -/
def overlapText : Closure × Nat × Nat → Str
  | (f, j, _) => if f = cardinalFn24 then (if j = 0 then c!"2.1" else c!"1.1") else if f = cardinalFn25 then c!"0.1" else c!"4.9999999999999999999"

theorem closures_tame : (closures.all fun f => f.arms.all fun a => tame a.1 && onlyEqual a.1) = true := by decide +kernel

theorem closures_known : (closures.all fun f => exclusives.contains f || f == cardinalFn24 || f == cardinalFn25 || f == ordinalFn14) = true := by decide +kernel

theorem lt_first_last (E : Nat → Bool) (po : PluralOperands) (a b : RExpr × PluralCategory) (ha : cardinalFn24.arms[0]? = some a)
    (hb : cardinalFn24.arms[2]? = some b) : ¬ (valueWith E po a.1 = true ∧ valueWith E po b.1 = true) := by
  cases ha
  cases hb
  simp [valueWith, numOf, cmpInt]
  grind

theorem overlaps_checked : (overlaps.all fun x => match (tryFromStr (overlapText x)).toOption with
    | some po => (((x.1.arms[x.2.1]?).bind fun a => a.1.eval po) == some (.bool true)) && ((x.1.arms[x.2.2]?).bind fun a => a.1.eval po) == some (.bool true)
    | none => false) = true := by decide +kernel

/-- C118: exactly which two conditions of a function are true of one number. -/
theorem C118_overlap (t : PluralRuleType) (id : LangId) (pr : PluralRules) (h : create id t = .ok pr) (j k : Nat) (hjk : j < k) (a b : RExpr × PluralCategory)
    (ha : pr.function.arms[j]? = some a) (hb : pr.function.arms[k]? = some b) :
    (∃ s po, tryFromStr s = .ok po ∧ a.1.eval po = some (.bool true) ∧ b.1.eval po = some (.bool true)) ↔ (pr.function, j, k) ∈ overlaps := by
  have hm := function_mem h
  generalize pr.function = f at *
  constructor
  · rintro ⟨s, po, h1, h2, h3⟩
    have hE := text_facts s po h1
    have ht := List.all_eq_true.1 (List.all_eq_true.1 closures_tame f hm)
    have key : ∀ x ∈ f.arms, x.1.eval po = some (.bool true) → valueWith (fun k => Flt.eq po.n (Flt.ofNat b64 k)) po x.1 = true := by
      intro x hx he
      have := ht x hx
      simp only [Bool.and_eq_true] at this
      rw [← exprHolds_valueWith po _ this.2]
      rw [eval_exprHolds po _ this.1] at he
      simpa using he
    have k1 := key a (List.mem_of_getElem? ha) h2
    have k2 := key b (List.mem_of_getElem? hb) h3
    have hk := List.all_eq_true.1 closures_known f hm
    simp only [Bool.or_eq_true, List.contains_iff_mem, beq_iff_eq] at hk
    rcases hk with ((hk | rfl) | rfl) | rfl
    · exfalso
      have := exclusives_hold f hk _ po hE
      obtain ⟨j1, rfl⟩ := List.getElem?_eq_some_iff.1 ha
      obtain ⟨j2, rfl⟩ := List.getElem?_eq_some_iff.1 hb
      exact List.pairwise_iff_getElem.1 this j k j1 j2 hjk ⟨k1, k2⟩
    · have hk3 : k < 3 := (List.getElem?_eq_some_iff.1 hb).1
      rcases (show (j = 0 ∧ k = 1) ∨ (j = 0 ∧ k = 2) ∨ (j = 1 ∧ k = 2) by omega) with ⟨rfl, rfl⟩ | ⟨rfl, rfl⟩ | ⟨rfl, rfl⟩
      · decide +kernel
      · exact absurd ⟨k1, k2⟩ (lt_first_last _ po a b ha hb)
      · decide +kernel
    · have hk3 : k < 2 := (List.getElem?_eq_some_iff.1 hb).1
      obtain ⟨rfl, rfl⟩ : j = 0 ∧ k = 1 := by omega
      decide +kernel
    · have hk3 : k < 2 := (List.getElem?_eq_some_iff.1 hb).1
      obtain ⟨rfl, rfl⟩ : j = 0 ∧ k = 1 := by omega
      decide +kernel
  · intro ho
    have := List.all_eq_true.1 overlaps_checked _ ho
    cases hx : tryFromStr (overlapText (f, j, k)) with
    | error e => rw [hx] at this; cases this
    | ok po =>
      rw [hx] at this
      simp only [Except.toOption, ha, hb, Option.bind_some, Bool.and_eq_true, beq_iff_eq] at this
      exact ⟨_, po, hx, this⟩

/-! ## Where the order matters -/

theorem firstB_perm (po : PluralOperands) (d : PluralCategory) (l l' : List (RExpr × PluralCategory)) (hp : l.Perm l')
    (he : l.Pairwise fun a b => ¬ (exprHolds po a.1 = true ∧ exprHolds po b.1 = true)) : firstB po l d = firstB po l' d := by
  have hsymm : ∀ {a b : RExpr × PluralCategory}, ¬ (exprHolds po a.1 = true ∧ exprHolds po b.1 = true) → ¬ (exprHolds po b.1 = true ∧ exprHolds po a.1 = true) :=
    fun h h' => h h'.symm
  induction hp with
  | nil => rfl
  | cons x hp ih =>
    obtain ⟨e, c⟩ := x
    simp only [firstB]
    rw [ih (List.pairwise_cons.1 he).2]
  | swap x y l =>
    obtain ⟨e, c⟩ := x
    obtain ⟨e', c'⟩ := y
    have := (List.pairwise_cons.1 he).1 (e, c) (by simp)
    simp only [firstB]
    by_cases h1 : exprHolds po e = true <;> by_cases h2 : exprHolds po e' = true <;> simp_all
  | trans p q ih1 ih2 => exact (ih1 he).trans (ih2 ((p.pairwise_iff hsymm).1 he))

/-- The rules of a locale with its conditions in another order. -/
def reorder (pr : PluralRules) (l : List (RExpr × PluralCategory)) : PluralRules := { pr with function := { pr.function with arms := l } }

/-- The languages where the order matters. -/
def orderedIn : PluralRuleType → List Str
  | .CARDINAL => [c!"lt", c!"lv", c!"prg"]
  | .ORDINAL => [c!"kw"]

theorem ordered_checked : ∀ t : PluralRuleType, ((table t).all fun e =>
    if (orderedIn t).any (fun s => e.1 == bareLanguage s) then !exclusives.contains e.2 &&
      [c!"2.1", c!"0.1", c!"4.9999999999999999999"].any fun s => match (tryFromStr s).toOption with
        | some po => (⟨e.2.arms.reverse, e.2.last⟩ : Closure).call po != e.2.call po
        | none => false
    else exclusives.contains e.2) = true := by
  intro t; cases t <;> decide +kernel

theorem reorder_same (pr : PluralRules) (hm : pr.function ∈ closures) (po : PluralOperands)
    (hE : Exclusive (fun k => Flt.eq po.n (Flt.ofNat b64 k)) po pr.function) (l : List (RExpr × PluralCategory)) (hl : l.Perm pr.function.arms) :
    select (ε := OpsErr) (reorder pr l) (.ok po) = select (ε := OpsErr) pr (.ok po) := by
  have ht := List.all_eq_true.1 (List.all_eq_true.1 closures_tame _ hm)
  have ht1 : (pr.function.arms.all fun a => tame a.1) = true := List.all_eq_true.2 fun x hx => by
    have := ht x hx
    simp only [Bool.and_eq_true] at this
    exact this.1
  have ht2 : (l.all fun a => tame a.1) = true := List.all_eq_true.2 fun x hx => List.all_eq_true.1 ht1 x (hl.mem_iff.1 hx)
  have hE' : pr.function.arms.Pairwise fun a b => ¬ (exprHolds po a.1 = true ∧ exprHolds po b.1 = true) := by
    refine List.Pairwise.imp_of_mem (fun {a b} ha hb hab => ?_) hE
    have h1 := ht a ha
    have h2 := ht b hb
    simp only [Bool.and_eq_true] at h1 h2
    rw [exprHolds_valueWith po _ h1.2, exprHolds_valueWith po _ h2.2]
    exact hab
  have e1 := call_firstB po (reorder pr l).function ht2
  have e2 := call_firstB po pr.function ht1
  have e3 := firstB_perm po pr.function.last _ _ hl.symm hE'
  unfold select
  simp only [e1, e2]
  simp only [reorder, e3]

/-- C118: the order of the conditions matters, for some text, exactly in the cardinals of Lithuanian, Latvian and Prussian and the ordinals of Cornish. -/
theorem C118_order (t : PluralRuleType) (id : LangId) (pr : PluralRules) (h : create id t = .ok pr) :
    (∀ l, l.Perm pr.function.arms → ∀ s, select (reorder pr l) (tryFromStr s) = select pr (tryFromStr s)) ↔ ∀ s ∈ orderedIn t, id ≠ bareLanguage s := by
  have hm := function_mem h
  obtain ⟨-, he⟩ := (C02_create_own_rule id t pr).1 h
  have hc := List.all_eq_true.1 (ordered_checked t) _ he
  simp only at hc
  constructor
  · intro hall s hs hid
    rw [if_pos (List.any_eq_true.2 ⟨s, hs, by simp [hid]⟩)] at hc
    simp only [Bool.and_eq_true, List.any_eq_true] at hc
    obtain ⟨-, x, -, hx⟩ := hc
    have h1 := hall _ (List.reverse_perm _) x
    cases hp : tryFromStr x with
    | error e => rw [hp] at hx; cases hx
    | ok po =>
      rw [hp] at hx h1
      simp only [Except.toOption, bne_iff_ne, ne_eq] at hx
      unfold select reorder at h1
      simp only at h1
      cases h3 : (⟨pr.function.arms.reverse, pr.function.last⟩ : Closure).call po <;> cases h4 : pr.function.call po <;> simp_all
  · intro hid l hl s
    rw [if_neg (by
      simp only [List.any_eq_true, beq_iff_eq, not_exists, not_and]
      exact fun s hs => hid s hs)] at hc
    cases hp : tryFromStr s with
    | error e => rfl
    | ok po =>
      exact reorder_same pr hm po (exclusives_hold _ (List.contains_iff_mem.1 hc) _ po (text_facts s po hp)) l hl

theorem integer_facts (x : Nat) : InputFacts (fun k => Flt.eq (fromUnsigned x).n (Flt.ofNat b64 k)) (fromUnsigned x) := by
  refine ⟨fun k hk he => .inl ?_, fun k k' hk hk' h1 h2 => ?_, fun _ => rfl, fun _ => rfl⟩
  · rcases right_or_near _ _ (C08_operands x) k (by omega) with h1 | ⟨-, -, h1, -⟩
    · rw [he] at h1
      exact ((flt_eq_iff (ideal_represents ⟨x, []⟩) trivial k (by omega)).1 h1.symm).2
    · exact absurd rfl h1
  · obtain ⟨neg, e1, -⟩ := eq_integer _ k hk h1
    obtain ⟨neg', e2, -⟩ := eq_integer _ k' hk' h2
    have e3 := (Flt.fin.inj (e1.symm.trans e2)).2
    exact Nat.eq_of_mul_eq_mul_right (by positivity) e3

theorem integers_exclusive (E : Nat → Bool) (po : PluralOperands) (hE : InputFacts E po) (hf : po.f = 0) (f : Closure)
    (hc : f = cardinalFn24 ∨ f = cardinalFn25 ∨ f = ordinalFn14) : Exclusive E po f := by
  obtain ⟨n, i, v, w, g, t⟩ := po
  obtain ⟨h1, h2, h3, h4⟩ := hE
  simp only at h1 h3 h4 hf
  subst hf
  have e5 := h1 5 (by norm_num)
  rcases hc with rfl | rfl | rfl <;> simp [Exclusive, cardinalFn24, cardinalFn25, ordinalFn14, valueWith, numOf, cmpInt] <;> grind

/-- C118: for integers the order matters in no locale. -/
theorem C118_integers (t : PluralRuleType) (id : LangId) (pr : PluralRules) (h : create id t = .ok pr) (l : List (RExpr × PluralCategory))
    (hl : l.Perm pr.function.arms) (x : Nat) :
    select (ε := OpsErr) (reorder pr l) (.ok (fromUnsigned x)) = select (ε := OpsErr) pr (.ok (fromUnsigned x)) := by
  have hm := function_mem h
  refine reorder_same pr hm _ ?_ l hl
  have hk := List.all_eq_true.1 closures_known _ hm
  simp only [Bool.or_eq_true, List.contains_iff_mem, beq_iff_eq] at hk
  rcases hk with ((hk | hk) | hk) | hk
  · exact exclusives_hold _ hk _ _ (integer_facts x)
  · exact integers_exclusive _ _ (integer_facts x) rfl _ (.inl hk)
  · exact integers_exclusive _ _ (integer_facts x) rfl _ (.inr (.inl hk))
  · exact integers_exclusive _ _ (integer_facts x) rfl _ (.inr (.inr hk))

/-! ## Examples -/

/-- 2.1 in Lithuanian: FEW and MANY are both true as coded; FEW is tested first, as `few` sorts before `many`.  By CLDR it is MANY. -/
example : (create (bareLanguage c!"lt") .CARDINAL).toOption.map (·.function) = some cardinalFn24 ∧ (cardinalFn24, 0, 1) ∈ overlaps ∧
    ((tryFromStr c!"2.1").toOption.bind cardinalFn24.call) = some .FEW ∧
    ((tryFromStr c!"2.1").toOption.bind (⟨cardinalFn24.arms.reverse, .OTHER⟩ : Closure).call) = some .MANY := by decide +kernel

end Verif.Props
