import Verif.Props.Telling
import Verif.Lemmas.Generate

/-!
# C102: which operands matter in which locale
-/

namespace Verif.Props
open Verif Api Rust PluralOperands Verif.Grammar

/-- The operands are the same, except perhaps `x`. -/
structure SameExcept (x : Operand) (po po' : PluralOperands) : Prop where
  n : x ≠ .N → po.n = po'.n
  i : x ≠ .I → po.i = po'.i
  v : x ≠ .V → po.v = po'.v
  w : x ≠ .W → po.w = po'.w
  f : x ≠ .F → po.f = po'.f
  t : x ≠ .T → po.t = po'.t

/-- The answer of `select` depends on the operand `x`. -/
def Matters (pr : PluralRules) (x : Operand) : Prop :=
  ∃ po po', SameExcept x po po' ∧ select (ε := OpsErr) pr (.ok po) ≠ select (ε := OpsErr) pr (.ok po')

/-- The operands that the code of a relation without `within` reads: that of the relation, but `i` for `n` with a modulus, and
`i` and `f` for a range on `n` without. -/
def CodeReads (r : Relation) (x : Operand) : Prop :=
  if r.expression.operand = .N then
    if r.expression.modulus = none then
      (∃ k, .value k ∈ r.rangeList) ∧ x = .N ∨ (∃ lo hi, .range lo hi ∈ r.rangeList) ∧ (x = .I ∨ x = .F)
    else x = .I
  else x = r.expression.operand

/-- The same as a function. -/
def codeReads (r : Relation) (x : Operand) : Bool :=
  if r.expression.operand = .N then
    if r.expression.modulus = none then
      r.rangeList.any (fun i => match i with | .value _ => true | _ => false) && x == .N ||
        r.rangeList.any (fun i => match i with | .range _ _ => true | _ => false) && (x == .I || x == .F)
    else x == .I
  else x == r.expression.operand

theorem codeReads_iff (r : Relation) (x : Operand) : codeReads r x = true ↔ CodeReads r x := by
  have h1 : r.rangeList.any (fun i => match i with | .value _ => true | _ => false) = true ↔ ∃ k, .value k ∈ r.rangeList := by
    rw [List.any_eq_true]
    constructor
    · rintro ⟨i, h, hi⟩
      cases i with
      | value k => exact ⟨k, h⟩
      | range a b => cases hi
    · rintro ⟨k, h⟩; exact ⟨_, h, rfl⟩
  have h2 : r.rangeList.any (fun i => match i with | .range _ _ => true | _ => false) = true ↔
      ∃ lo hi, .range lo hi ∈ r.rangeList := by
    rw [List.any_eq_true]
    constructor
    · rintro ⟨i, h, hi⟩
      cases i with
      | value k => cases hi
      | range a b => exact ⟨a, b, h⟩
    · rintro ⟨a, b, h⟩; exact ⟨_, h, rfl⟩
  unfold codeReads CodeReads
  split
  · split
    · simp only [Bool.or_eq_true, Bool.and_eq_true, h1, h2, beq_iff_eq]
    · exact beq_iff_eq
  · exact beq_iff_eq

/-! ## Code that does not name an operand does not depend on it -/

/-- The operand occurs. -/
def occurs (x : Operand) : RExpr → Bool
  | .int _ | .flt _ => false
  | .field y => x == y
  | .rem a b | .cmp _ a b | .and a b | .or a b => occurs x a || occurs x b
  | .not a | .contains _ _ a => occurs x a

theorem eval_sameExcept {x : Operand} {po po' : PluralOperands} (h : SameExcept x po po') (e : RExpr) (he : occurs x e = false) :
    e.eval po = e.eval po' := by
  induction e with
  | int k => rfl
  | flt k => rfl
  | field y =>
    have hy : x ≠ y := by simpa [occurs] using he
    cases y
    · simp only [RExpr.eval, readField, h.n hy]
    · simp only [RExpr.eval, readField, h.i hy]
    · simp only [RExpr.eval, readField, h.v hy]
    · simp only [RExpr.eval, readField, h.w hy]
    · simp only [RExpr.eval, readField, h.f hy]
    · simp only [RExpr.eval, readField, h.t hy]
  | not a ih => simp only [RExpr.eval, ih he]
  | contains lo hi a ih => simp only [RExpr.eval, ih he]
  | rem a b iha ihb => simp only [occurs, Bool.or_eq_false_iff] at he; simp only [RExpr.eval, iha he.1, ihb he.2]
  | cmp op a b iha ihb => simp only [occurs, Bool.or_eq_false_iff] at he; simp only [RExpr.eval, iha he.1, ihb he.2]
  | and a b iha ihb => simp only [occurs, Bool.or_eq_false_iff] at he; simp only [RExpr.eval, iha he.1, ihb he.2]
  | or a b iha ihb => simp only [occurs, Bool.or_eq_false_iff] at he; simp only [RExpr.eval, iha he.1, ihb he.2]

/-- The operand occurs in the code of a function. -/
def occursIn (x : Operand) (f : Closure) : Bool := f.arms.any fun a => occurs x a.1

theorem call_sameExcept {x : Operand} {po po' : PluralOperands} (h : SameExcept x po po') (f : Closure) (hf : occursIn x f = false) :
    f.call po = f.call po' := by
  obtain ⟨arms, last⟩ := f
  unfold Closure.call
  simp only [occursIn] at hf
  induction arms with
  | nil => rfl
  | cons a arms ih =>
    simp only [List.any_cons, Bool.or_eq_false_iff] at hf
    simp only [evalArms, eval_sameExcept h a.1 hf.1, ih hf.2]

/-! ## The function of the ordinals of Cornish -/

/-- Its code, intl_pluralrules/src/rules.rs. -/
def kwClosure : Closure :=
  ⟨[(.or (.cmp .eq (.field .N) (.flt 5)) (.cmp .eq (.rem (.field .I) (.int 100)) (.int 5)), .MANY),
    (.or (.and (.contains 1 4 (.field .I)) (.cmp .eq (.field .F) (.int 0)))
      (.or (.or (.or (.or (.contains 1 4 (.field .I)) (.contains 21 24 (.field .I))) (.contains 41 44 (.field .I)))
        (.contains 61 64 (.field .I))) (.contains 81 84 (.field .I))), .ONE)], .OTHER⟩

/-- The same without the test of `f`. -/
def kwShort : Closure :=
  ⟨[(.or (.cmp .eq (.field .N) (.flt 5)) (.cmp .eq (.rem (.field .I) (.int 100)) (.int 5)), .MANY),
    (.or (.or (.or (.or (.contains 1 4 (.field .I)) (.contains 21 24 (.field .I))) (.contains 41 44 (.field .I)))
        (.contains 61 64 (.field .I))) (.contains 81 84 (.field .I)), .ONE)], .OTHER⟩

theorem kw_short (po : PluralOperands) : kwClosure.call po = kwShort.call po := by
  obtain ⟨n, i, v, w, f, t⟩ := po
  simp only [kwClosure, kwShort, Closure.call, evalArms, RExpr.eval, readField, cmpInt]
  generalize (decide (1 ≤ i) && decide (i ≤ 4)) = a
  generalize (decide (21 ≤ i) && decide (i ≤ 24)) = b
  generalize (decide (41 ≤ i) && decide (i ≤ 44)) = c
  generalize (decide (61 ≤ i) && decide (i ≤ 64)) = d
  generalize (decide (81 ≤ i) && decide (i ≤ 84)) = e
  generalize (f == 0) = g
  cases a <;> cases b <;> cases c <;> cases d <;> cases e <;> cases g <;> rfl

/-! ## The tables -/

/-- One operand changed. -/
def setOperand (po : PluralOperands) (x : Operand) (y : Flt) (k : Nat) : PluralOperands :=
  match x with
  | .N => { po with n := y }
  | .I => { po with i := k }
  | .V => { po with v := k }
  | .W => { po with w := k }
  | .F => { po with f := k }
  | .T => { po with t := k }

theorem setOperand_same (po : PluralOperands) (x : Operand) (y : Flt) (k : Nat) : SameExcept x po (setOperand po x y k) := by
  cases x
  · exact ⟨fun h => absurd rfl h, fun _ => rfl, fun _ => rfl, fun _ => rfl, fun _ => rfl, fun _ => rfl⟩
  · exact ⟨fun _ => rfl, fun h => absurd rfl h, fun _ => rfl, fun _ => rfl, fun _ => rfl, fun _ => rfl⟩
  · exact ⟨fun _ => rfl, fun _ => rfl, fun h => absurd rfl h, fun _ => rfl, fun _ => rfl, fun _ => rfl⟩
  · exact ⟨fun _ => rfl, fun _ => rfl, fun _ => rfl, fun h => absurd rfl h, fun _ => rfl, fun _ => rfl⟩
  · exact ⟨fun _ => rfl, fun _ => rfl, fun _ => rfl, fun _ => rfl, fun h => absurd rfl h, fun _ => rfl⟩
  · exact ⟨fun _ => rfl, fun _ => rfl, fun _ => rfl, fun _ => rfl, fun _ => rfl, fun h => absurd rfl h⟩

/-- Some operands and values to try. -/
def someOperands : List PluralOperands :=
  [(0, 0), (1, 0), (2, 0), (1, 1), (4, 0), (4, 1), (11, 2)].flatMap fun x => [0, 1, 2, 5, 7, 20].flatMap fun i => [Flt.ofNat b64 i, Flt.nan].map fun n =>
    ⟨n, i, x.2, x.2, x.1, x.1⟩

def someValues : List Nat := [0, 1, 2, 3, 4, 5, 6, 7, 8, 10]

/-- The function depends on the operand, as some of them show. -/
def shown (f : Closure) (x : Operand) : Bool :=
  someOperands.any fun po => someValues.any fun k => f.call po != f.call (setOperand po x (Flt.ofNat b64 k) k)

/-- The code names the operand, and it is not `f` in the code of Cornish ordinals. -/
def named (f : Closure) (x : Operand) : Bool := occursIn x f && !(x == .F && f == kwClosure)

def allOperands : List Operand := [.N, .I, .V, .W, .F, .T]

theorem mem_allOperands (x : Operand) : x ∈ allOperands := by cases x <;> decide

theorem named_shown : (closures.eraseDups.all fun f => allOperands.all fun x => !named f x || shown f x) = true := by decide +kernel
theorem matters_iff (f : Closure) (hf : f ∈ closures) (x : Operand) :
    named f x = true ↔ ∃ po po', SameExcept x po po' ∧ f.call po ≠ f.call po' := by
  constructor
  · intro h
    have := List.all_eq_true.1 (List.all_eq_true.1 named_shown f (List.mem_eraseDups.2 hf)) x (mem_allOperands x)
    rw [h] at this
    obtain ⟨po, -, h1⟩ := List.any_eq_true.1 (show shown f x = true by simpa using this)
    obtain ⟨k, -, h2⟩ := List.any_eq_true.1 h1
    exact ⟨po, _, setOperand_same po x _ k, bne_iff_ne.1 h2⟩
  · rintro ⟨po, po', h1, h2⟩
    refine Classical.byContradiction fun hn => h2 ?_
    have hn : (occursIn x f && !(x == .F && f == kwClosure)) = false := by simpa [named] using hn
    cases ho : occursIn x f with
    | false => exact call_sameExcept h1 f ho
    | true =>
      simp only [ho, Bool.true_and, Bool.not_eq_false', Bool.and_eq_true, beq_iff_eq] at hn
      obtain ⟨rfl, rfl⟩ := hn
      rw [kw_short, kw_short]
      exact call_sameExcept h1 kwShort (by decide)

def mattersCheck (t : PluralRuleType) (p : Str × List (Str × Str)) : Bool :=
  match LangId.parse p.1, GenPr.mapPanic readRule p.2 with
  | some id, some l =>
    match create id t with
    | .error _ => true
    | .ok pr => allOperands.all fun x => named pr.function x ==
        ((l.any fun r => r.2.any fun a => a.any fun rel => codeReads rel x) && !(decide (t = .ORDINAL) && p.1 == c!"kw" && x == .F))
  | none, _ => true
  | _, none => false

theorem matters_checked : ∀ t : PluralRuleType, (cldrData t).all (mattersCheck t) = true := by
  intro t; cases t <;> decide +kernel

/-- C102: in a locale, the answer of `select` depends on an operand exactly if the code of one of the relations in its CLDR rules reads
it; except that `f` does not matter in the ordinals of Cornish. -/
theorem C102_matters (t : PluralRuleType) (key : Str) (rules : List (Str × Str)) (h : (key, rules) ∈ cldrData t) (id : LangId)
    (hid : LangId.parse key = some id) (pr : PluralRules) (hc : create id t = .ok pr) (x : Operand) :
    Matters pr x ↔ (∃ c text cond samples, (c!"pluralRule-count-" ++ cldrName c, text) ∈ rules ∧ RuleText 64 text ⟨cond, samples⟩ ∧
        ∃ a ∈ cond, ∃ r ∈ a, CodeReads r x) ∧ ¬ (t = .ORDINAL ∧ key = c!"kw" ∧ x = .F) := by
  have h1 := List.all_eq_true.1 (matters_checked t) _ h
  simp only [mattersCheck, hid] at h1
  cases hl : GenPr.mapPanic readRule rules with
  | none => rw [hl] at h1; cases h1
  | some l =>
    simp only [hl, hc] at h1
    have h2 := List.all_eq_true.1 h1 x (mem_allOperands x)
    have h3 := matters_iff pr.function (function_mem hc) x
    have h4 : Matters pr x ↔ ∃ po po', SameExcept x po po' ∧ pr.function.call po ≠ pr.function.call po' := by
      have : ∀ po po', select (ε := OpsErr) pr (.ok po) ≠ select (ε := OpsErr) pr (.ok po') ↔
          pr.function.call po ≠ pr.function.call po' := by
        intro po po'
        simp only [select]
        cases pr.function.call po <;> cases pr.function.call po' <;> simp
      simp only [Matters, this]
    rw [h4, ← h3, beq_iff_eq.1 h2]
    simp only [Bool.and_eq_true, List.any_eq_true, codeReads_iff, Bool.not_eq_true', Bool.and_eq_false_iff, decide_eq_false_iff_not,
      beq_eq_false_iff_ne]
    refine and_congr ⟨?_, ?_⟩ ?_
    · rintro ⟨r, hr, a, ha, rel, hrel, hx⟩
      obtain ⟨⟨k, text⟩, h5, h6⟩ := (Gen.mem_mapPanic hl r).1 hr
      obtain ⟨h7, samples, h8⟩ := (readRule_iff _ _ _).1 h6
      simp only at h7 h8
      subst h7
      exact ⟨_, text, _, samples, h5, h8, a, ha, rel, hrel, hx⟩
    · rintro ⟨c, text, cond, samples, h5, h6, a, ha, rel, hrel, hx⟩
      exact ⟨(c, cond), (Gen.mem_mapPanic hl _).2 ⟨_, h5, (readRule_iff _ _ _).2 ⟨rfl, samples, h6⟩⟩, a, ha, rel, hrel, hx⟩
    · simp only [not_and, or_assoc]
      constructor
      · rintro h ha hb
        rcases h with h | h | h
        · exact absurd ha h
        · exact absurd hb h
        · exact h
      · intro h
        by_cases ha : t = .ORDINAL
        · by_cases hb : key = c!"kw"
          · exact .inr (.inr (h ha hb))
          · exact .inr (.inl hb)
        · exact .inl ha

/-- C102: nowhere does the answer depend on `w`. -/
theorem C102_w (t : PluralRuleType) (id : LangId) (pr : PluralRules) (hc : create id t = .ok pr) : ¬ Matters pr .W := by
  rintro ⟨po, po', h1, h2⟩
  have h3 : (closures.eraseDups.all fun f => !occursIn .W f) = true := by decide +kernel
  have h4 := List.all_eq_true.1 h3 _ (List.mem_eraseDups.2 (function_mem hc))
  apply h2
  simp only [select, call_sameExcept h1 pr.function (by simpa using h4)]

/-- For instance German: `i` and `v` matter, no other operand does; and Cornish ordinals name `f`, which does not matter. -/
example : ∃ de kw, create (bareLanguage c!"de") .CARDINAL = .ok de ∧ create (bareLanguage c!"kw") .ORDINAL = .ok kw ∧
    (∀ x, Matters de x ↔ x = .I ∨ x = .V) ∧ occursIn .F kw.function = true ∧ ¬ Matters kw .F := by
  have named_iff : ∀ {id t pr}, create id t = .ok pr → ∀ x, Matters pr x ↔ named pr.function x = true := by
    intro id t pr h x
    rw [matters_iff _ (function_mem h)]
    simp only [Matters, select]
    refine exists_congr fun po => exists_congr fun po' => and_congr_right fun _ => ?_
    cases pr.function.call po <;> cases pr.function.call po' <;> simp
  have h1 : ((create (bareLanguage c!"de") .CARDINAL).toOption.map fun pr => allOperands.map (named pr.function)) =
      some [false, true, true, false, false, false] := by decide +kernel
  have h2 : ((create (bareLanguage c!"kw") .ORDINAL).toOption.map fun pr => (occursIn .F pr.function, named pr.function .F)) =
      some (true, false) := by decide +kernel
  cases h3 : create (bareLanguage c!"de") .CARDINAL with
  | error e => rw [h3] at h1; cases h1
  | ok de =>
    cases h4 : create (bareLanguage c!"kw") .ORDINAL with
    | error e => rw [h4] at h2; cases h2
    | ok kw =>
      rw [h3] at h1
      rw [h4] at h2
      simp only [Except.toOption, Option.map_some, Option.some.injEq, allOperands, List.map_cons, List.map_nil, List.cons.injEq] at h1
      simp only [Except.toOption, Option.map_some, Option.some.injEq, Prod.mk.injEq] at h2
      refine ⟨de, kw, rfl, rfl, fun x => ?_, h2.1, fun h => ?_⟩
      · rw [named_iff h3]
        cases x <;> simp [h1]
      · rw [named_iff h4, h2.2] at h
        cases h

end Verif.Props
