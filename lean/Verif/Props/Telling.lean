import Verif.Props.Samples
import Verif.Props.Locales

/-!
# C100: which texts tell two locales apart
-/

namespace Verif.Props
open Verif Api Rust PluralOperands

/-- The texts. -/
def tellingTexts : List Str :=
  [c!"2", c!"0.00", c!"1.1", c!"3.0", c!"1.0", c!"81", c!"0.05", c!"54", c!"11", c!"5", c!"0.01", c!"10.0", c!"6", c!"1"]

/-- A language without script, region and variants. -/
def bareLanguage (s : Str) : LangId := ⟨some s, none, none, none⟩

/-- The closure of `fr`, intl_pluralrules/src/rules.rs. -/
def frClosure : Closure :=
  ⟨[(.or (.cmp .eq (.field .I) (.int 0)) (.cmp .eq (.field .I) (.int 1)), .ONE)], .OTHER⟩

/-- The closure of `pt`, intl_pluralrules/src/rules.rs. -/
def ptClosure : Closure := ⟨[(.contains 0 1 (.field .I), .ONE)], .OTHER⟩

theorem fr_function : (create (bareLanguage c!"fr") .CARDINAL).toOption.map (·.function) = some frClosure := by decide +kernel

theorem pt_function : (create (bareLanguage c!"pt") .CARDINAL).toOption.map (·.function) = some ptClosure := by decide +kernel

theorem fr_pt_same (po : PluralOperands) : frClosure.call po = ptClosure.call po := by
  obtain ⟨n, i, v, w, f, t⟩ := po
  by_cases h0 : i = 0
  · subst h0; rfl
  · by_cases h1 : i = 1
    · subst h1; rfl
    · have e0 : (i == 0) = false := by simp [h0]
      have e1 : (i == 1) = false := by simp [h1]
      have e2 : (decide (0 ≤ i) && decide (i ≤ 1)) = false := by
        simp only [Bool.and_eq_false_iff, decide_eq_false_iff_not]; omega
      simp only [frClosure, ptClosure, Closure.call, evalArms, RExpr.eval, readField, cmpInt, e0, e1, e2]

/-- What a closure gives for the texts. -/
def signature (f : Closure) : List (Option PluralCategory) :=
  tellingTexts.map fun s => match tryFromStr s with
    | .ok po => f.call po
    | .error _ => none

/-- All closures of the two tables. -/
def closures : List Closure := (table .CARDINAL ++ table .ORDINAL).map (·.2)

/-- The closures, each once, without that of `pt`. -/
def closuresOnce : List Closure := closures.eraseDups.filter (· != ptClosure)

theorem signatures_nodup : (closuresOnce.map signature).Nodup := by decide +kernel

theorem texts_ok : tellingTexts.all (fun s => (tryFromStr s).toBool) = true := by decide +kernel

theorem fr_mem : frClosure ∈ closuresOnce := by decide +kernel

/-- The closure of `fr` for that of `pt`. -/
def frForPt (f : Closure) : Closure := if f = ptClosure then frClosure else f

theorem frForPt_mem {f : Closure} (h : f ∈ closures) : frForPt f ∈ closuresOnce := by
  unfold frForPt
  split
  · exact fr_mem
  · next hn => exact List.mem_filter.2 ⟨List.mem_eraseDups.2 h, by simpa using hn⟩

theorem frForPt_call (f : Closure) (po : PluralOperands) : (frForPt f).call po = f.call po := by
  unfold frForPt
  split
  · next hn => subst hn; exact fr_pt_same po
  · rfl

theorem signature_frForPt (f : Closure) : signature (frForPt f) = signature f := by
  unfold signature
  refine List.map_congr_left fun s _ => ?_
  cases tryFromStr s with
  | ok po => exact frForPt_call f po
  | error _ => rfl

theorem signature_inj {f g : Closure} (hf : f ∈ closures) (hg : g ∈ closures) (h : signature f = signature g) :
    frForPt f = frForPt g := by
  rw [← signature_frForPt f, ← signature_frForPt g] at h
  exact List.inj_on_of_nodup_map signatures_nodup (frForPt_mem hf) (frForPt_mem hg) h

theorem function_mem {t : PluralRuleType} {id : LangId} {pr : PluralRules} (h : create id t = .ok pr) : pr.function ∈ closures := by
  rcases create_cases id t with ⟨v, hv, hc⟩ | ⟨-, hc⟩
  · rw [h] at hc
    cases hc
    refine List.mem_map.2 ⟨(id, v), List.mem_append.2 ?_, rfl⟩
    cases t
    · exact .inr hv
    · exact .inl hv
  · rw [h] at hc; cases hc

theorem signature_of_select {pr pr' : PluralRules}
    (h : ∀ s ∈ tellingTexts, select pr (tryFromStr s) = select pr' (tryFromStr s)) :
    signature pr.function = signature pr'.function := by
  unfold signature
  refine List.map_congr_left fun s hs => ?_
  have := h s hs
  unfold select at this
  cases hx : tryFromStr s with
  | error e => rfl
  | ok po =>
    simp only [hx] at this ⊢
    cases h1 : pr.function.call po <;> cases h2 : pr'.function.call po <;> simp_all

theorem select_same {pr pr' : PluralRules} (h : frForPt pr.function = frForPt pr'.function) {ε : Type} (ops : Except ε PluralOperands) :
    select pr ops = select pr' ops := by
  cases ops with
  | error e => rfl
  | ok po =>
    have : pr.function.call po = pr'.function.call po := by rw [← frForPt_call pr.function, h, frForPt_call]
    simp only [select, this]

/-- C100: two locales, of the same or of different types, that `select` gives the same answers for on the fourteen texts get the same
answers for all operands, and so for all inputs. -/
theorem C100_tests (t t' : PluralRuleType) (id id' : LangId) (pr pr' : PluralRules) (h : create id t = .ok pr)
    (h' : create id' t' = .ok pr') (hs : ∀ s ∈ tellingTexts, select pr (tryFromStr s) = select pr' (tryFromStr s))
    {ε : Type} (ops : Except ε PluralOperands) : select pr ops = select pr' ops :=
  select_same (signature_inj (function_mem h) (function_mem h') (signature_of_select hs)) ops

/-- The locale has the rule function of the language `s` for cardinal numbers. -/
def HasCodeOf (s : Str) (pr : PluralRules) : Prop := ∃ x, create (bareLanguage s) .CARDINAL = .ok x ∧ pr.function = x.function

/-- C100: two locales get the same answers for all texts exactly if they have the same code, or one has the code of French and the
other that of Portuguese. -/
theorem C100_code (t t' : PluralRuleType) (id id' : LangId) (pr pr' : PluralRules) (h : create id t = .ok pr)
    (h' : create id' t' = .ok pr') :
    (∀ s, select pr (tryFromStr s) = select pr' (tryFromStr s)) ↔
      pr.function = pr'.function ∨ (HasCodeOf c!"fr" pr ∧ HasCodeOf c!"pt" pr') ∨ (HasCodeOf c!"pt" pr ∧ HasCodeOf c!"fr" pr') := by
  have code : ∀ {s : Str} {f : Closure}, (create (bareLanguage s) .CARDINAL).toOption.map (·.function) = some f →
      ∀ q : PluralRules, HasCodeOf s q ↔ q.function = f := by
    intro s f hf q
    unfold HasCodeOf
    cases hx : create (bareLanguage s) .CARDINAL with
    | error e => rw [hx] at hf; cases hf
    | ok x =>
      rw [hx] at hf
      have hf : x.function = f := Option.some.inj hf
      refine ⟨fun ⟨y, e, e'⟩ => ?_, fun e => ⟨x, rfl, by rw [e, hf]⟩⟩
      cases e; rw [e', hf]
  rw [code fr_function, code fr_function, code pt_function, code pt_function]
  constructor
  · intro hs
    have := signature_inj (function_mem h) (function_mem h') (signature_of_select fun s _ => hs s)
    unfold frForPt at this
    split at this <;> split at this
    · next a b => exact .inl (a.trans b.symm)
    · next a b => exact .inr (.inr ⟨a, this.symm⟩)
    · next a b => exact .inr (.inl ⟨this, b⟩)
    · exact .inl this
  · intro hc s
    refine select_same ?_ _
    have hfr : frForPt frClosure = frClosure := by decide
    have hpt : frForPt ptClosure = frClosure := by decide
    rcases hc with e | ⟨e, e'⟩ | ⟨e, e'⟩
    · rw [e]
    · rw [e, e', hfr, hpt]
    · rw [e, e', hfr, hpt]

/-- The tables hold fifty-seven different functions. -/
example : ((table .CARDINAL ++ table .ORDINAL).map (·.2)).eraseDups.length = 57 := by decide +kernel

/-- German and English have the same code, French and Portuguese the same answers from different code, and one of the texts tells
French from German. -/
example : ∃ de en fr pt, create (bareLanguage c!"de") .CARDINAL = .ok de ∧ create (bareLanguage c!"en") .CARDINAL = .ok en ∧
    create (bareLanguage c!"fr") .CARDINAL = .ok fr ∧ create (bareLanguage c!"pt") .CARDINAL = .ok pt ∧
    de.function = en.function ∧ fr.function ≠ pt.function ∧ select fr (tryFromStr c!"1.1") ≠ select de (tryFromStr c!"1.1") := by
  have key : ((create (bareLanguage c!"de") .CARDINAL).toOption.bind fun de =>
      (create (bareLanguage c!"en") .CARDINAL).toOption.bind fun en =>
      (create (bareLanguage c!"fr") .CARDINAL).toOption.bind fun fr =>
      (create (bareLanguage c!"pt") .CARDINAL).toOption.map fun pt =>
      de.function == en.function && fr.function != pt.function &&
        (select fr (tryFromStr c!"1.1")).map Except.toOption != (select de (tryFromStr c!"1.1")).map Except.toOption) = some true := by
    decide +kernel
  cases h1 : create (bareLanguage c!"de") .CARDINAL <;> cases h2 : create (bareLanguage c!"en") .CARDINAL <;>
    cases h3 : create (bareLanguage c!"fr") .CARDINAL <;> cases h4 : create (bareLanguage c!"pt") .CARDINAL <;>
    simp only [h1, h2, h3, h4, Except.toOption, Option.bind, Option.map, reduceCtorEq] at key
  next de en fr pt =>
    have key := Option.some.inj key
    simp only [Bool.and_eq_true, beq_iff_eq, bne_iff_ne] at key
    exact ⟨de, en, fr, pt, rfl, rfl, rfl, rfl, key.1.1, key.1.2, fun e => key.2 (by rw [e])⟩

end Verif.Props
