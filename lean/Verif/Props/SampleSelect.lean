import Verif.Props.Samples

/-!
# C99: the samples of the CLDR data through `select`
-/

namespace Verif.Props
open Verif Api Rust Uts35 Spec Sem Verif.Parser Grammar PluralOperands

/-- All samples of a locale, each with the category of the rule that lists it. -/
def ruleSamples (rules : List (Str × Str)) : List (PluralCategory × Dec) :=
  rules.flatMap fun r =>
    match nameCategory r.1, samples r.2 with
    | some c, some ds => ds.map fun d => (c, d)
    | _, _ => []

/-- How many samples of a locale get another category, where some do. -/
def wrongSamples : PluralRuleType → List (Str × Nat)
  | .CARDINAL => [(c!"ar", 16), (c!"ars", 16), (c!"be", 46), (c!"br", 29), (c!"kw", 8), (c!"lt", 13), (c!"lv", 19), (c!"mo", 2),
      (c!"mt", 20), (c!"prg", 19), (c!"ro", 2)]
  | .ORDINAL => [(c!"kw", 2)]

/-- The number for a locale. -/
def wrongCount (t : PluralRuleType) (key : Str) : Nat := ((wrongSamples t).lookup key).getD 0

def selectCheck (t : PluralRuleType) (p : Str × List (Str × Str)) : Bool :=
  match GenPr.mapPanic readRule p.2 with
  | none => false
  | some l => l.all (fun x => noWithin x.2) &&
      (ruleSamples p.2).all (fun x => decide (allDigits x.2 < 2 ^ 53) && decide (x.2.v ≤ 300)) &&
      ((ruleSamples p.2).filter fun x => actB l x.2 != x.1).length == wrongCount t p.1

theorem select_checked : ∀ t : PluralRuleType, (cldrData t).all (selectCheck t) = true := by
  intro t; cases t <;> decide +kernel

/-- C99: of the samples that the shipped data lists for a locale, as many as `wrongSamples` says get another category than that of
their rule, and all others get it; so in all locales that are not there, all do. -/
theorem C99_samples (t : PluralRuleType) (key : Str) (rules : List (Str × Str)) (h : (key, rules) ∈ cldrData t) (id : LangId)
    (hid : LangId.parse key = some id) (pr : PluralRules) (hc : create id t = .ok pr) :
    ∃ right wrong : List (PluralCategory × Dec), (right ++ wrong).Perm (ruleSamples rules) ∧ wrong.length = wrongCount t key ∧
      (∀ x ∈ right, ∀ ip fp, ip ≠ [] → decOf ip fp = x.2 → select pr (tryFromStr (plainText ip fp)) = some (.ok x.1)) ∧
      ∀ x ∈ wrong, ∀ ip fp, ip ≠ [] → decOf ip fp = x.2 → ∃ c, select pr (tryFromStr (plainText ip fp)) = some (.ok c) ∧ c ≠ x.1 := by
  have hx := List.all_eq_true.1 (select_checked t) _ h
  simp only [selectCheck] at hx
  cases hl : GenPr.mapPanic readRule rules with
  | none => simp [hl] at hx
  | some l =>
    simp only [hl, Bool.and_eq_true, beq_iff_eq] at hx
    obtain ⟨⟨h1, h2⟩, h3⟩ := hx
    have key : ∀ x ∈ ruleSamples rules, ∀ ip fp, ip ≠ [] → decOf ip fp = x.2 →
        select pr (tryFromStr (plainText ip fp)) = some (.ok (actB l x.2)) := by
      intro x hx ip fp hi hd
      have := List.all_eq_true.1 h2 x hx
      simp only [Bool.and_eq_true, decide_eq_true_eq] at this
      rw [← hd] at this ⊢
      obtain ⟨c', key', rules', h9, h10, h11, h12⟩ := C65_strings t id pr hc [] (.inl rfl) ip fp hi this.1 this.2
      obtain ⟨-, rfl⟩ := key_unique t id _ _ _ _ h h10 hid h11
      rw [actB_category hl h1 _ c' h12]
      exact h9
    refine ⟨(ruleSamples rules).filter fun x => actB l x.2 == x.1, (ruleSamples rules).filter fun x => actB l x.2 != x.1,
      ?_, h3, fun x hx ip fp hi hd => ?_, fun x hx ip fp hi hd => ?_⟩
    · exact List.filter_append_perm (fun x : PluralCategory × Dec => actB l x.2 == x.1) (ruleSamples rules)
    · obtain ⟨h4, h5⟩ := List.mem_filter.1 hx
      rw [key x h4 ip fp hi hd, eq_of_beq h5]
    · obtain ⟨h4, h5⟩ := List.mem_filter.1 hx
      exact ⟨_, key x h4 ip fp hi hd, bne_iff_ne.1 h5⟩

/-- C99: every locale of the list is one of the data, with more samples than wrong ones. -/
theorem C99_listed (t : PluralRuleType) : ∀ x ∈ wrongSamples t, 0 < x.2 ∧ ∃ rules id pr, (x.1, rules) ∈ cldrData t ∧
    LangId.parse x.1 = some id ∧ create id t = .ok pr ∧ x.2 < (ruleSamples rules).length := by
  have hc : ∀ x ∈ wrongSamples t, 0 < x.2 ∧ ((cldrData t).any fun p => p.1 == x.1 && decide (x.2 < (ruleSamples p.2).length)) = true ∧
      (match LangId.parse x.1 with | some id => (create id t).isOk | none => false) = true := by
    cases t <;> decide +kernel
  intro x hx
  obtain ⟨h0, h1, h2⟩ := hc x hx
  obtain ⟨⟨k, rules⟩, h3, h4⟩ := List.any_eq_true.1 h1
  simp only [Bool.and_eq_true, beq_iff_eq, decide_eq_true_eq] at h4
  obtain ⟨rfl, h4⟩ := h4
  cases hp : LangId.parse x.1 with
  | none => rw [hp] at h2; cases h2
  | some id =>
    rw [hp] at h2
    dsimp only at h2
    cases hcr : create id t with
    | error e => rw [hcr] at h2; cases h2
    | ok pr => exact ⟨h0, rules, id, pr, h3, rfl, hcr, h4⟩

/-- For instance the samples of the ordinals of Cornish, and those that are wrong. -/
example : ∃ rules l, (c!"kw", rules) ∈ cldrData .ORDINAL ∧ GenPr.mapPanic readRule rules = some l ∧ (ruleSamples rules).length = 48 ∧
    ((ruleSamples rules).filter fun x => actB l x.2 != x.1) = [(.ONE, ⟨101, []⟩), (.ONE, ⟨1001, []⟩)] := by
  have h : ((cldrData .ORDINAL).any fun p => p.1 == c!"kw" && decide ((ruleSamples p.2).length = 48) &&
      match GenPr.mapPanic readRule p.2 with
      | none => false
      | some l => ((ruleSamples p.2).filter fun x => actB l x.2 != x.1) == [(.ONE, ⟨101, []⟩), (.ONE, ⟨1001, []⟩)]) = true := by
    decide +kernel
  obtain ⟨⟨k, rules⟩, hm, hx⟩ := List.any_eq_true.1 h
  simp only [Bool.and_eq_true, beq_iff_eq, decide_eq_true_eq] at hx
  obtain ⟨⟨rfl, hx⟩, hy⟩ := hx
  cases hl : GenPr.mapPanic readRule rules with
  | none => rw [hl] at hy; cases hy
  | some l =>
    rw [hl] at hy
    exact ⟨rules, l, hm, hl, hx, eq_of_beq hy⟩

end Verif.Props
