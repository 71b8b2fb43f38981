import Verif.Props.Exact

/-!
# C70–C71: the samples of the CLDR data, and that every category is reached
-/

namespace Verif.Props
open Verif Api Rust Uts35 Spec Sem Verif.Parser Grammar PluralOperands

/-! ## Reading samples

In the data the samples follow the condition: words separated by blanks and commas, beginning with `@integer` or `@decimal`. -/

/-- The pieces between characters. -/
def pieces (p : Char → Bool) : Str → List Str
  | [] => [[]]
  | c :: s =>
    if p c then [] :: pieces p s
    else match pieces p s with
      | [] => [[c]]
      | w :: ws => (c :: w) :: ws

/-- The words of a text. -/
def words (s : Str) : List Str := (pieces (fun c => c == ' ' || c == ',') s).filter fun w => !w.isEmpty

/-- A digit. -/
def digitOf (c : Char) : Option (Fin 10) := (List.finRange 10).find? fun d => digitChar d == c

/-- Digits, and digits after a point if there is one. -/
def readSample (s : Str) : Option (List (Fin 10) × List (Fin 10)) :=
  match pieces (· == '.') s with
  | [a] => (a.mapM digitOf).map fun a => (a, [])
  | [a, b] => (a.mapM digitOf).bind fun a => (b.mapM digitOf).map fun b => (a, b)
  | _ => none

/-- The last `v` digits of a number. -/
def lastDigits : Nat → Nat → List (Fin 10)
  | 0, _ => []
  | v + 1, x => lastDigits v (x / 10) ++ [Fin.ofNat 10 x]

/-- The number `x / 10^v` with `v` fraction digits. -/
def scaled (x v : Nat) : Dec := ⟨x / 10 ^ v, lastDigits v x⟩

/-- All samples that a word gives: a number, or the numbers `a~b` in steps of the last digit. -/
def wordSamples (w : Str) : Option (List Dec) :=
  match pieces (· == '~') w with
  | [a] => (readSample a).map fun a => [decOf a.1 a.2]
  | [a, b] => (readSample a).bind fun a => (readSample b).bind fun b =>
      if a.2.length = b.2.length then
        let lo := allDigits (decOf a.1 a.2)
        let hi := allDigits (decOf b.1 b.2)
        some ((List.range (hi + 1 - lo)).map fun k => scaled (lo + k) a.2.length)
      else none
  | _ => none

/-- All samples of the text of a rule; `none` if a word is none of the above. -/
def samples (text : Str) : Option (List Dec) :=
  (((words (text.dropWhile (· != '@'))).filter fun w => !(w == c!"@integer" || w == c!"@decimal" || w == c!"…")).mapM
    wordSamples).map List.flatten

/-- For instance. -/
example : samples c!"n = 2 @integer 2, 4~6 @decimal 0.9~1.1, 10.00, …" =
    some [⟨2, []⟩, ⟨4, []⟩, ⟨5, []⟩, ⟨6, []⟩, ⟨0, [9]⟩, ⟨1, [0]⟩, ⟨1, [1]⟩, ⟨10, [0, 0]⟩] := by decide +kernel

/-- Every sample of the category has it, and one of them, or 15.5, gets it by the code. -/
def samplesCheck (p : Str × List (Str × Str)) : Bool :=
  match GenPr.mapPanic readRule p.2 with
  | none => false
  | some l => l.all (fun x => noWithin x.2) && p.2.all fun r =>
      match nameCategory r.1, samples r.2 with
      | some c, some ds => (ds.all fun d => catB l d == c) &&
          (ds ++ [Dec.mk 15 [5]]).any fun d => catB l d == c && actB l d == c && decide (allDigits d < 2 ^ 53) && decide (d.v ≤ 300)
      | _, _ => false

theorem samples_checked : ∀ t : PluralRuleType, (cldrData t).all samplesCheck = true := by
  intro t; cases t <;> decide +kernel

theorem samples_of (t : PluralRuleType) (key : Str) (rules : List (Str × Str)) (h : (key, rules) ∈ cldrData t) (c : PluralCategory)
    (text : Str) (hr : (c!"pluralRule-count-" ++ cldrName c, text) ∈ rules) : ∃ l ds, GenPr.mapPanic readRule rules = some l ∧
      l.all (fun x => noWithin x.2) = true ∧ samples text = some ds ∧ (∀ d ∈ ds, catB l d = c) ∧
      ∃ d, catB l d = c ∧ actB l d = c ∧ allDigits d < 2 ^ 53 ∧ d.v ≤ 300 := by
  have hc := List.all_eq_true.1 (samples_checked t) _ h
  simp only [samplesCheck] at hc
  cases hl : GenPr.mapPanic readRule rules with
  | none => simp [hl] at hc
  | some l =>
    simp only [hl, Bool.and_eq_true] at hc
    have hx := List.all_eq_true.1 hc.2 _ hr
    simp only [(nameCategory_iff _ c).2 rfl] at hx
    cases hs : samples text with
    | none => simp [hs] at hx
    | some ds =>
      simp only [hs, Bool.and_eq_true, List.all_eq_true, List.any_eq_true, beq_iff_eq, decide_eq_true_eq] at hx
      obtain ⟨h1, d, -, ⟨⟨h2, h3⟩, h4⟩, h5⟩ := hx
      exact ⟨l, ds, rfl, hc.1, rfl, h1, d, h2, h3, h4, h5⟩

/-- C70: every sample that the shipped data lists for a category has this category by the rules of the same locale. -/
theorem C70_samples (t : PluralRuleType) (key : Str) (rules : List (Str × Str)) (h : (key, rules) ∈ cldrData t) (c : PluralCategory)
    (text : Str) (hr : (c!"pluralRule-count-" ++ cldrName c, text) ∈ rules) :
    ∃ ds, samples text = some ds ∧ ∀ d ∈ ds, Category rules d c := by
  obtain ⟨l, ds, h1, h2, h3, h4, -⟩ := samples_of t key rules h c text hr
  exact ⟨ds, h3, fun d hd => h4 d hd ▸ catB_category h1 h2 d⟩

example : ∃ text ds, (c!"en", CldrData.cardinalRules4) ∈ cldrData .CARDINAL ∧
    (c!"pluralRule-count-" ++ cldrName .OTHER, text) ∈ CldrData.cardinalRules4 ∧ samples text = some ds ∧ 20 < ds.length ∧
    ∀ d ∈ ds, Category CldrData.cardinalRules4 d .OTHER := by
  have h : (CldrData.cardinalRules4.any fun r => r.1 == c!"pluralRule-count-" ++ cldrName .OTHER && (samples r.2).any fun l => 20 < l.length) = true := by
    decide +kernel
  have hk : (c!"en", CldrData.cardinalRules4) ∈ cldrData .CARDINAL := by decide +kernel
  obtain ⟨⟨name, text⟩, hm, hx⟩ := List.any_eq_true.1 h
  simp only [Bool.and_eq_true, beq_iff_eq, Option.any_eq_true] at hx
  obtain ⟨rfl, l, hl, hlen⟩ := hx
  obtain ⟨ds, h1, h2⟩ := C70_samples _ _ _ hk .OTHER text hm
  rw [hl] at h1; cases h1
  exact ⟨text, l, hk, hm, hl, of_decide_eq_true hlen, h2⟩

/-! ## C71 -/

/-- C71: every category for which a locale has a rule is given for some decimal text, and rightly. -/
theorem C71_reached (t : PluralRuleType) (id : LangId) (pr : PluralRules) (h : create id t = .ok pr) (key : Str)
    (rules : List (Str × Str)) (hk : (key, rules) ∈ cldrData t) (hid : LangId.parse key = some id) (c : PluralCategory) (text : Str)
    (hr : (c!"pluralRule-count-" ++ cldrName c, text) ∈ rules) :
    ∃ ip fp, Category rules (decOf ip fp) c ∧ select pr (tryFromStr (plainText ip fp)) = some (.ok c) := by
  obtain ⟨l, ds, h1, h2, h3, -, d, h5, h6, h7, h8⟩ := samples_of t key rules hk c text hr
  have hd : decOf (natDigits d.int) d.frac = d := by simp [decOf, digitsNum_natDigits]
  refine ⟨natDigits d.int, d.frac, by rw [hd, ← h5]; exact catB_category h1 h2 d, ?_⟩
  obtain ⟨c', key', rules', h9, h10, h11, h12⟩ := C65_strings t id pr h [] (.inl rfl) (natDigits d.int) d.frac (natDigits_ne _)
    (by rw [hd]; exact h7) h8
  obtain ⟨-, rfl⟩ := key_unique t id _ _ _ _ hk h10 hid h11
  rw [hd] at h12
  rw [← actB_category h1 h2 d c' h12, h6] at h9
  exact h9

example : ∃ pr ip fp, create ⟨some c!"en", none, none, none⟩ .CARDINAL = .ok pr ∧ Category CldrData.cardinalRules4 (decOf ip fp) .ONE ∧
    select pr (tryFromStr (plainText ip fp)) = some (.ok .ONE) := by
  obtain ⟨pr, h⟩ := (C01_create_iff_listed ⟨some c!"en", none, none, none⟩ .CARDINAL).1.2 (by decide +kernel)
  have hm : (CldrData.cardinalRules4.any fun r => r.1 == c!"pluralRule-count-" ++ cldrName .ONE) = true := by decide +kernel
  obtain ⟨⟨name, text⟩, hm, hx⟩ := List.any_eq_true.1 hm
  obtain rfl := beq_iff_eq.1 hx
  obtain ⟨ip, fp, h1⟩ := C71_reached _ _ pr h c!"en" CldrData.cardinalRules4 (by decide +kernel) (by decide +kernel) .ONE text hm
  exact ⟨pr, ip, fp, h, h1⟩

def noSample (t : PluralRuleType) (key name : Str) : Bool :=
  match (cldrData t).find? fun p => p.1 == key with
  | none => false
  | some p =>
    match GenPr.mapPanic readRule p.2, p.2.find? fun r => r.1 == name with
    | some l, some r =>
      match samples r.2 with
      | none => false
      | some ds => l.all (fun x => noWithin x.2) && !ds.isEmpty && ds.all fun d =>
          actB l d != .OTHER && decide (allDigits d < 2 ^ 53) && decide (d.v ≤ 300)
    | _, _ => false

/-- C71: but in Belarusian not one of the samples of the category OTHER gets it. -/
theorem C71_belarusian : ∃ id pr rules text ds, LangId.parse c!"be" = some id ∧ create id .CARDINAL = .ok pr ∧
    (c!"be", rules) ∈ cldrData .CARDINAL ∧ (c!"pluralRule-count-other", text) ∈ rules ∧ samples text = some ds ∧ ds ≠ [] ∧
    ∀ ip fp, ip ≠ [] → decOf ip fp ∈ ds → select pr (tryFromStr (plainText ip fp)) ≠ some (.ok .OTHER) := by
  obtain ⟨id, pr, hid, hpr, -⟩ := C22_exceptions_wrong .CARDINAL (c!"be", 15, .MANY, .OTHER) (by decide)
  have hc : noSample .CARDINAL c!"be" c!"pluralRule-count-other" = true := by decide +kernel
  unfold noSample at hc
  split at hc
  · cases hc
  · rename_i p hp
    have hk := List.find?_some hp
    have hm := List.mem_of_find?_eq_some hp
    simp only [beq_iff_eq] at hk
    obtain ⟨k, rules⟩ := p
    simp only at hk; subst hk
    split at hc
    · rename_i l r hl hr
      have hn := List.find?_some hr
      have hrm := List.mem_of_find?_eq_some hr
      simp only [beq_iff_eq] at hn
      obtain ⟨n, text⟩ := r
      simp only at hn; subst hn
      split at hc
      · cases hc
      · rename_i ds hs
        simp only [Bool.and_eq_true, List.all_eq_true, bne_iff_ne, decide_eq_true_eq, Bool.not_eq_true',
          List.isEmpty_eq_false_iff] at hc
        obtain ⟨⟨hw, hne⟩, hall⟩ := hc
        refine ⟨id, pr, rules, text, ds, hid, hpr, hm, hrm, hs, hne, fun ip fp hi hd => ?_⟩
        obtain ⟨⟨h1, h2⟩, h3⟩ := hall _ hd
        obtain ⟨c', key', rules', h9, h10, h11, h12⟩ := C65_strings .CARDINAL id pr hpr [] (.inl rfl) ip fp hi h2 h3
        obtain ⟨-, rfl⟩ := key_unique .CARDINAL id _ _ _ _ hm h10 hid h11
        rw [actB_category hl (List.all_eq_true.2 hw) _ c' h12] at h1
        rw [List.nil_append] at h9
        rw [h9]
        simpa using h1
    · cases hc

/-- For instance Arabic has all six categories. -/
example : ∃ rules, (c!"ar", rules) ∈ cldrData .CARDINAL ∧ ∀ c, ∃ text, (c!"pluralRule-count-" ++ cldrName c, text) ∈ rules := by
  have h : ((cldrData .CARDINAL).any fun p => p.1 == c!"ar" && [PluralCategory.ZERO, .ONE, .TWO, .FEW, .MANY, .OTHER].all fun c =>
      p.2.any fun r => r.1 == c!"pluralRule-count-" ++ cldrName c) = true := by decide +kernel
  obtain ⟨⟨k, rules⟩, hm, hx⟩ := List.any_eq_true.1 h
  simp only [Bool.and_eq_true, beq_iff_eq, List.all_eq_true, List.any_eq_true] at hx
  obtain ⟨rfl, hx⟩ := hx
  refine ⟨rules, hm, fun c => ?_⟩
  obtain ⟨⟨n, text⟩, h1, h2⟩ := hx c (by cases c <;> simp)
  exact ⟨text, by simp only at h2; exact h2 ▸ h1⟩

end Verif.Props
