import Verif.Props.Tables
import Verif.Props.Operands
import Verif.Props.Codegen
import Verif.Props.Parser
import Verif.Lemmas.Exclude

/-!
# C22–C25: `select` and the CLDR category of a number
-/

namespace Verif.Props
open Verif Api Rust Uts35 Spec Sem Parser Grammar PluralOperands

/-! ## Specification -/

/-- Among these CLDR rules is one for the category, its text says a condition, and the number satisfies it. -/
def Satisfies (rules : List (Str × Str)) (d : Dec) (c : PluralCategory) : Prop :=
  ∃ text condition samples, (c!"pluralRule-count-" ++ cldrName c, text) ∈ rules ∧
    RuleText 64 text ⟨condition, samples⟩ ∧ Holds d condition

/-- The category of a number under these CLDR rules: one but OTHER whose rule it satisfies, or OTHER if there is none. -/
def Category (rules : List (Str × Str)) (d : Dec) (c : PluralCategory) : Prop :=
  (c ≠ .OTHER ∧ Satisfies rules d c) ∨ (c = .OTHER ∧ ∀ c', c' ≠ .OTHER → ¬ Satisfies rules d c')

/-- The CLDR category of a number in a locale. -/
def CldrCategory (t : PluralRuleType) (id : LangId) (d : Dec) (c : PluralCategory) : Prop :=
  ∃ key rules, (key, rules) ∈ cldrData t ∧ LangId.parse key = some id ∧ Category rules d c

/-- The locales that are wrong on integers: an integer, its CLDR category, and the one that `select` gives. -/
def integerExceptions : PluralRuleType → List (Str × Nat × PluralCategory × PluralCategory)
  | .CARDINAL => [(c!"ar", 103, .FEW, .OTHER), (c!"ars", 103, .FEW, .OTHER), (c!"be", 15, .MANY, .OTHER),
      (c!"br", 23, .FEW, .OTHER), (c!"kw", 101000, .TWO, .OTHER), (c!"lt", 22, .FEW, .OTHER), (c!"lv", 111, .ZERO, .OTHER),
      (c!"mo", 102, .FEW, .OTHER), (c!"mt", 102, .FEW, .OTHER), (c!"prg", 111, .ZERO, .OTHER), (c!"ro", 102, .FEW, .OTHER)]
  | .ORDINAL => [(c!"kw", 101, .ONE, .OTHER)]

/-- The locales that are wrong on decimals: the digits before and after the point, the CLDR category, and the one that
`select` gives. -/
def decimalExceptions : PluralRuleType → List (Str × (List (Fin 10) × List (Fin 10)) × PluralCategory × PluralCategory)
  | .CARDINAL => [(c!"ar", ([3], [5]), .OTHER, .FEW), (c!"ars", ([3], [5]), .OTHER, .FEW), (c!"be", ([0], [5]), .OTHER, .MANY),
      (c!"br", ([0], [5]), .OTHER, .MANY), (c!"kw", ([1], [5]), .OTHER, .MANY), (c!"lt", ([2], [5]), .MANY, .FEW),
      (c!"lv", ([0], [5]), .OTHER, .ZERO), (c!"mo", ([1, 0, 2], []), .FEW, .OTHER), (c!"mt", ([2], [5]), .OTHER, .FEW),
      (c!"prg", ([0], [5]), .OTHER, .ZERO), (c!"ro", ([1, 0, 2], []), .FEW, .OTHER)]
  | .ORDINAL => [(c!"be", ([2], [5]), .OTHER, .FEW), (c!"en", ([1], [5]), .OTHER, .ONE), (c!"kk", ([0], [5]), .OTHER, .MANY),
      (c!"kw", ([1], [5]), .OTHER, .ONE), (c!"sq", ([4], [5]), .OTHER, .MANY), (c!"sv", ([1], [5]), .OTHER, .ONE),
      (c!"tk", ([6], [5]), .OTHER, .FEW), (c!"uk", ([3], [5]), .OTHER, .FEW)]

/-- The text of a decimal: no point without fraction digits. -/
def plainText (ip fp : List (Fin 10)) : Str := if fp = [] then digitText ip else decText ip fp

/-! ## Reading the rules -/

/-- The category of a rule key. -/
def nameCategory (key : Str) : Option PluralCategory :=
  [PluralCategory.ZERO, .ONE, .TWO, .FEW, .MANY, .OTHER].find? fun c => key == c!"pluralRule-count-" ++ cldrName c

theorem nameCategory_iff (key : Str) (c : PluralCategory) :
    nameCategory key = some c ↔ key = c!"pluralRule-count-" ++ cldrName c := by
  constructor
  · intro h
    have := List.find?_some h
    simpa using this
  · rintro rfl; cases c <;> decide +kernel

/-- The category and the condition of a rule. -/
def readRule (p : Str × Str) : Option (PluralCategory × Condition) :=
  match nameCategory p.1, parsePluralRule 64 p.2 with
  | some c, .ok r => some (c, r.condition)
  | _, _ => none

theorem readRule_iff (p : Str × Str) (c : PluralCategory) (cond : Condition) : readRule p = some (c, cond) ↔
    p.1 = c!"pluralRule-count-" ++ cldrName c ∧ ∃ samples, RuleText 64 p.2 ⟨cond, samples⟩ := by
  simp only [← nameCategory_iff, ← parsePluralRule_ok]
  unfold readRule
  cases h1 : nameCategory p.1 with
  | none => simp
  | some c' =>
    cases h2 : parsePluralRule 64 p.2 with
    | error e => simp
    | ok r =>
      obtain ⟨cond', samples⟩ := r
      simp only [Option.some.injEq, Prod.mk.injEq, Except.ok.injEq, Rule.mk.injEq]
      constructor
      · rintro ⟨h, rfl⟩; exact ⟨h, _, rfl, rfl⟩
      · rintro ⟨h, _, rfl, rfl⟩; exact ⟨h, rfl⟩

theorem mapPanic_mem {f : α → Option β} {l : List α} {bs : List β} (h : GenPr.mapPanic f l = some bs) :
    (∀ a ∈ l, ∃ b ∈ bs, f a = some b) ∧ ∀ b ∈ bs, ∃ a ∈ l, f a = some b := by
  have hf := Prec.mapPanic_some h
  clear h
  induction hf with
  | nil => simp
  | cons h1 _ ih =>
    constructor
    · rintro a ha
      rcases List.mem_cons.1 ha with rfl | ha
      · exact ⟨_, by simp, h1⟩
      · obtain ⟨b, hb, h⟩ := ih.1 a ha; exact ⟨b, by simp [hb], h⟩
    · rintro b hb
      rcases List.mem_cons.1 hb with rfl | hb
      · exact ⟨_, by simp, h1⟩
      · obtain ⟨a, ha, h⟩ := ih.2 b hb; exact ⟨a, by simp [ha], h⟩

theorem satisfies_iff {rules : List (Str × Str)} {l : List (PluralCategory × Condition)}
    (h : GenPr.mapPanic readRule rules = some l) (d : Dec) (c : PluralCategory) :
    Satisfies rules d c ↔ ∃ cond, (c, cond) ∈ l ∧ Holds d cond := by
  obtain ⟨h1, h2⟩ := mapPanic_mem h
  constructor
  · rintro ⟨text, cond, samples, hm, ht, hh⟩
    obtain ⟨b, hb, hr⟩ := h1 _ hm
    rw [(readRule_iff _ c cond).2 ⟨rfl, samples, ht⟩] at hr
    cases hr
    exact ⟨cond, hb, hh⟩
  · rintro ⟨cond, hm, hh⟩
    obtain ⟨⟨k, text⟩, ha, hr⟩ := h2 _ hm
    obtain ⟨hk, samples, ht⟩ := (readRule_iff _ c cond).1 hr
    simp only at hk; subst hk
    exact ⟨text, cond, samples, ha, ht, hh⟩

/-! ## C25 -/

def localeExclusive (rules : List (PluralCategory × Condition)) : Bool :=
  rules.all fun x => rules.all fun y => x.1 == y.1 || condsExclude x.2 y.2

theorem exclusive_checked : ∀ t : PluralRuleType, ((cldrData t).all fun p =>
    match GenPr.mapPanic readRule p.2 with
    | some l => localeExclusive l
    | none => false) = true := by
  intro t; cases t <;> decide +kernel

theorem readRules (t : PluralRuleType) (key : Str) (rules : List (Str × Str)) (h : (key, rules) ∈ cldrData t) :
    ∃ l, GenPr.mapPanic readRule rules = some l ∧ localeExclusive l = true := by
  have := List.all_eq_true.1 (exclusive_checked t) _ h
  simp only at this
  split at this
  · rename_i l hl; exact ⟨l, hl, this⟩
  · simp at this

/-- C25: no number satisfies the rules of two categories of a locale. -/
theorem C25_exclusive (t : PluralRuleType) (key : Str) (rules : List (Str × Str)) (h : (key, rules) ∈ cldrData t)
    (d : Dec) (c c' : PluralCategory) (h1 : Satisfies rules d c) (h2 : Satisfies rules d c') : c = c' := by
  obtain ⟨l, hl, he⟩ := readRules t key rules h
  obtain ⟨cond, hm, hh⟩ := (satisfies_iff hl d c).1 h1
  obtain ⟨cond', hm', hh'⟩ := (satisfies_iff hl d c').1 h2
  simp only [localeExclusive, List.all_eq_true, Bool.or_eq_true, beq_iff_eq] at he
  rcases he _ hm _ hm' with he | he
  · exact he
  · exact absurd ⟨hh, hh'⟩ (condsExclude_sound _ _ he d)

/-- One satisfies a rule of English. -/
example : (c!"en", CldrData.cardinalRules4) ∈ cldrData .CARDINAL ∧ Satisfies CldrData.cardinalRules4 ⟨1, []⟩ .ONE := by
  have h : GenPr.mapPanic readRule CldrData.cardinalRules4 =
      some [(.ONE, [[⟨⟨.I, none⟩, .EQ, [.value 1]⟩, ⟨⟨.V, none⟩, .EQ, [.value 0]⟩]]), (.OTHER, [])] := by decide +kernel
  exact ⟨by decide +kernel, (satisfies_iff h _ _).2 ⟨_, List.mem_cons_self, (holdsB_iff _ _ rfl).1 (by decide +kernel)⟩⟩

theorem key_checked : ∀ t : PluralRuleType, ((cldrData t).all fun p =>
    match LangId.parse p.1 with
    | some id => p.1 == keyOf id
    | none => true) = true := by
  intro t; cases t <;> decide +kernel

theorem key_unique (t : PluralRuleType) (id : LangId) (k k' : Str) (r r' : List (Str × Str)) (h : (k, r) ∈ cldrData t)
    (h' : (k', r') ∈ cldrData t) (hi : LangId.parse k = some id) (hi' : LangId.parse k' = some id) : k = k' ∧ r = r' := by
  have hk : ∀ k r, (k, r) ∈ cldrData t → LangId.parse k = some id → k = keyOf id := by
    intro k r h hi
    have := List.all_eq_true.1 (key_checked t) _ h
    simpa [hi] using this
  have e1 := hk k r h hi
  have e2 := hk k' r' h' hi'
  subst e1; subst e2
  exact ⟨rfl, congrArg Prod.snd (List.inj_on_of_nodup_map (C21_locales_are_keys t).2.2 h h' rfl)⟩

/-- C25: a number has one CLDR category in each locale of the tables, and only one. -/
theorem C25_unique (t : PluralRuleType) (id : LangId) (h : id ∈ getLocales t) (d : Dec) :
    ∃ c, CldrCategory t id d c ∧ ∀ c', CldrCategory t id d c' → c' = c := by
  obtain ⟨⟨key, rules⟩, hp, -, hid⟩ := ((C21_locales_are_keys t).1 id).1 h
  have hu : ∀ c, CldrCategory t id d c → Category rules d c := by
    rintro c ⟨k, r, h1, h2, h3⟩
    obtain ⟨-, rfl⟩ := key_unique t id _ _ _ _ h1 hp h2 hid
    exact h3
  have huniq : ∀ c c', Category rules d c → Category rules d c' → c = c' := by
    rintro c c' (⟨h1, h2⟩ | ⟨rfl, h2⟩) (⟨h3, h4⟩ | ⟨rfl, h4⟩)
    · exact C25_exclusive t key rules hp d c c' h2 h4
    · exact absurd h2 (h4 c h1)
    · exact absurd h4 (h2 c' h3)
    · rfl
  have hex : ∃ c, Category rules d c := by
    by_cases hs : ∃ c, c ≠ .OTHER ∧ Satisfies rules d c
    · obtain ⟨c, h1, h2⟩ := hs; exact ⟨c, .inl ⟨h1, h2⟩⟩
    · exact ⟨.OTHER, .inr ⟨rfl, fun c h1 h2 => hs ⟨c, h1, h2⟩⟩⟩
  obtain ⟨c, hc⟩ := hex
  exact ⟨c, ⟨key, rules, hp, hid, hc⟩, fun c' hc' => huniq _ _ (hu c' hc') hc⟩

example : ∃ c, CldrCategory .CARDINAL ⟨some c!"ar", none, none, none⟩ ⟨103, [5, 0]⟩ c ∧
    ∀ c', CldrCategory .CARDINAL ⟨some c!"ar", none, none, none⟩ ⟨103, [5, 0]⟩ c' → c' = c :=
  C25_unique _ _ (by decide +kernel) _

/-! ## The chain of tests -/

theorem evalArms_cases (po : PluralOperands) (arms : List (RExpr × PluralCategory)) (last : PluralCategory)
    (h : ∀ a ∈ arms, ∃ b, Ev po a.1 b) : ∃ c, evalArms po arms last = some c ∧
      ((∃ a ∈ arms, a.2 = c ∧ Ev po a.1 true) ∨ c = last ∧ ∀ a ∈ arms, Ev po a.1 false) := by
  induction arms with
  | nil => exact ⟨last, rfl, .inr ⟨rfl, by simp⟩⟩
  | cons a arms ih =>
    obtain ⟨e, c⟩ := a
    obtain ⟨b, hb⟩ := h (e, c) (by simp)
    simp only [Ev] at hb
    cases b with
    | true => exact ⟨c, by simp only [evalArms, hb], .inl ⟨(e, c), by simp, rfl, hb⟩⟩
    | false =>
      obtain ⟨c', h1, h2⟩ := ih fun a ha => h a (by simp [ha])
      refine ⟨c', by simp only [evalArms, hb, h1], ?_⟩
      rcases h2 with ⟨a, ha, h3, h4⟩ | ⟨h3, h4⟩
      · exact .inl ⟨a, by simp [ha], h3, h4⟩
      · refine .inr ⟨h3, fun a ha => ?_⟩
        rcases List.mem_cons.1 ha with rfl | ha
        · exact hb
        · exact h4 a ha

/-- The function tests the conditions of these rules. -/
def armsMatch (l : List (PluralCategory × Condition)) (f : Closure) : Bool :=
  f.last == .OTHER &&
  f.arms.all (fun a => a.2 != .OTHER && l.any fun x => x.1 == a.2 && Intended.condition x.2 == some a.1) &&
  l.all fun x => x.1 == .OTHER || f.arms.any fun a => a.2 == x.1 && Intended.condition x.2 == some a.1

theorem call_category {rules : List (Str × Str)} {l : List (PluralCategory × Condition)}
    (h : GenPr.mapPanic readRule rules = some l) (f : Closure) (hm : armsMatch l f = true) (lvl : Level)
    (hs : l.all (fun x => x.1 == .OTHER || condSafe lvl x.2) = true) (po : PluralOperands) (d : Dec)
    (hr : Represents True po d) (hl : lvl.ok d) : ∃ c, f.call po = some c ∧ Category rules d c := by
  simp only [armsMatch, Bool.and_eq_true, List.all_eq_true, List.any_eq_true, Bool.or_eq_true, beq_iff_eq, bne_iff_ne] at hm hs
  obtain ⟨⟨hlast, harms⟩, hrules⟩ := hm
  have hsem : ∀ a ∈ f.arms, ∃ x ∈ l, x.1 = a.2 ∧ ∃ b, Ev po a.1 b ∧ (b = true ↔ Holds d x.2) := by
    intro a ha
    obtain ⟨hne, x, hx, h1, h2⟩ := harms a ha
    have hsafe := (hs x hx).resolve_left (by rw [h1]; exact hne)
    obtain ⟨e, b, h3, h4, h5⟩ := condition_sem hr lvl hl x.2 (fun _ _ _ _ _ => trivial) hsafe
    rw [h2] at h3; cases h3
    exact ⟨x, hx, h1, b, h4, h5⟩
  obtain ⟨c, hc, hcase⟩ := evalArms_cases po f.arms f.last fun a ha => by
    obtain ⟨x, -, -, b, hb, -⟩ := hsem a ha; exact ⟨b, hb⟩
  refine ⟨c, hc, ?_⟩
  rcases hcase with ⟨a, ha, rfl, hev⟩ | ⟨rfl, hall⟩
  · left
    obtain ⟨x, hx, h1, b, h2, h3⟩ := hsem a ha
    simp only [Ev] at hev h2; rw [hev] at h2; cases h2
    exact ⟨(harms a ha).1, (satisfies_iff h d a.2).2 ⟨x.2, h1 ▸ hx, h3.1 rfl⟩⟩
  · right
    refine ⟨hlast, fun c' hc' hsat => ?_⟩
    obtain ⟨cond, hx, hh⟩ := (satisfies_iff h d c').1 hsat
    obtain ⟨a, ha, h1, h2⟩ := (hrules _ hx).resolve_left hc'
    obtain ⟨e, b, h3, h4, h5⟩ := condition_sem hr lvl hl cond (fun _ _ _ _ _ => trivial) ((hs _ hx).resolve_left hc')
    simp only at h2; rw [h2] at h3; cases h3
    have := hall a ha
    simp only [Ev] at this h4; rw [this] at h4; cases h4
    simpa using h5.2 hh

/-- The static checks on an entry of a table. -/
def entryCheck (t : PluralRuleType) (e : LangId × Closure) : Bool :=
  match (cldrData t).find? fun p => p.1 == keyOf e.1 with
  | none => false
  | some p =>
    match GenPr.mapPanic readRule p.2 with
    | none => false
    | some l =>
      armsMatch l e.2 && l.all (fun x => x.1 == .OTHER || condSafe .small x.2) &&
      (((integerExceptions t).map (·.1)).contains p.1 || l.all (fun x => x.1 == .OTHER || condSafe .int x.2)) &&
      (((decimalExceptions t).map (·.1)).contains p.1 || l.all (fun x => x.1 == .OTHER || condSafe .frac x.2))

theorem entries_checked : ∀ t : PluralRuleType, (table t).all (entryCheck t) = true := by
  intro t; cases t <;> decide +kernel

/-- The locale is not an exception of the level. -/
def Regular (t : PluralRuleType) (id : LangId) : Level → Prop
  | .small => True
  | .int => ∀ x ∈ integerExceptions t, LangId.parse x.1 ≠ some id
  | .frac => ∀ x ∈ decimalExceptions t, LangId.parse x.1 ≠ some id

theorem select_category (t : PluralRuleType) (id : LangId) (pr : PluralRules) (h : create id t = .ok pr) (lvl : Level)
    (hreg : Regular t id lvl) (po : PluralOperands) (d : Dec) (hr : Represents True po d) (hl : lvl.ok d) :
    ∃ c, select (ε := OpsErr) pr (.ok po) = some (.ok c) ∧ CldrCategory t id d c := by
  have hmem := ((C02_create_own_rule id t pr).1 h).2
  have hd := List.all_eq_true.1 (declares_checked t) _ hmem
  have he := List.all_eq_true.1 (entries_checked t) _ hmem
  simp only [declaresCheck] at hd
  simp only [entryCheck] at he
  cases hp : (cldrData t).find? fun p => p.1 == keyOf id with
  | none => simp [hp] at he
  | some p =>
    simp only [hp] at hd he
    cases hm : GenPr.mapPanic readRule p.2 with
    | none => simp [hm] at he
    | some l =>
      simp only [hm, Bool.and_eq_true, beq_iff_eq, Bool.or_eq_true] at hd he
      have hpm := List.mem_of_find?_eq_some hp
      have hs : l.all (fun x => x.1 == .OTHER || condSafe lvl x.2) = true := by
        cases lvl with
        | small => exact he.1.1.2
        | int =>
          refine he.1.2.resolve_left fun hc => ?_
          obtain ⟨x, hx, hx'⟩ := List.mem_map.1 (List.contains_iff_mem.1 hc)
          exact hreg x hx (hx' ▸ hd.1)
        | frac =>
          refine he.2.resolve_left fun hc => ?_
          obtain ⟨x, hx, hx'⟩ := List.mem_map.1 (List.contains_iff_mem.1 hc)
          exact hreg x hx (hx' ▸ hd.1)
      obtain ⟨c, hc, hcat⟩ := call_category hm pr.function he.1.1.1 lvl hs po d hr hl
      exact ⟨c, by simp only [select, hc], p.1, p.2, hpm, hd.1, hcat⟩

/-! ## C22 -/

theorem fits_nat (x : Nat) (h : x < 2 ^ 64) : Fits ⟨x, []⟩ := by
  have e : allDigits ⟨x, []⟩ = x := by simp [allDigits, Dec.i, Dec.v, Dec.f, digitsNum]
  simp only [Fits, e, Dec.v, Dec.i, List.length_nil]
  omega

/-- C22: in a locale that is no exception, an unsigned integer of any type gets its CLDR category. -/
theorem C22_integers (t : PluralRuleType) (id : LangId) (pr : PluralRules) (h : create id t = .ok pr)
    (hreg : ∀ x ∈ integerExceptions t, LangId.parse x.1 ≠ some id) (k : Nat) (hk : k < 2 ^ 64) :
    ∃ c, select (ε := OpsErr) pr (.ok (fromUnsigned k)) = some (.ok c) ∧ CldrCategory t id ⟨k, []⟩ c :=
  select_category t id pr h .int hreg _ _ (represents_of _ _ (C08_operands k) (fits_nat k hk)) (by simp [Level.ok, Dec.f, digitsNum])

example : ∃ pr c, create ⟨some c!"pl", none, none, none⟩ .CARDINAL = .ok pr ∧
    select (ε := OpsErr) pr (.ok (fromUnsigned 1000000000000000002)) = some (.ok c) ∧
    CldrCategory .CARDINAL ⟨some c!"pl", none, none, none⟩ ⟨1000000000000000002, []⟩ c := by
  obtain ⟨pr, h⟩ := (C01_create_iff_listed ⟨some c!"pl", none, none, none⟩ .CARDINAL).1.2 (by decide +kernel)
  obtain ⟨c, hc⟩ := C22_integers _ _ pr h (by decide +kernel) 1000000000000000002 (by decide)
  exact ⟨pr, c, h, hc⟩

/-- C22: a signed integer gets the CLDR category of its absolute value. -/
theorem C22_signed (t : PluralRuleType) (id : LangId) (pr : PluralRules) (h : create id t = .ok pr)
    (hreg : ∀ x ∈ integerExceptions t, LangId.parse x.1 ≠ some id) (k : Int) (h1 : -(2 : Int) ^ 63 < k) (h2 : k < (2 : Int) ^ 63) :
    ∃ c, select pr (tryFromSigned 64 k) = some (.ok c) ∧ CldrCategory t id ⟨k.natAbs, []⟩ c := by
  rw [C10_fits 64 (by omega) k (by simpa using h1) (by simpa using h2)]
  exact C22_integers t id pr h hreg _ (by omega)

/-- The hypotheses hold, for instance for Polish, and the category is not always OTHER. -/
example : (∀ x ∈ integerExceptions .CARDINAL, LangId.parse x.1 ≠ LangId.parse c!"pl") ∧
    ∃ id pr, LangId.parse c!"pl" = some id ∧ create id .CARDINAL = .ok pr ∧
      select (ε := OpsErr) pr (.ok (fromUnsigned 1000000000000000002)) = some (.ok .FEW) := by
  refine ⟨by decide +kernel, _, ⟨_, RulesTable.cardinalFn29⟩, rfl, (C02_create_own_rule _ _ _).2 ⟨rfl, by decide +kernel⟩, by decide +kernel⟩

/-- The category of a number under rules that have been read. -/
def catB (l : List (PluralCategory × Condition)) (d : Dec) : PluralCategory :=
  match l.find? fun x => x.1 != .OTHER && holdsB d x.2 with
  | some x => x.1
  | none => .OTHER

theorem catB_category {rules : List (Str × Str)} {l : List (PluralCategory × Condition)}
    (h : GenPr.mapPanic readRule rules = some l) (hw : l.all (fun x => noWithin x.2) = true) (d : Dec) :
    Category rules d (catB l d) := by
  simp only [List.all_eq_true] at hw
  unfold catB
  cases hf : l.find? fun x => x.1 != .OTHER && holdsB d x.2 with
  | some x =>
    have h1 := List.find?_some hf
    have hm := List.mem_of_find?_eq_some hf
    simp only [Bool.and_eq_true, bne_iff_ne] at h1
    exact .inl ⟨h1.1, (satisfies_iff h d x.1).2 ⟨x.2, hm, (holdsB_iff d x.2 (hw x hm)).1 h1.2⟩⟩
  | none =>
    refine .inr ⟨rfl, fun c' hc' hsat => ?_⟩
    obtain ⟨cond, hm, hh⟩ := (satisfies_iff h d c').1 hsat
    have := List.find?_eq_none.1 hf _ hm
    simp only [Bool.and_eq_true, bne_iff_ne, not_and] at this
    exact this hc' ((holdsB_iff d cond (hw _ hm)).2 hh)

/-- A locale is wrong on operands: they are those of `d`, whose category is `good`, but its function gives `bad`. -/
def wrongCheck (t : PluralRuleType) (key : Str) (po : Option PluralOperands) (d : Dec) (good bad : PluralCategory) : Bool :=
  match LangId.parse key, (cldrData t).find? fun p => p.1 == key, po with
  | some id, some p, some po =>
    match GenPr.mapPanic readRule p.2, (table t).find? fun e => e.1 == id with
    | some l, some e => l.all (fun x => noWithin x.2) && catB l d == good && e.2.call po == some bad && good != bad
    | _, _ => false
  | _, _, _ => false

theorem wrong_of_check {t : PluralRuleType} {key : Str} {po : PluralOperands} {d : Dec} {good bad : PluralCategory}
    (h : wrongCheck t key (some po) d good bad = true) : ∃ id pr, LangId.parse key = some id ∧ create id t = .ok pr ∧
      select (ε := OpsErr) pr (.ok po) = some (.ok bad) ∧ CldrCategory t id d good ∧ good ≠ bad := by
  unfold wrongCheck at h
  split at h
  · rename_i id p po' hid hp hpo
    cases hpo
    split at h
    · rename_i l e hl he
      simp only [Bool.and_eq_true, beq_iff_eq, bne_iff_ne] at h
      obtain ⟨⟨⟨h1, h2⟩, h3⟩, h4⟩ := h
      have hk := List.find?_some hp
      have hi := List.find?_some he
      simp only [beq_iff_eq] at hk hi
      refine ⟨id, ⟨id, e.2⟩, hid, ?_, by simp only [select, h3], ⟨p.1, p.2, List.mem_of_find?_eq_some hp, hk ▸ hid, ?_⟩, h4⟩
      · have := List.mem_of_find?_eq_some he
        exact (C02_create_own_rule id t _).2 ⟨rfl, by rw [← hi]; exact this⟩
      · exact h2 ▸ catB_category hl h1 d
    · simp at h
  · simp at h

/-- C22 is false for the exceptions: each has an integer that gets another category than its CLDR category. -/
theorem C22_exceptions_wrong (t : PluralRuleType) : ∀ x ∈ integerExceptions t, ∃ id pr, LangId.parse x.1 = some id ∧
    create id t = .ok pr ∧ select (ε := OpsErr) pr (.ok (fromUnsigned x.2.1)) = some (.ok x.2.2.2) ∧
    CldrCategory t id ⟨x.2.1, []⟩ x.2.2.1 ∧ x.2.2.1 ≠ x.2.2.2 := by
  have h : (integerExceptions t).all (fun x => wrongCheck t x.1 (some (fromUnsigned x.2.1)) ⟨x.2.1, []⟩ x.2.2.1 x.2.2.2) = true := by
    cases t <;> decide +kernel
  intro x hx
  exact wrong_of_check (List.all_eq_true.1 h x hx)

/-! ## C23 -/

theorem plain_operands (sign : Str) (hs : sign = [] ∨ sign = ['-']) (ip fp : List (Fin 10)) (hi : ip ≠ [])
    (h1 : allDigits (decOf ip fp) < 2 ^ 53) (h2 : fp.length ≤ 300) :
    ∃ po, tryFromStr (sign ++ plainText ip fp) = .ok po ∧ Represents True po (decOf ip fp) := by
  have hf : Fits (decOf ip fp) := .inl ⟨h1, h2⟩
  have hi64 : digitsNum ip ≤ allDigits (decOf ip fp) := by
    simp only [allDigits, decOf, Dec.i]
    exact le_trans (Nat.le_mul_of_pos_right _ (by positivity)) (Nat.le_add_right ..)
  have hf64 : digitsNum fp ≤ allDigits (decOf ip fp) := Nat.le_add_left ..
  by_cases he : fp = []
  · subst he
    refine ⟨_, by rw [plainText, if_pos rfl]; exact C12_integer sign hs ip hi (by omega), ?_⟩
    exact represents_of _ _ (C08_operands _) hf
  · obtain ⟨po, h3, h4, -⟩ := C11_decimal sign hs ip fp hi he (by omega) (by omega)
    exact ⟨po, by rw [plainText, if_neg he]; exact h3, represents_of _ _ h4 hf⟩

/-- C23: in a locale that is no exception, a plain decimal string gets its CLDR category. -/
theorem C23_decimals (t : PluralRuleType) (id : LangId) (pr : PluralRules) (h : create id t = .ok pr)
    (hreg : ∀ x ∈ decimalExceptions t, LangId.parse x.1 ≠ some id) (sign : Str) (hs : sign = [] ∨ sign = ['-'])
    (ip fp : List (Fin 10)) (hi : ip ≠ []) (h1 : allDigits (decOf ip fp) < 2 ^ 53) (h2 : fp.length ≤ 300) :
    ∃ c, select pr (tryFromStr (sign ++ plainText ip fp)) = some (.ok c) ∧ CldrCategory t id (decOf ip fp) c := by
  obtain ⟨po, h3, h4⟩ := plain_operands sign hs ip fp hi h1 h2
  rw [h3]
  exact select_category t id pr h .frac hreg _ _ h4 trivial

example : ∃ pr c, create ⟨some c!"cs", none, none, none⟩ .CARDINAL = .ok pr ∧ select pr (tryFromStr c!"-1.50") = some (.ok c) ∧
    CldrCategory .CARDINAL ⟨some c!"cs", none, none, none⟩ (decOf [1] [5, 0]) c := by
  obtain ⟨pr, h⟩ := (C01_create_iff_listed ⟨some c!"cs", none, none, none⟩ .CARDINAL).1.2 (by decide +kernel)
  obtain ⟨c, hc⟩ := C23_decimals _ _ pr h (by decide +kernel) ['-'] (.inr rfl) [1] [5, 0] (by simp) (by decide) (by decide)
  exact ⟨pr, c, h, hc⟩

/-- C23 is false for the exceptions: each has a decimal string that gets another category than its CLDR category. -/
theorem C23_exceptions_wrong (t : PluralRuleType) : ∀ x ∈ decimalExceptions t, ∃ id pr, LangId.parse x.1 = some id ∧
    create id t = .ok pr ∧ select pr (tryFromStr (plainText x.2.1.1 x.2.1.2)) = some (.ok x.2.2.2) ∧
    CldrCategory t id (decOf x.2.1.1 x.2.1.2) x.2.2.1 ∧ x.2.2.1 ≠ x.2.2.2 := by
  have h : (decimalExceptions t).all (fun x => wrongCheck t x.1 (tryFromStr (plainText x.2.1.1 x.2.1.2)).toOption
      (decOf x.2.1.1 x.2.1.2) x.2.2.1 x.2.2.2) = true := by
    cases t <;> decide +kernel
  intro x hx
  have := List.all_eq_true.1 h x hx
  cases hpo : tryFromStr (plainText x.2.1.1 x.2.1.2) with
  | error e => rw [hpo] at this; simp [Except.toOption, wrongCheck] at this
  | ok po => rw [hpo] at this; exact wrong_of_check this

/-- A string of the quantified form, in a locale that is no exception. -/
example : (∀ x ∈ decimalExceptions .CARDINAL, LangId.parse x.1 ≠ LangId.parse c!"cs") ∧
    plainText [1] [5, 0] = c!"1.50" ∧ allDigits (decOf [1] [5, 0]) < 2 ^ 53 ∧
    ∃ id pr, LangId.parse c!"cs" = some id ∧ create id .CARDINAL = .ok pr ∧
      (select pr (tryFromStr c!"1.50")).map (·.toOption) = some (some .MANY) := by
  refine ⟨by decide +kernel, by decide +kernel, by decide +kernel, _, ⟨_, _⟩, rfl,
    (C02_create_own_rule _ _ ⟨_, ((table .CARDINAL).find? fun e => some e.1 == LangId.parse c!"cs").get (by decide +kernel) |>.2⟩).2 ⟨rfl, by decide +kernel⟩, by decide +kernel⟩

/-! ## C24 -/

/-- C24: the integers below 10 get their CLDR category in every locale. -/
theorem C24_digits (t : PluralRuleType) (id : LangId) (pr : PluralRules) (h : create id t = .ok pr) (k : Nat) (hk : k < 10) :
    ∃ c, CldrCategory t id ⟨k, []⟩ c ∧ select (ε := OpsErr) pr (.ok (fromUnsigned k)) = some (.ok c) ∧
      (∀ bits, 8 ≤ bits → ∀ x : Int, x.natAbs = k → select pr (tryFromSigned bits x) = some (.ok c)) ∧
      ∀ sign ip, (sign = [] ∨ sign = ['-']) → ip ≠ [] → digitsNum ip = k →
        select pr (tryFromStr (sign ++ digitText ip)) = some (.ok c) := by
  obtain ⟨c, h1, h2⟩ := select_category t id pr h .small trivial _ _
    (represents_of _ _ (C08_operands k) (fits_nat k (by omega))) ⟨by simp [Dec.f, digitsNum], hk⟩
  refine ⟨c, h2, h1, ?_, ?_⟩
  · intro bits hb x hx
    have : (2 : Int) ^ 7 ≤ 2 ^ (bits - 1) := by
      exact_mod_cast Nat.pow_le_pow_right (by omega) (by omega : 7 ≤ bits - 1)
    rw [C10_fits bits (by omega) x (by omega) (by omega), hx]
    exact h1
  · intro sign ip hs hi hd
    rw [C12_integer sign hs ip hi (by omega), hd]
    exact h1

example : ∃ pr c, create ⟨some c!"ar", none, none, none⟩ .CARDINAL = .ok pr ∧ CldrCategory .CARDINAL ⟨some c!"ar", none, none, none⟩ ⟨3, []⟩ c ∧
    select pr (tryFromSigned 8 (-3)) = some (.ok c) ∧ select pr (tryFromStr c!"-003") = some (.ok c) := by
  obtain ⟨pr, h⟩ := (C01_create_iff_listed ⟨some c!"ar", none, none, none⟩ .CARDINAL).1.2 (by decide +kernel)
  obtain ⟨c, h1, -, h2, h3⟩ := C24_digits _ _ pr h 3 (by decide)
  exact ⟨pr, c, h, h1, h2 8 (by decide) (-3) rfl, h3 ['-'] [0, 0, 3] (.inr rfl) (by simp) (by decide)⟩

/-- Zeros after the point do not change `n`. -/
theorem zeros_operands (sign : Str) (hs : sign = [] ∨ sign = ['-']) (ip : List (Fin 10)) (hi : ip ≠ [])
    (hk : digitsNum ip < 2 ^ 49) (z : Nat) : ∃ po, tryFromStr (sign ++ plainText ip (List.replicate z 0)) = .ok po ∧
      Represents True po (decOf ip (List.replicate z 0)) := by
  have hzero : ∀ z, digitsNum (List.replicate z 0) = 0 := fun z => (digitsNum_eq_zero _).2 (by simp)
  have hdrop : ∀ z, dropTrailingZeros (List.replicate z 0) = [] := by
    intro z
    cases z with
    | zero => rfl
    | succ z => rw [List.replicate_succ, dropTrailingZeros, if_pos (by simp)]
  have hlen : ∀ z, (decOf ip (List.replicate z 0)).v = z := by intro z; simp [decOf, Dec.v]
  have hf0 : ∀ z, (decOf ip (List.replicate z 0)).f = 0 := hzero
  cases z with
  | zero =>
    refine plain_operands sign hs ip [] hi ?_ (by simp)
    simp only [allDigits, decOf, Dec.i, Dec.v, Dec.f, digitsNum, List.length_nil]; omega
  | succ z =>
    obtain ⟨po, h1, h2⟩ := plain_operands sign hs ip [0] hi (by
      simp only [allDigits, decOf, Dec.i, Dec.v, Dec.f, digitsNum, List.length_cons, List.length_nil]; simp; omega) (by simp)
    rw [plainText, if_neg (by simp)] at h1
    have h3 := C15_trailing_zeros sign hs z ip [0] hi po h1
    have hpf : po.f = 0 := h2.f.trans (hf0 1)
    rw [if_pos (by simp [hpf])] at h3
    have e : plainText ip (List.replicate (z + 1) 0) = decText ip [0] ++ List.replicate z '0' := by
      rw [plainText, if_neg (by simp [List.replicate_succ]), zeros_text, decText, decText, List.replicate_succ]
      simp [digitText]
    refine ⟨{ po with v := po.v + z, f := po.f * 10 ^ z }, by rw [e]; exact h3, h2.i, ?_, ?_, ?_, ?_, fun _ => ?_⟩
    · rw [hlen]; show po.v + z = z + 1; rw [h2.v, show (decOf ip [0]).v = 1 from rfl]; omega
    · exact h2.w.trans (by simp only [decOf, Dec.w, hdrop]; rfl)
    · rw [hf0]; simp [hpf]
    · exact h2.t.trans (by simp only [decOf, Dec.t, hdrop]; rfl)
    · obtain ⟨m, hm, hc⟩ := h2.n trivial
      refine ⟨m, hm, fun k hk => ?_⟩
      obtain ⟨h4, h5⟩ := hc k hk
      have e1 : (decOf ip [0]).sig = digitsNum ip * 10 ^ (decOf ip [0]).v := by
        simp [Dec.sig, decOf, Dec.i, Dec.v, Dec.f, digitsNum]
      have e2 : (decOf ip (List.replicate (z + 1) 0)).sig = digitsNum ip * 10 ^ (decOf ip (List.replicate (z + 1) 0)).v := by
        rw [Dec.sig, hf0]; rfl
      rw [h4, h5, e1, e2]
      exact ⟨by rw [Nat.mul_lt_mul_right (by positivity), Nat.mul_lt_mul_right (by positivity)],
        by rw [Nat.mul_left_inj (by positivity), Nat.mul_left_inj (by positivity)]⟩

/-- C24: and so do the decimals with these values, with any number of zeros after the point. -/
theorem C24_zeros (t : PluralRuleType) (id : LangId) (pr : PluralRules) (h : create id t = .ok pr) (sign : Str)
    (hs : sign = [] ∨ sign = ['-']) (ip : List (Fin 10)) (hi : ip ≠ []) (hk : digitsNum ip < 10) (z : Nat) :
    ∃ c, select pr (tryFromStr (sign ++ plainText ip (List.replicate z 0))) = some (.ok c) ∧
      CldrCategory t id (decOf ip (List.replicate z 0)) c := by
  obtain ⟨po, h1, h2⟩ := zeros_operands sign hs ip hi (by omega) z
  rw [h1]
  exact select_category t id pr h .small trivial _ _ h2 ⟨(digitsNum_eq_zero _).2 (by simp [decOf]), hk⟩

/-- The wrong Arabic is right on 3 and on 3.0. -/
example : ∃ id pr, LangId.parse c!"ar" = some id ∧ create id .CARDINAL = .ok pr ∧
    (select pr (tryFromStr c!"3.0")).map (·.toOption) = some (some .FEW) ∧
    select (ε := OpsErr) pr (.ok (fromUnsigned 3)) = some (.ok .FEW) := by
  refine ⟨_, ⟨_, _⟩, rfl, (C02_create_own_rule _ _ ⟨_, ((table .CARDINAL).find? fun e => some e.1 == LangId.parse c!"ar").get
    (by decide +kernel) |>.2⟩).2 ⟨rfl, by decide +kernel⟩, by decide +kernel, by decide +kernel⟩

end Verif.Props
