import Verif.Props.Samples

/-!
# C109: telling locales apart

The errors of the generated code (C22, C23) neither give two locales with different rules the same answers, nor two locales with the
same rules different ones; and a few numbers are enough to tell any two locales apart.
-/

namespace Verif.Props
open Verif Api Rust Uts35 Spec Sem Verif.Parser Grammar PluralOperands RulesTable CldrData

/-- Numbers that tell all locales apart. -/
def probes : PluralRuleType → List Str
  | .CARDINAL => [c!"0", c!"0.1", c!"0.2", c!"1", c!"1.0", c!"1.1", c!"2", c!"2.0", c!"7", c!"21"]
  | .ORDINAL => [c!"1", c!"2", c!"3", c!"4", c!"5", c!"6", c!"9", c!"10", c!"11"]

/-! ## Proofs -/

/-- The same numbers. -/
def probeNumbers : PluralRuleType → List Dec
  | .CARDINAL => [⟨0, []⟩, ⟨0, [1]⟩, ⟨0, [2]⟩, ⟨1, []⟩, ⟨1, [0]⟩, ⟨1, [1]⟩, ⟨2, []⟩, ⟨2, [0]⟩, ⟨7, []⟩, ⟨21, []⟩]
  | .ORDINAL => [⟨1, []⟩, ⟨2, []⟩, ⟨3, []⟩, ⟨4, []⟩, ⟨5, []⟩, ⟨6, []⟩, ⟨9, []⟩, ⟨10, []⟩, ⟨11, []⟩]

/-- A letter for a category. -/
def letter : PluralCategory → Char
  | .ZERO => 'z' | .ONE => 'o' | .TWO => 't' | .FEW => 'f' | .MANY => 'm' | .OTHER => 'x'

theorem letter_injective : ∀ c c', letter c = letter c' → c = c' := by
  intro c c'; cases c <;> cases c' <;> decide

/-- The different functions and rules, with the categories of the numbers above by the function and by the rules. -/
def kinds : PluralRuleType → List (Closure × List (Str × Str) × Str × Str)
  | .CARDINAL =>
    [(cardinalFn0, cardinalRules0, c!"xxxooxxxxx", c!"xxxooxxxxx"), (cardinalFn1, cardinalRules1, c!"oxxooxxxxx", c!"oxxooxxxxx"),
     (cardinalFn2, cardinalRules2, c!"oooooxxxxx", c!"oooooxxxxx"), (cardinalFn3, cardinalRules3, c!"zxxooxttfm", c!"zxxooxttfm"),
     (cardinalFn4, cardinalRules4, c!"xxxoxxxxxx", c!"xxxoxxxxxx"), (cardinalFn5, cardinalRules5, c!"mmmoooffmo", c!"mxxooxffmo"),
     (cardinalFn6, cardinalRules6, c!"xxxxxxxxxx", c!"xxxxxxxxxx"), (cardinalFn7, cardinalRules7, c!"xmmooottxo", c!"xxxooxttxo"),
     (cardinalFn8, cardinalRules8, c!"xofoxofxxo", c!"xofoxofxxo"), (cardinalFn9, cardinalRules9, c!"oooooooooo", c!"oooooooooo"),
     (cardinalFn10, cardinalRules10, c!"xmmommfmxx", c!"xmmommfmxx"),
     (cardinalFn11, cardinalRules11, c!"zxxooxttxx", c!"zxxooxttxx"),
     (cardinalFn12, cardinalRules12, c!"xoooooxxxx", c!"xoooooxxxx"),
     (cardinalFn13, cardinalRules13, c!"xotoxotxxx", c!"xotoxotxxx"),
     (cardinalFn14, cardinalRules14, c!"ooooooxxxx", c!"ooooooxxxx"),
     (cardinalFn15, cardinalRules15, c!"xxxooxttmx", c!"xxxooxttmx"),
     (cardinalFn16, cardinalRules16, c!"xxxooxttfx", c!"xxxooxttfx"),
     (cardinalFn17, cardinalRules17, c!"fmmommtmxo", c!"fmmommtmxo"),
     (cardinalFn18, cardinalRules18, c!"xxxoxxtxxx", c!"xxxoxxtxxx"),
     (cardinalFn19, cardinalRules19, c!"xoooooxxxo", c!"xoooooxxxo"),
     (cardinalFn20, cardinalRules20, c!"xxxooxttxx", c!"xxxooxttxx"),
     (cardinalFn21, cardinalRules21, c!"zxxooxxxxx", c!"zxxooxxxxx"),
     (cardinalFn22, cardinalRules22, c!"zxxoomttxm", c!"zxxooxttxm"),
     (cardinalFn23, cardinalRules23, c!"zoooooxxxx", c!"zoooooxxxx"),
     (cardinalFn24, cardinalRules24, c!"xmmoomfffo", c!"xmmoomfffo"),
     (cardinalFn25, cardinalRules25, c!"zozoooxxxo", c!"zoxoooxxxo"),
     (cardinalFn26, cardinalRules26, c!"xoxoxoxxxo", c!"xoxoxoxxxo"),
     (cardinalFn27, cardinalRules27, c!"fffofffffx", c!"fffofffffx"),
     (cardinalFn28, cardinalRules28, c!"fxxooxfffx", c!"fxxooxfffx"),
     (cardinalFn29, cardinalRules29, c!"mxxoxxfxmm", c!"mxxoxxfxmm"),
     (cardinalFn30, cardinalRules30, c!"ooooooxxxx", c!"ooooooxxxx"),
     (cardinalFn31, cardinalRules31, c!"mxxoxxfxmo", c!"mxxoxxfxmo"),
     (cardinalFn32, cardinalRules32, c!"oooooxfffx", c!"oooooxfffx"),
     (cardinalFn33, cardinalRules33, c!"ooxooxxxxx", c!"ooxooxxxxx"),
     (cardinalFn34, cardinalRules34, c!"xffofftfxx", c!"xffofftfxx"),
     (cardinalFn35, cardinalRules35, c!"oxxooxxxxo", c!"oxxooxxxxo")]
  | .ORDINAL =>
    [(ordinalFn0, ordinalRules0, c!"xxxxxxxxx", c!"xxxxxxxxx"), (ordinalFn1, ordinalRules1, c!"ottfomoox", c!"ottfomoox"),
     (ordinalFn2, ordinalRules2, c!"ooffomxxo", c!"ooffomxxo"), (ordinalFn3, ordinalRules3, c!"xffxxxxxx", c!"xffxxxxxx"),
     (ordinalFn4, ordinalRules4, c!"otofxxxxx", c!"otofxxxxx"), (ordinalFn5, ordinalRules5, c!"otffmmzxx", c!"otffmmzxx"),
     (ordinalFn6, ordinalRules6, c!"otfxxxxxx", c!"otfxxxxxx"), (ordinalFn7, ordinalRules7, c!"oxxxxxxxx", c!"oxxxxxxxx"),
     (ordinalFn8, ordinalRules8, c!"otfxxxxxo", c!"otfxxxxxo"), (ordinalFn9, ordinalRules9, c!"ottfxmxxx", c!"ottfxmxxx"),
     (ordinalFn10, ordinalRules10, c!"oxxxoxxxx", c!"oxxxoxxxx"), (ordinalFn11, ordinalRules11, c!"xxxxxxxxm", c!"xxxxxxxxm"),
     (ordinalFn12, ordinalRules12, c!"ommmmmmmm", c!"ommmmmmmm"), (ordinalFn13, ordinalRules13, c!"xxxxxmmmx", c!"xxxxxmmmx"),
     (ordinalFn14, ordinalRules14, c!"oooomxxxx", c!"oooomxxxx"), (ordinalFn15, ordinalRules15, c!"otxxxxxxx", c!"otxxxxxxx"),
     (ordinalFn16, ordinalRules16, c!"ottfxxxxx", c!"ottfxxxxx"), (ordinalFn17, ordinalRules17, c!"ooooxxxxx", c!"ooooxxxxx"),
     (ordinalFn18, ordinalRules18, c!"ottfomoxx", c!"ottfomoxx"), (ordinalFn19, ordinalRules19, c!"oxxmxxxxx", c!"oxxmxxxxx"),
     (ordinalFn20, ordinalRules20, c!"ooxxxxxxx", c!"ooxxxxxxx"), (ordinalFn21, ordinalRules21, c!"xxxxxfffx", c!"xxxxxfffx"),
     (ordinalFn22, ordinalRules22, c!"xxfxxxxxx", c!"xxfxxxxxx")]

/-- The answers of a function. -/
def codePrint (t : PluralRuleType) (f : Closure) : List (Option Char) :=
  (probes t).map fun s => (select (⟨⟨none, none, none, none⟩, f⟩ : PluralRules) (tryFromStr s)).bind fun r => r.toOption.map letter

/-- The categories by the rules. -/
def rulesPrint (t : PluralRuleType) (l : List (PluralCategory × Condition)) : Str := (probeNumbers t).map fun d => letter (catB l d)

def kindCheck (t : PluralRuleType) (x : Closure × List (Str × Str) × Str × Str) : Bool :=
  codePrint t x.1 == x.2.2.1.map some &&
  match GenPr.mapPanic readRule x.2.1 with
  | none => false
  | some l => l.all (fun x => noWithin x.2) && rulesPrint t l == x.2.2.2

theorem kinds_checked : ∀ t : PluralRuleType, (kinds t).all (kindCheck t) = true := by
  intro t; cases t <;> decide +kernel

/-- Every locale has one of the kinds. -/
theorem locales_checked : ∀ t : PluralRuleType, ((cldrData t).all fun p => p.1 == c!"root" || (kinds t).any fun x =>
    x.2.1 == p.2 && (table t).any fun e => LangId.parse p.1 == some e.1 && e.2 == x.1) = true := by
  intro t; cases t <;> decide +kernel

/-- French and Portuguese have different conditions with the same meaning. -/
def french (x : Closure × List (Str × Str) × Str × Str) : Bool := x.1 == cardinalFn14 || x.1 == cardinalFn30

theorem kinds_differ : ∀ t : PluralRuleType, ((kinds t).all fun x => (kinds t).all fun y =>
    (x.2.2.1 != y.2.2.1 && x.2.2.2 != y.2.2.2) || (x.1 == y.1 && x.2.1 == y.2.1) || (t == .CARDINAL && french x && french y)) = true := by
  intro t; cases t <;> decide +kernel

theorem kind_of (t : PluralRuleType) (id : LangId) (pr : PluralRules) (h : create id t = .ok pr) (key : Str) (rules : List (Str × Str))
    (hk : (key, rules) ∈ cldrData t) (hid : LangId.parse key = some id) : ∃ x ∈ kinds t, x.1 = pr.function ∧ x.2.1 = rules := by
  have hroot : key ≠ c!"root" := by
    obtain ⟨⟨key', rules'⟩, hp, hne, hid'⟩ := ((C21_locales_are_keys t).1 id).1 (((C01_create_iff_listed id t).1).1 ⟨pr, h⟩)
    rw [(key_unique t id _ _ _ _ hk hp hid hid').1]
    exact hne
  have hc := List.all_eq_true.1 (locales_checked t) _ hk
  simp only [Bool.or_eq_true, beq_iff_eq, hroot, false_or, List.any_eq_true, Bool.and_eq_true] at hc
  obtain ⟨x, hx, h1, ⟨i, f⟩, he, h2, h3⟩ := hc
  simp only at h2 h3
  rw [hid, Option.some.injEq] at h2
  subst h2 h3
  have := (C02_create_own_rule id t ⟨id, x.1⟩).2 ⟨rfl, he⟩
  rw [h] at this
  exact ⟨x, hx, by rw [Except.ok.inj this], h1⟩

theorem select_function (pr : PluralRules) {ε : Type} (ops : Except ε PluralOperands) :
    select pr ops = select (⟨⟨none, none, none, none⟩, pr.function⟩ : PluralRules) ops := rfl

theorem french_code (po : PluralOperands) : cardinalFn14.call po = cardinalFn30.call po := by
  have h : (decide (0 ≤ po.i) && decide (po.i ≤ 1)) = (po.i == 0 || po.i == 1) := by
    rw [Bool.eq_iff_iff]; simp; omega
  simp only [Closure.call, cardinalFn14, cardinalFn30, evalArms, RExpr.eval, readField, cmpInt, h]
  cases po.i == 0 <;> cases po.i == 1 <;> rfl

theorem french_same (x y : Closure × List (Str × Str) × Str × Str) (hx : french x = true) (hy : french y = true) {ε : Type}
    (i j : LangId) (ops : Except ε PluralOperands) : select (⟨i, x.1⟩ : PluralRules) ops = select (⟨j, y.1⟩ : PluralRules) ops := by
  simp only [french, Bool.or_eq_true, beq_iff_eq] at hx hy
  cases ops with
  | error e => rfl
  | ok po => rcases hx with hx | hx <;> rcases hy with hy | hy <;> simp only [select, hx, hy, french_code]

theorem french_rules : ((kinds .CARDINAL).all fun x => !french x || (x.2.1 == cardinalRules14 || x.2.1 == cardinalRules30)) = true := by
  decide +kernel

theorem french_read : GenPr.mapPanic readRule cardinalRules14 =
      some [(.ONE, [[⟨⟨.I, none⟩, .EQ, [.value 0, .value 1]⟩]]), (.OTHER, [])] ∧
    GenPr.mapPanic readRule cardinalRules30 = some [(.ONE, [[⟨⟨.I, none⟩, .EQ, [.range 0 1]⟩]]), (.OTHER, [])] := by
  decide +kernel

theorem french_cat (x y : Closure × List (Str × Str) × Str × Str) (hx : x ∈ kinds .CARDINAL) (hy : y ∈ kinds .CARDINAL)
    (hfx : french x = true) (hfy : french y = true) (l l' : List (PluralCategory × Condition))
    (hl : GenPr.mapPanic readRule x.2.1 = some l) (hl' : GenPr.mapPanic readRule y.2.1 = some l') (d : Dec) : catB l d = catB l' d := by
  have hfx' := List.all_eq_true.1 french_rules _ hx
  have hfy' := List.all_eq_true.1 french_rules _ hy
  simp only [hfx, hfy, Bool.not_true, Bool.false_or, Bool.or_eq_true, beq_iff_eq] at hfx' hfy'
  have h : (decide (0 ≤ d.i) && decide (d.i ≤ 1)) = (d.i == 0 || d.i == 1) := by
    rw [Bool.eq_iff_iff]; simp; omega
  have key : catB [(.ONE, [[⟨⟨.I, none⟩, .EQ, [.value 0, .value 1]⟩]]), (.OTHER, [])] d =
      catB [(.ONE, [[⟨⟨.I, none⟩, .EQ, [.range 0 1]⟩]]), (.OTHER, [])] d := by
    have hc : holdsB d [[⟨⟨.I, none⟩, .EQ, [.value 0, .value 1]⟩]] = holdsB d [[⟨⟨.I, none⟩, .EQ, [.range 0 1]⟩]] := by
      simp only [holdsB, relB, positiveRel, itemNat, intExpr, intOperand, List.any_cons, List.any_nil, List.all_cons, List.all_nil, Bool.or_false, h]
    simp only [catB, List.find?_cons, hc]
    cases holdsB d [[⟨⟨.I, none⟩, .EQ, [.range 0 1]⟩]] <;> rfl
  rcases hfx' with hx' | hx' <;> rcases hfy' with hy' | hy' <;> rw [hx'] at hl <;> rw [hy'] at hl' <;>
    simp only [french_read, Option.some.injEq] at hl hl' <;> rw [← hl, ← hl'] <;> first | rfl | exact key | exact key.symm

theorem category_iff (t : PluralRuleType) (id : LangId) (hid : id ∈ getLocales t) (key : Str) (rules : List (Str × Str))
    (hk : (key, rules) ∈ cldrData t) (hp : LangId.parse key = some id) (l : List (PluralCategory × Condition))
    (hl : GenPr.mapPanic readRule rules = some l) (hw : l.all (fun x => noWithin x.2) = true) (d : Dec) (c : PluralCategory) :
    Category rules d c ↔ c = catB l d := by
  refine ⟨fun hc => ?_, fun hc => hc ▸ catB_category hl hw d⟩
  obtain ⟨c', -, hu⟩ := C25_unique t id hid d
  rw [hu c ⟨key, rules, hk, hp, hc⟩, hu (catB l d) ⟨key, rules, hk, hp, catB_category hl hw d⟩]

/-- C109: two locales with the same answers for these numbers have the same answers for all inputs. -/
theorem C109_probes (t : PluralRuleType) (id id' : LangId) (pr pr' : PluralRules) (h : create id t = .ok pr) (h' : create id' t = .ok pr')
    (hs : ∀ s ∈ probes t, select pr (tryFromStr s) = select pr' (tryFromStr s)) {ε : Type} (ops : Except ε PluralOperands) :
    select pr ops = select pr' ops := by
  obtain ⟨⟨key, rules⟩, hk, -, hid⟩ := ((C21_locales_are_keys t).1 id).1 (((C01_create_iff_listed id t).1).1 ⟨pr, h⟩)
  obtain ⟨⟨key', rules'⟩, hk', -, hid'⟩ := ((C21_locales_are_keys t).1 id').1 (((C01_create_iff_listed id' t).1).1 ⟨pr', h'⟩)
  obtain ⟨x, hx, h1, -⟩ := kind_of t id pr h key rules hk hid
  obtain ⟨y, hy, h2, -⟩ := kind_of t id' pr' h' key' rules' hk' hid'
  have hxc := List.all_eq_true.1 (kinds_checked t) _ hx
  have hyc := List.all_eq_true.1 (kinds_checked t) _ hy
  simp only [kindCheck, Bool.and_eq_true, beq_iff_eq] at hxc hyc
  have he : codePrint t x.1 = codePrint t y.1 := by
    refine List.map_congr_left fun s hm => ?_
    rw [h1, h2, ← select_function pr, ← select_function pr', hs s hm]
  rw [hxc.1, hyc.1] at he
  have he : x.2.2.1 = y.2.2.1 := List.map_injective_iff.2 (Option.some_injective _) he
  have hd := List.all_eq_true.1 (List.all_eq_true.1 (kinds_differ t) _ hx) _ hy
  simp only [Bool.or_eq_true, Bool.and_eq_true, bne_iff_ne, beq_iff_eq, he, ne_eq, not_true_eq_false, false_and, false_or] at hd
  rw [select_function pr, select_function pr', ← h1, ← h2]
  rcases hd with hd | hd
  · rw [hd.1]
  · exact french_same x y hd.1.2 hd.2 _ _ ops

/-- C109: two locales have the same answers for all inputs exactly if every number has the same CLDR category in both. -/
theorem C109_same (t : PluralRuleType) (id id' : LangId) (pr pr' : PluralRules) (h : create id t = .ok pr) (h' : create id' t = .ok pr')
    (key key' : Str) (rules rules' : List (Str × Str)) (hk : (key, rules) ∈ cldrData t) (hk' : (key', rules') ∈ cldrData t)
    (hid : LangId.parse key = some id) (hid' : LangId.parse key' = some id') :
    (∀ ops : Except OpsErr PluralOperands, select pr ops = select pr' ops) ↔ ∀ d c, Category rules d c ↔ Category rules' d c := by
  have hg := ((C01_create_iff_listed id t).1).1 ⟨pr, h⟩
  have hg' := ((C01_create_iff_listed id' t).1).1 ⟨pr', h'⟩
  obtain ⟨x, hx, h1, h3⟩ := kind_of t id pr h key rules hk hid
  obtain ⟨y, hy, h2, h4⟩ := kind_of t id' pr' h' key' rules' hk' hid'
  have hxc := List.all_eq_true.1 (kinds_checked t) _ hx
  have hyc := List.all_eq_true.1 (kinds_checked t) _ hy
  simp only [kindCheck, Bool.and_eq_true, beq_iff_eq] at hxc hyc
  cases hl : GenPr.mapPanic readRule x.2.1 with
  | none => simp [hl] at hxc
  | some l =>
  cases hl' : GenPr.mapPanic readRule y.2.1 with
  | none => simp [hl'] at hyc
  | some l' =>
  simp only [hl, Bool.and_eq_true, beq_iff_eq] at hxc
  simp only [hl', Bool.and_eq_true, beq_iff_eq] at hyc
  have hd := List.all_eq_true.1 (List.all_eq_true.1 (kinds_differ t) _ hx) _ hy
  simp only [Bool.or_eq_true, Bool.and_eq_true, bne_iff_ne, beq_iff_eq] at hd
  have hi := fun d c => category_iff t id hg key rules hk hid l (h3 ▸ hl) hxc.2.1 d c
  have hi' := fun d c => category_iff t id' hg' key' rules' hk' hid' l' (h4 ▸ hl') hyc.2.1 d c
  rcases hd with (hd | hd) | hd
  · refine iff_of_false (fun ha => hd.1 ?_) fun ha => hd.2 ?_
    · refine List.map_injective_iff.2 (Option.some_injective _) ?_
      rw [← hxc.1, ← hyc.1]
      refine List.map_congr_left fun s _ => ?_
      rw [h1, h2, ← select_function pr, ← select_function pr', ha]
    · rw [← hxc.2.2, ← hyc.2.2]
      refine List.map_congr_left fun d _ => ?_
      rw [(hi' d _).1 ((ha d _).1 ((hi d _).2 rfl))]
  · refine iff_of_true (fun ops => ?_) fun d c => ?_
    · rw [select_function pr, select_function pr', ← h1, ← h2, hd.1]
    · rw [← h3, ← h4, hd.2]
  · refine iff_of_true (fun ops => ?_) fun d c => ?_
    · rw [select_function pr, select_function pr', ← h1, ← h2]
      exact french_same x y hd.1.2 hd.2 _ _ ops
    · obtain rfl := hd.1.1
      rw [hi, hi', french_cat x y hx hy hd.1.2 hd.2 l l' hl hl' d]

/-- French and Portuguese: different conditions, the same answers. -/
example : ∃ pr pr', create ⟨some c!"fr", none, none, none⟩ .CARDINAL = .ok pr ∧ create ⟨some c!"pt", none, none, none⟩ .CARDINAL = .ok pr' ∧
    pr.function ≠ pr'.function ∧ ∀ ops : Except OpsErr PluralOperands, select pr ops = select pr' ops := by
  have hf : ((create ⟨some c!"fr", none, none, none⟩ .CARDINAL).toOption.any fun pr =>
      (create ⟨some c!"pt", none, none, none⟩ .CARDINAL).toOption.any fun pr' => pr.function != pr'.function &&
        (probes .CARDINAL).all fun s => (select pr (tryFromStr s)).bind (·.toOption) == (select pr' (tryFromStr s)).bind (·.toOption) &&
          ((select pr (tryFromStr s)).bind (·.toOption)).isSome) = true := by decide +kernel
  obtain ⟨pr, h⟩ := (C01_create_iff_listed ⟨some c!"fr", none, none, none⟩ .CARDINAL).1.2 (by decide +kernel)
  obtain ⟨pr', h'⟩ := (C01_create_iff_listed ⟨some c!"pt", none, none, none⟩ .CARDINAL).1.2 (by decide +kernel)
  rw [h, h'] at hf
  simp only [Except.toOption, Option.any_some, Bool.and_eq_true, bne_iff_ne, List.all_eq_true, beq_iff_eq] at hf
  refine ⟨pr, pr', h, h', hf.1, fun ops => C109_probes .CARDINAL _ _ pr pr' h h' (fun s hs => ?_) ops⟩
  obtain ⟨h1, h2⟩ := hf.2 s hs
  revert h1 h2
  generalize select pr (tryFromStr s) = a
  generalize select pr' (tryFromStr s) = b
  rcases a with _ | _ | _ <;> rcases b with _ | _ | _ <;> simp

/-- Polish and Russian: 21 is MANY and ONE. -/
example : ∃ pr pr', create ⟨some c!"pl", none, none, none⟩ .CARDINAL = .ok pr ∧ create ⟨some c!"ru", none, none, none⟩ .CARDINAL = .ok pr' ∧
    ¬ ∀ ops : Except OpsErr PluralOperands, select pr ops = select pr' ops := by
  obtain ⟨pr, h⟩ := (C01_create_iff_listed ⟨some c!"pl", none, none, none⟩ .CARDINAL).1.2 (by decide +kernel)
  obtain ⟨pr', h'⟩ := (C01_create_iff_listed ⟨some c!"ru", none, none, none⟩ .CARDINAL).1.2 (by decide +kernel)
  refine ⟨pr, pr', h, h', fun ha => ?_⟩
  have hf : ((create ⟨some c!"pl", none, none, none⟩ .CARDINAL).toOption.any fun pr =>
      (create ⟨some c!"ru", none, none, none⟩ .CARDINAL).toOption.any fun pr' =>
        (select pr (tryFromStr c!"21")).bind (·.toOption) != (select pr' (tryFromStr c!"21")).bind (·.toOption)) = true := by decide +kernel
  rw [h, h'] at hf
  simp [Except.toOption, ha] at hf

end Verif.Props
