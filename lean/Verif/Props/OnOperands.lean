import Verif.Props.AnyRules
import Verif.Props.Rounding
import Verif.Lemmas.OnOperands

/-!
# C96: the code on all operands

C64, C65 and C94 are about operands of numbers that fit, and about rules whose numbers are exact floats.  Here are all operands: with
numbers of any size, infinities, NaN, and fields that do not belong together; and all rules.
-/

namespace Verif.Props
open Verif Api Rust Uts35 Spec Verif.Parser Verif.Grammar Generate GenPr GenRs RulesRead FileRead Gen Maps Lib Sem Eval ResourceSpec Resource
open PluralOperands

/-- C96: the comparisons of floats in the model are those of the numbers that the floats are, and false on NaN. -/
theorem C96_compare (x y : Flt) : (cmpFlt .eq x y = true ↔ OnOperands.Same x y) ∧ (cmpFlt .ne x y = true ↔ ¬ OnOperands.Same x y) ∧
    (cmpFlt .le x y = true ↔ OnOperands.AtMost x y) ∧ (cmpFlt .gt x y = true ↔ OnOperands.Less y x) := by
  simp [cmpFlt, OnOperands.le_iff, OnOperands.lt_iff, ← OnOperands.eq_iff]

theorem code_on (c : Condition) (hc : AllRelations (fun r => Listed r ∧ ¬ DividesByZero r) c) (po : PluralOperands) :
    ∃ e b, Code c e ∧ e.eval po = some (.bool b) ∧ (b = true ↔ OnOperands.Holds po c) := by
  obtain ⟨e, h1, h2⟩ := code_of_condition c ⟨hc.1, fun a ha => ⟨(hc.2 a ha).1, fun r hr => ((hc.2 a ha).2 r hr).1⟩⟩
  obtain ⟨e', b, h3, h4, h5⟩ := OnOperands.condition_on po c hc.1 hc.2
  rw [h2] at h3
  cases h3
  exact ⟨e, b, h1, h4, h5⟩

/-- C96: the code of every condition, with lists as the parser makes them and no division by zero, evaluates on all operands to
whether `OnOperands.Holds`. -/
theorem C96_code (c : Condition) (hc : AllRelations (fun r => Listed r ∧ ¬ DividesByZero r) c) (po : PluralOperands) :
    ∃ e b, Code c e ∧ e.eval po = some (.bool b) ∧ (b = true ↔ OnOperands.Holds po c) := code_on c hc po

/-- Operands with a NaN, which belong to no number. -/
example : ∃ e b, Code [[⟨⟨.N, none⟩, .Within, [.range 0 3]⟩, ⟨⟨.N, some 0⟩, .EQ, [.range 2 4]⟩]] e ∧ e.eval ⟨.nan, 3, 0, 0, 0, 0⟩ = some (.bool b) ∧
    (b = true ↔ OnOperands.Holds ⟨.nan, 3, 0, 0, 0, 0⟩ [[⟨⟨.N, none⟩, .Within, [.range 0 3]⟩, ⟨⟨.N, some 0⟩, .EQ, [.range 2 4]⟩]]) :=
  C96_code _ (by simp [AllRelations, Listed, DividesByZero, IsWithin]) _

/-- C96: on the operands of a number this is what C64 says. -/
theorem C96_numbers (c : Condition) (hc : AllRelations (fun r => Listed r ∧ ¬ DividesByZero r) c) (hx : ∀ a ∈ c, ∀ r ∈ a, Actual.Exact r)
    (po : PluralOperands) (d : Dec) (ho : OperandsOf po d) (hd : Fits d) : OnOperands.Holds po c ↔ Actual.Holds d c := by
  obtain ⟨e, b, h1, h2, h3⟩ := code_on c hc po
  obtain ⟨e', b', h1', h2', h3'⟩ := code_actual c hc hx po d ho hd
  obtain ⟨ts, k1, k2⟩ := h1
  obtain ⟨ts', k1', k2'⟩ := h1'
  rw [k1] at k1'; cases k1'
  rw [k2] at k2'; cases k2'
  rw [h2] at h2'; cases h2'
  rw [← h3, ← h3']

/-- C96: in a library compiled with a generated and formatted file, whatever the rules, `create` gives a function that on all
operands gives the category of the first rule, in the order of their keys, that is true on the operands, and OTHER if there is
none. -/
theorem C96_library (texts : List Str) (rs : List Generate.Resource) (hr : List.Forall₂ ResourceText texts rs) (out : Str)
    (h : generateText LangId.parse texts = some out) (text : Str) (hf : Formatted out text) (lib : Library) (hb : build text = some lib) (t : PluralRuleType) (obj : TypeObj)
    (ho : rs.filterMap (dataOf t) = [obj]) (search : List (LangId × Closure) → LangId → Except Nat Nat) (hs : Searches search)
    (id : LangId) (pr : PluralRules) (hc : lib.create search id t = some (.ok pr)) :
    ∃ key rules id', LastOf obj key rules ∧ key ≠ c!"root" ∧ LangId.parse key = some id' ∧ id = { id' with variants := none } ∧
      ∀ po c, pr.function.call po = some c ↔ FirstWith (OnOperands.Holds po) rules c := by
  obtain ⟨obj', streams, h1, h2, h3, h4⟩ := (build_generated hr h hf lib).1 hb t
  rw [ho] at h1; cases h1
  obtain ⟨hsorted, -, hent⟩ := (type_compiles h2).2 _ h3
  have hsearch := hs (lib.table t) id hsorted
  unfold Library.create at hc
  cases hi : search (lib.table t) id with
  | error i => simp [hi] at hc
  | ok i =>
    rw [hi] at hsearch
    obtain ⟨f, hf⟩ := hsearch
    simp only [hi, hf, Option.some.injEq, Except.ok.injEq] at hc
    subst hc
    have hm := List.mem_of_getElem? hf
    obtain ⟨key, rules, id', set, k1, k2, k3, k4, k5, k6⟩ := hent _ hm
    refine ⟨key, rules, id', k1, k2, k3, k4, fun po c => ?_⟩
    obtain ⟨c', g1, g2⟩ := any_function rules set k5 f k6 (h4 _ hm) po (OnOperands.Holds po) fun _ _ cond _ hr => code_on cond hr po
    simp only
    rw [g1]
    constructor
    · intro h; cases h; exact g2
    · intro h; rw [firstWith_unique _ rules c c' h g2]

theorem select_texts (pr : PluralRules) (P : PluralOperands → PluralCategory → Prop) (h : ∀ po c, pr.function.call po = some c ↔ P po c)
    (htot : ∀ po, ∃ c, P po c) (s : Str) : (∀ c, select pr (tryFromStr s) = some (.ok c) ↔ ∃ po, TextOps s po ∧ P po c) ∧
      ((∃ e, select pr (tryFromStr s) = some (.error e)) ↔ ¬ ∃ po, TextOps s po) := by
  simp only [← C78_operands]
  cases hs : tryFromStr s with
  | error e => simp [select]
  | ok po =>
    obtain ⟨c, hc⟩ := htot po
    have hc' := (h po c).2 hc
    simp only [select, hc', Option.some.injEq, Except.ok.injEq, exists_eq_left', reduceCtorEq, exists_false, not_true_eq_false,
      exists_eq', and_true]
    intro c'
    rw [← h, hc', Option.some.injEq]

/-- C96: the same for `select` of every text: the category of the operands that C78 gives to the text, or an error if it has none. -/
theorem C96_texts (texts : List Str) (rs : List Generate.Resource) (hr : List.Forall₂ ResourceText texts rs) (out : Str)
    (h : generateText LangId.parse texts = some out) (text : Str) (hf : Formatted out text) (lib : Library) (hb : build text = some lib) (t : PluralRuleType) (obj : TypeObj)
    (ho : rs.filterMap (dataOf t) = [obj]) (search : List (LangId × Closure) → LangId → Except Nat Nat) (hs : Searches search)
    (id : LangId) (pr : PluralRules) (hc : lib.create search id t = some (.ok pr)) :
    ∃ key rules id', LastOf obj key rules ∧ key ≠ c!"root" ∧ LangId.parse key = some id' ∧ id = { id' with variants := none } ∧
      ∀ s, (∀ c, select pr (tryFromStr s) = some (.ok c) ↔ ∃ po, TextOps s po ∧ FirstWith (OnOperands.Holds po) rules c) ∧
        ((∃ e, select pr (tryFromStr s) = some (.error e)) ↔ ¬ ∃ po, TextOps s po) := by
  obtain ⟨key, rules, id', k1, k2, k3, k4, k5⟩ := C96_library texts rs hr out h text hf lib hb t obj ho search hs id pr hc
  have htot : ∀ po, pr.function.call po ≠ none := by
    have := C93_create texts rs hr out h text hf lib hb t obj ho search hs id
    rw [hc] at this
    exact this.2.1
  refine ⟨key, rules, id', k1, k2, k3, k4, select_texts pr _ k5 fun po => ?_⟩
  obtain ⟨c, hcall⟩ := Option.ne_none_iff_exists'.1 (htot po)
  exact ⟨c, (k5 po c).1 hcall⟩

/-! ## The shipped library -/

/-- The code of the rule that the CLDR rules have for the category is true on the operands. -/
def SatisfiesOn (rules : List (Str × Str)) (po : PluralOperands) (c : PluralCategory) : Prop :=
  ∃ text condition samples, (c!"pluralRule-count-" ++ cldrName c, text) ∈ rules ∧
    RuleText 64 text ⟨condition, samples⟩ ∧ OnOperands.Holds po condition

/-- The first category in the order of C65 whose code is true, or OTHER if there is none. -/
def CategoryOn (rules : List (Str × Str)) (po : PluralOperands) (c : PluralCategory) : Prop :=
  (∃ before after, selectOrder = before ++ c :: after ∧ SatisfiesOn rules po c ∧ ∀ c' ∈ before, ¬ SatisfiesOn rules po c') ∨
  (c = .OTHER ∧ ∀ c' ∈ selectOrder, ¬ SatisfiesOn rules po c')

theorem satisfiesOn_iff {rules : List (Str × Str)} {l : List (PluralCategory × Condition)}
    (h : GenPr.mapPanic readRule rules = some l) (po : PluralOperands) (c : PluralCategory) :
    SatisfiesOn rules po c ↔ ∃ cond, (c, cond) ∈ l ∧ OnOperands.Holds po cond := by
  obtain ⟨h1, h2⟩ := mapPanic_mem h
  constructor
  · rintro ⟨text, cond, samples, hm, ht, hh⟩
    obtain ⟨b, hb, hr⟩ := h1 _ hm
    rw [(readRule_iff _ c cond).2 ⟨rfl, samples, ht⟩] at hr
    cases hr
    exact ⟨cond, hb, hh⟩
  · rintro ⟨cond, hm, hh⟩
    obtain ⟨⟨k, text⟩, ha, hr⟩ := h2 _ hm
    obtain ⟨hk, samples, ht⟩ := (readRule_iff _ c cond).1 hr
    simp only at hk; subst hk
    exact ⟨text, cond, samples, ha, ht, hh⟩

theorem categoryOn_unique {rules : List (Str × Str)} {po : PluralOperands} {c c' : PluralCategory} (h : CategoryOn rules po c)
    (h' : CategoryOn rules po c') : c = c' := by
  classical
  have h1 := firstOf_map (fun c => decide (SatisfiesOn rules po c)) _ selectOrder (by simp) c h
  have h2 := firstOf_map (fun c => decide (SatisfiesOn rules po c)) _ selectOrder (by simp) c' h'
  exact h1.symm.trans h2

theorem shipped_on (t : PluralRuleType) (id : LangId) (pr : PluralRules) (h : create id t = .ok pr) :
    ∃ key rules, (key, rules) ∈ cldrData t ∧ LangId.parse key = some id ∧
      ∀ po, ∃ c, pr.function.call po = some c ∧ CategoryOn rules po c := by
  have hpr := (C02_create_own_rule id t pr).1 h
  have hmem := hpr.2
  have hd := List.all_eq_true.1 (declares_checked t) _ hmem
  have he := List.all_eq_true.1 (entries_exact t) _ hmem
  simp only [declaresCheck] at hd
  simp only [entryExact] at he
  cases hp : (cldrData t).find? fun p => p.1 == keyOf id with
  | none => simp [hp] at he
  | some p =>
    simp only [hp] at hd he
    cases hm : GenPr.mapPanic readRule p.2 with
    | none => simp [hm] at he
    | some l =>
      simp only [hm, Bool.and_eq_true, beq_iff_eq, decide_eq_true_eq, List.all_eq_true, Bool.or_eq_true] at hd he
      have hpm := List.mem_of_find?_eq_some hp
      obtain ⟨⟨⟨h1, h2⟩, h3⟩, h4⟩ := he
      refine ⟨p.1, p.2, hpm, hd.1, fun po => ?_⟩
      obtain ⟨c', hc, hcat⟩ := call_with l h3 po (OnOperands.Holds po) (fun x hx h =>
        have := exactB_spec ((h4 x hx).resolve_left h)
        OnOperands.condition_on po x.2 this.1 fun a ha => ⟨(this.2 a ha).1, fun r hr =>
          ⟨((this.2 a ha).2 r hr).2.2.1, fun hz => ((this.2 a ha).2 r hr).1 hz.1⟩⟩) selectOrder (by decide)
      refine ⟨c', by rw [Closure.call, h1, h2, hc], ?_⟩
      simp only [CategoryOn, satisfiesOn_iff hm]
      exact hcat

/-- C96: what every shipped function computes, on all operands. -/
theorem C96_shipped (t : PluralRuleType) (id : LangId) (pr : PluralRules) (h : create id t = .ok pr) :
    ∃ key rules, (key, rules) ∈ cldrData t ∧ LangId.parse key = some id ∧ ∀ po c, pr.function.call po = some c ↔ CategoryOn rules po c := by
  obtain ⟨key, rules, k1, k2, k3⟩ := shipped_on t id pr h
  refine ⟨key, rules, k1, k2, fun po c => ?_⟩
  obtain ⟨c', h1, h2⟩ := k3 po
  rw [h1, Option.some.injEq]
  exact ⟨fun h => h ▸ h2, fun h => categoryOn_unique h2 h⟩

example : ∃ pr rules, create ⟨some c!"fr", none, none, none⟩ .CARDINAL = .ok pr ∧
    ∀ c, pr.function.call ⟨.nan, 1, 0, 0, 0, 0⟩ = some c ↔ CategoryOn rules ⟨.nan, 1, 0, 0, 0, 0⟩ c := by
  obtain ⟨pr, h⟩ := (C01_create_iff_listed ⟨some c!"fr", none, none, none⟩ .CARDINAL).1.2 (by decide +kernel)
  obtain ⟨key, rules, -, -, h1⟩ := C96_shipped _ _ pr h
  exact ⟨pr, rules, h, h1 _⟩

/-- C96: what the shipped library answers to every text. -/
theorem C96_shipped_texts (t : PluralRuleType) (id : LangId) (pr : PluralRules) (h : create id t = .ok pr) :
    ∃ key rules, (key, rules) ∈ cldrData t ∧ LangId.parse key = some id ∧
      ∀ s, (∀ c, select pr (tryFromStr s) = some (.ok c) ↔ ∃ po, TextOps s po ∧ CategoryOn rules po c) ∧
        ((∃ e, select pr (tryFromStr s) = some (.error e)) ↔ ¬ ∃ po, TextOps s po) := by
  obtain ⟨key, rules, k1, k2, k3⟩ := shipped_on t id pr h
  refine ⟨key, rules, k1, k2, select_texts pr _ (fun po c => ?_) fun po => ?_⟩
  · obtain ⟨c', h1, h2⟩ := k3 po
    rw [h1, Option.some.injEq]
    exact ⟨fun h => h ▸ h2, fun h => categoryOn_unique h2 h⟩
  · obtain ⟨c, -, h⟩ := k3 po
    exact ⟨c, h⟩

/-! ## Examples -/

/-- What the shipped cardinal rules of a language answer to the text. -/
def shippedAnswer (lang number : Str) : Option PluralCategory :=
  (LangId.parse lang).bind fun id => (create id .CARDINAL).toOption.bind fun pr => (select pr (tryFromStr number)).bind fun c => c.toOption

/-- Texts that the earlier statements leave out.  In Bulgarian (`n = 1`) the number 0.99…9 is taken for 1 where the float is 1; in
English (`i = 1 and v = 0`) it is not, but `1e0` is; infinity and NaN are OTHER in Bulgarian, and NaN is ONE in French (`i = 0,1`). -/
example : shippedAnswer c!"bg" c!"0.9999999999999999" = some .OTHER ∧ shippedAnswer c!"bg" c!"0.99999999999999999" = some .ONE ∧
    shippedAnswer c!"en" c!"0.99999999999999999" = some .OTHER ∧ shippedAnswer c!"en" c!"1e0" = some .ONE ∧
    shippedAnswer c!"bg" c!"inf" = some .OTHER ∧ shippedAnswer c!"bg" c!"nan" = some .OTHER ∧ shippedAnswer c!"fr" c!"nan" = some .ONE := by
  decide +kernel

/-- Operands that belong to no number: with NaN, `n = 5` is false, `n != 5` is true, and `n = 3..6` is true by `i`. -/
example : OnOperands.Holds ⟨.fin false (2 ^ 1074), 5, 0, 0, 0, 0⟩ [[⟨⟨.I, none⟩, .EQ, [.value 5]⟩]] ∧
    ¬ OnOperands.Holds ⟨.nan, 5, 0, 0, 0, 0⟩ [[⟨⟨.N, none⟩, .EQ, [.value 5]⟩]] ∧
    OnOperands.Holds ⟨.nan, 5, 0, 0, 0, 0⟩ [[⟨⟨.N, none⟩, .NotEQ, [.value 5]⟩]] ∧
    OnOperands.Holds ⟨.nan, 5, 0, 0, 0, 0⟩ [[⟨⟨.N, none⟩, .EQ, [.range 3 6]⟩]] := by
  simp [OnOperands.Holds, OnOperands.RelationHolds, OnOperands.Accepts, OnOperands.Rejects, OnOperands.Equals, OnOperands.Plain,
    OnOperands.look, OnOperands.Same, OnOperands.number]

/-- A condition for C96: `n within 0..3 and n % 0 = 2..4`, where the modulus is lost. -/
example : AllRelations (fun r => Listed r ∧ ¬ DividesByZero r)
    [[⟨⟨.N, none⟩, .Within, [.range 0 3]⟩, ⟨⟨.N, some 0⟩, .EQ, [.range 2 4]⟩]] := by
  simp [AllRelations, Listed, DividesByZero, IsWithin]

end Verif.Props
