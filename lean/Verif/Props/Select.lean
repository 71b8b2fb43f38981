import Verif.Props.Locales
import Verif.CldrData
import Verif.Lemmas.Eval

/-!
# C05–C07: `select`
-/

namespace Verif.Props
open Verif Api Rust Eval

/-! ## Specification -/

/-- The name of a category in CLDR rule keys. -/
def cldrName : PluralCategory → Str
  | .ZERO => c!"zero"
  | .ONE => c!"one"
  | .TWO => c!"two"
  | .FEW => c!"few"
  | .MANY => c!"many"
  | .OTHER => c!"other"

/-- The CLDR data of a type, as shipped in intl_pluralrules/cldr_data. -/
def cldrData : PluralRuleType → Generate.TypeObj
  | .CARDINAL => CldrData.cardinal
  | .ORDINAL => CldrData.ordinal

/-- The CLDR data of the type has a rule for the category under a key that denotes the locale. -/
def Declares (t : PluralRuleType) (id : LangId) (c : PluralCategory) : Prop :=
  ∃ key rules text, (key, rules) ∈ cldrData t ∧ LangId.parse key = some id ∧
    (c!"pluralRule-count-" ++ cldrName c, text) ∈ rules

/-! ## Proofs -/

/-- The static conditions on a function of a table. -/
def goodFn (f : Closure) : Bool :=
  f.arms.all (fun a => a.1.ty == some .bool && noZeroRem a.1) && f.last == .OTHER

theorem fns_good : ∀ t : PluralRuleType, ∀ e ∈ table t, goodFn e.2 = true := by
  intro t; cases t <;> decide +kernel

theorem call_total (f : Closure) (hf : goodFn f = true) (po : PluralOperands) :
    ∃ c, f.call po = some c ∧ (c = .OTHER ∨ c ∈ f.arms.map (·.2)) := by
  simp only [goodFn, Bool.and_eq_true, List.all_eq_true, beq_iff_eq] at hf
  obtain ⟨c, h1, h2⟩ := evalArms_total po f.arms f.last hf.1
  exact ⟨c, h1, hf.2 ▸ h2⟩

theorem call_of_create (id : LangId) (t : PluralRuleType) (pr : PluralRules) (h : create id t = .ok pr)
    (ops : PluralOperands) : ∃ c, pr.function.call ops = some c ∧ (c = .OTHER ∨ c ∈ pr.function.arms.map (·.2)) :=
  call_total _ (fns_good t _ ((C02_create_own_rule id t pr).1 h).2) ops

/-! ## C05 -/

/-- C05: `select` on operands always gives a category; it never panics. -/
theorem C05_select_total (id : LangId) (t : PluralRuleType) (pr : PluralRules) (h : create id t = .ok pr)
    (ops : PluralOperands) : ∃ c, select (ε := OpsErr) pr (.ok ops) = some (.ok c) := by
  obtain ⟨c, hc, -⟩ := call_of_create id t pr h ops
  exact ⟨c, by simp only [select, hc]⟩

/-- C05: every function of the tables is well typed. -/
theorem C05_tables_type_check (t : PluralRuleType) : ∀ e ∈ table t, e.2.wellTyped = true := by
  cases t <;> decide +kernel

/-- Operands that no number has, and a NaN, in a locale with remainders. -/
example : ∃ pr, create { language := some c!"pl", script := none, region := none, variants := none } .CARDINAL = .ok pr ∧
    select (ε := OpsErr) pr (.ok { n := .nan, i := 3, v := 0, w := 7, f := 5, t := 1 }) = some (.ok .FEW) := by
  refine ⟨⟨_, _⟩, (C02_create_own_rule _ _ ⟨_, RulesTable.cardinalFn29⟩).2 ⟨rfl, by decide +kernel⟩, rfl⟩

/-- The condition on remainders is needed: an expression with remainder by zero panics. -/
example : (RExpr.rem (.field .I) (.int 0)).eval { n := .nan, i := 3, v := 0, w := 7, f := 5, t := 1 } = none := rfl

/-! ## C06 -/

/-- C06: `select` fails exactly when the conversion to operands has failed, always with the same text. -/
theorem C06_select_error_iff (id : LangId) (t : PluralRuleType) (pr : PluralRules) (h : create id t = .ok pr)
    {ε : Type} (ops : Except ε PluralOperands) :
    (select pr ops = some (.error c!"Argument can not be parsed to operands.") ↔ ∃ e, ops = .error e) ∧
    ((∃ c, select pr ops = some (.ok c)) ↔ ∃ o, ops = .ok o) := by
  cases ops with
  | error e => simp [select]
  | ok o =>
    obtain ⟨c, hc, -⟩ := call_of_create id t pr h o
    simp [select, hc]

/-- Both cases occur for strings. -/
example : (PluralOperands.tryFromStr c!"x" = .error .incorrectNumber) ∧
    ∃ o, PluralOperands.tryFromStr c!"1.5" = .ok o := ⟨rfl, _, rfl⟩

/-! ## C07 -/

/-- The text of an identifier of the tables: language, or language and region. -/
def keyOf (id : LangId) : Str :=
  match id.language, id.region with
  | some l, none => l
  | some l, some r => l ++ '-' :: r
  | none, _ => []

def declaresCheck (data : Generate.TypeObj) (e : LangId × Closure) : Bool :=
  match data.find? fun p => p.1 == keyOf e.1 with
  | none => false
  | some p => LangId.parse p.1 == some e.1 &&
      e.2.arms.all fun a => (p.2.map (·.1)).contains (c!"pluralRule-count-" ++ cldrName a.2)

theorem declares_checked : ∀ t : PluralRuleType, ((table t).all (declaresCheck (cldrData t))) = true := by
  intro t; cases t <;> decide +kernel

/-- C07: `select` answers OTHER or a category that CLDR has a rule for in that locale. -/
theorem C07_select_declared (id : LangId) (t : PluralRuleType) (pr : PluralRules) (h : create id t = .ok pr)
    {ε : Type} (ops : Except ε PluralOperands) (c : PluralCategory) (hc : select pr ops = some (.ok c)) :
    c = .OTHER ∨ Declares t id c := by
  cases ops with
  | error e => simp [select] at hc
  | ok o =>
    obtain ⟨c', hc', hm⟩ := call_of_create id t pr h o
    simp only [select, hc', Option.some.injEq, Except.ok.injEq] at hc
    subst hc
    refine hm.imp_right fun hm => ?_
    obtain ⟨a, ha, rfl⟩ := List.mem_map.1 hm
    have hmem := ((C02_create_own_rule id t pr).1 h).2
    have := List.all_eq_true.1 (declares_checked t) _ hmem
    unfold declaresCheck at this
    split at this
    · simp at this
    · rename_i p hp
      simp only [Bool.and_eq_true, beq_iff_eq, List.all_eq_true, List.contains_iff_mem, List.mem_map] at this
      obtain ⟨⟨k, text⟩, h1, h2⟩ := this.2 a ha
      simp only at h2; subst h2
      exact ⟨p.1, p.2, text, List.mem_of_find?_eq_some hp, this.1, h1⟩

/-- Not everything is declared: English has no FEW cardinal, so `select` never answers it; but it does have ONE. -/
example : Declares .CARDINAL { language := some c!"en", script := none, region := none, variants := none } .ONE :=
  ⟨c!"en", CldrData.cardinalRules4, _, by decide +kernel, by decide +kernel, List.mem_cons_self ..⟩

end Verif.Props
