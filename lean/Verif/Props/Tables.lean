import Verif.Props.Select
import Verif.RulesRead

/-!
# C21: the shipped tables are what the generator makes of the shipped CLDR data
-/

namespace Verif.Props
open Verif Api Rust RulesRead

/-- C21: running the generator on the CLDR data of a type gives, entry by entry, code that reads as the entry of the
shipped table: same identifier, same function. -/
theorem C21_table_is_generated (t : PluralRuleType) :
    (Generate.genTypeRs LangId.parse (cldrData t)).map (·.map readEntry) = some ((table t).map some) := by
  cases t <;> decide +kernel

/-- C21: the locales of a table are the keys of the CLDR data but for `root`, each of which is an identifier, and no key
is given twice. -/
theorem C21_locales_are_keys (t : PluralRuleType) :
    (∀ id, id ∈ getLocales t ↔ ∃ p ∈ cldrData t, p.1 ≠ c!"root" ∧ LangId.parse p.1 = some id) ∧
    (∀ p ∈ cldrData t, p.1 ≠ c!"root" → LangId.parse p.1 ≠ none) ∧ ((cldrData t).map (·.1)).Nodup := by
  refine ⟨?_, by cases t <;> decide +kernel, by cases t <;> decide +kernel⟩
  intro id
  have h1 : ((cldrData t).filter (fun p => p.1 != c!"root")).all (fun p =>
      match LangId.parse p.1 with
      | some id => decide (id ∈ getLocales t)
      | none => false) = true := by cases t <;> decide +kernel
  constructor
  · intro h
    obtain ⟨e, he, rfl⟩ := List.mem_map.1 h
    have := List.all_eq_true.1 (declares_checked t) _ he
    unfold declaresCheck at this
    split at this
    · simp at this
    · rename_i p hp
      simp only [Bool.and_eq_true, beq_iff_eq] at this
      refine ⟨p, List.mem_of_find?_eq_some hp, ?_, this.1⟩
      intro hroot
      have h2 : (LangId.parse c!"root").isNone = true := by decide +kernel
      rw [hroot] at this
      rw [this.1] at h2; simp at h2
  · rintro ⟨p, hp, hr, hid⟩
    have := List.all_eq_true.1 h1 p (List.mem_filter.2 ⟨hp, by simpa using hr⟩)
    rw [hid] at this
    simpa using this

/-- C21: both files have the same version, the one the shipped code states, and the whole generator accepts them. -/
theorem C21_version :
    (Generate.generateTokens LangId.parse [CldrData.cardinalResource, CldrData.ordinalResource]).isSome = true ∧
    parseSigned 64 CldrData.cardinalResource.cldrVersion = some (RulesTable.cldrVersion : Int) ∧
    CldrData.cardinalResource.cldrVersion = CldrData.ordinalResource.cldrVersion ∧
    CldrData.cardinalResource.cardinal = some (cldrData .CARDINAL) ∧
    CldrData.ordinalResource.ordinal = some (cldrData .ORDINAL) := by
  refine ⟨by decide +kernel, by decide +kernel, by decide +kernel, rfl, rfl⟩

end Verif.Props
