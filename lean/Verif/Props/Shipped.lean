import Verif.Props.Files
import Verif.Props.Tables
import Verif.RulesText
import Verif.CldrText
import Verif.Fixtures

/-!
# C21, C61, C62: the shipped files, letter by letter
-/

namespace Verif.Props
open Verif Api Rust RulesRead FileRead Resource Generate GenPr GenRs

/-- The items of intl_pluralrules/src/rules.rs. -/
def shippedItems : List Item :=
  [.attr (lex c!"allow(unused_variables, unused_parens)]"),
   .attr (lex c!"cfg_attr(feature = \"cargo-clippy\", allow(clippy::float_cmp))]"),
   .attr (lex c!"cfg_attr(feature = \"cargo-clippy\", allow(clippy::unreadable_literal))]"),
   .attr (lex c!"cfg_attr(feature = \"cargo-clippy\", allow(clippy::nonminimal_bool))]"),
   .use [c!"super", c!"operands", c!"PluralOperands"], .use [c!"super", c!"PluralCategory"],
   .use [c!"unic_langid", c!"subtags"], .use [c!"unic_langid", c!"LanguageIdentifier"],
   .ruleType, .version RulesTable.cldrVersion, .langidMacro, .table c!"PRS_CARDINAL" RulesTable.cardinal, .table c!"PRS_ORDINAL" RulesTable.ordinal]

/-- The whole of rules.rs, read as Rust code. -/
theorem C61_rules_file : readFile (lex RulesText.rules) = some shippedItems := by decide +kernel

/-- C21: the tables of the model are the tables that the source text says, and there is one of each name. -/
theorem C21_table_is_text (t : PluralRuleType) (es : List (LangId × Closure)) :
    (∃ items, readFile (lex RulesText.rules) = some items ∧ Item.table (tableOf t) es ∈ items) ↔ es = table t := by
  rw [C61_rules_file]
  have h1 : tableOf .CARDINAL ≠ tableOf .ORDINAL := by decide
  have hc : tableOf .CARDINAL = c!"PRS_CARDINAL" := rfl
  have ho : tableOf .ORDINAL = c!"PRS_ORDINAL" := rfl
  constructor
  · rintro ⟨_, ⟨⟩, h⟩
    rw [← hc, ← ho] at *
    simp only [shippedItems, List.mem_cons, reduceCtorEq, Item.table.injEq, List.not_mem_nil, false_or, or_false] at h
    cases t
    · rcases h with ⟨h, -⟩ | ⟨-, h⟩
      · exact absurd h (by decide)
      · exact h
    · rcases h with ⟨-, h⟩ | ⟨h, -⟩
      · exact h
      · exact absurd h (by decide)
  · rintro rfl
    refine ⟨_, rfl, ?_⟩
    cases t <;> simp [shippedItems, tableOf, table]

/-- C61: the texts of the shipped CLDR files are JSON texts of the data in the model. -/
theorem C61_cldr_files : parseResource CldrText.cardinals = some CldrData.cardinalResource ∧
    parseResource CldrText.ordinals = some CldrData.ordinalResource := by
  constructor <;> decide +kernel

/-- C61: the generator, run on the texts of the shipped CLDR files, gives a text that reads as the same items as the text of the
shipped rules.rs, but for the order of two imports. -/
theorem C61_regenerated : ∃ out items, generateText LangId.parse [CldrText.cardinals, CldrText.ordinals] = some out ∧
    readFile (lex out) = some items ∧ items.Perm shippedItems ∧ items.drop 8 = shippedItems.drop 8 := by
  obtain ⟨hv1, hv2, hv3, hc, ho⟩ := C21_version
  have hg : ∃ out, generateRs LangId.parse [CldrData.cardinalResource, CldrData.ordinalResource] = some out := by
    cases h : generateTokens LangId.parse [CldrData.cardinalResource, CldrData.ordinalResource] with
    | none => simp [h] at hv1
    | some t => exact ⟨render t, by rw [generateRs, h]; rfl⟩
  obtain ⟨out, hout⟩ := hg
  have hc' : CldrData.cardinalResource.ordinal = none := rfl
  have ho' : CldrData.ordinalResource.cardinal = none := rfl
  obtain ⟨v, n, h1, h2, h3⟩ := C59_file _ _ _ hout
  have hn : n = RulesTable.cldrVersion := by
    have hvv := h1 CldrData.cardinalResource (by simp)
    have hlit : CldrData.cardinalResource.cldrVersion = c!"37" := by decide +kernel
    rw [hlit] at hvv
    subst hvv
    obtain ⟨l, -, ⟨h | h, -, h4⟩ | ⟨h, -⟩⟩ := h2
    · rw [h4, ← Strings.digitsVal_digitText, ← h]; decide
    · cases h
    · cases h
  have htab : ∀ t, ∃ streams, genTypeRs LangId.parse (cldrData t) = some streams ∧ readTable streams = some (table t) := by
    intro t
    have h := C21_table_is_generated t
    cases hs : genTypeRs LangId.parse (cldrData t) with
    | none => simp [hs] at h
    | some streams =>
      simp only [hs, Option.map_some, Option.some.injEq] at h
      refine ⟨streams, rfl, ?_⟩
      unfold readTable
      generalize table t = tb at h
      clear hs
      induction streams generalizing tb with
      | nil => cases tb with
        | nil => rfl
        | cons _ _ => simp at h
      | cons s streams ih =>
        cases tb with
        | nil => simp at h
        | cons e tb =>
          simp only [List.map_cons, List.cons.injEq] at h
          rw [mapPanic, h.1, ih tb h.2]
  obtain ⟨sc, c1, c2⟩ := htab .CARDINAL
  obtain ⟨so, o1, o2⟩ := htab .ORDINAL
  refine ⟨out, _, (C57_generate _ _ _).2 ⟨_, .cons ((C57_resource _ _).1 C61_cldr_files.1) (.cons ((C57_resource _ _).1 C61_cldr_files.2) .nil), hout⟩,
    (h3 _).2 ⟨_, _, .inr ⟨_, sc, _, ?_, c1, c2, rfl⟩, .inr ⟨_, so, _, ?_, o1, o2, rfl⟩, rfl⟩, ?_, ?_⟩
  · simp [dataOf, hc, ho']
  · simp [dataOf, ho, hc']
  · subst hn
    exact .cons _ (.cons _ (.cons _ (.cons _ (.cons _ (.cons _ (.swap ..))))))
  · subst hn; rfl

/-! ## C62 -/

/-- Equality of texts, letter by letter. -/
def eqStr : Str → Str → Bool
  | [], [] => true
  | a :: s, b :: t => if a = b then eqStr s t else false
  | _, _ => false

theorem eqStr_eq (s t : Str) (h : eqStr s t = true) : s = t := by
  induction s generalizing t with
  | nil => cases t with
    | nil => rfl
    | cons _ _ => simp [eqStr] at h
  | cons a s ih => cases t with
    | nil => simp [eqStr] at h
    | cons b t =>
      by_cases hab : a = b
      · simp only [eqStr, hab, if_true] at h
        rw [hab, ih t h]
      · simp [eqStr, hab] at h

/-- C62: on the texts of the input fixtures the generator gives, letter by letter, the texts of the output fixtures
(make_pluralrules/tests/fixtures). -/
theorem C62_fixtures : generateText LangId.parse [Fixtures.cardinals33, Fixtures.ordinals33] = some Fixtures.out33 ∧
    generateText LangId.parse [Fixtures.within] = some Fixtures.outWithin := by
  constructor
  · have h : (match generateText LangId.parse [Fixtures.cardinals33, Fixtures.ordinals33] with
        | some s => eqStr s Fixtures.out33
        | none => false) = true := by decide +kernel
    cases hg : generateText LangId.parse [Fixtures.cardinals33, Fixtures.ordinals33] with
    | none => simp [hg] at h
    | some s =>
      rw [hg] at h
      rw [eqStr_eq _ _ h]
  · decide +kernel

end Verif.Props
