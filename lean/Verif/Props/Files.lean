import Verif.Props.Generator
import Verif.Lemmas.FileRead
import Verif.Lemmas.Resource

/-!
# C56–C60: from the text of the input files to the text of the output file
-/

namespace Verif.Props
open Verif Api Rust Uts35 Spec Parser Grammar Json Generate GenPr GenRs RulesRead FileRead Gen JsonSpec ResourceSpec Resource

/-! ## C56 -/

/-- C56: the reader accepts exactly the JSON texts of RFC 8259, with the value that the grammar gives. -/
theorem C56_json (s : Str) (j : Json) : Json.parse s = some j ↔ IsText s j := Lemmas.parse_iff s j

/-- C56: a text has at most one value. -/
theorem C56_unique (s : Str) (j j' : Json) (h : IsText s j) (h' : IsText s j') : j = j' := by
  rw [← C56_json] at h h'
  rw [h] at h'; exact Option.some.inj h'

/-- A text with white space and an escape, and its value. -/
example : IsText c!" [ \"\\u0041\" ,1]" (.arr [.str (some c!"A"), .num c!"1"]) := (Lemmas.parse_iff _ _).1 (by with_unfolding_all rfl)

/-- C56: what is no JSON text is an error. -/
theorem C56_error (s : Str) : Json.parse s = none ↔ ∀ j, ¬ IsText s j := by
  simp only [← C56_json]
  cases Json.parse s <;> simp

/-- White space, escapes, a pair of surrogates, a number with all parts, nesting; a key twice is kept twice; then texts that
are none: a comma too many, a leading zero, a line feed in a string, no value, text after the value, single quotes. -/
example : Json.parse c!" {\"a\" : [ 1, -0.5e+3,null ,true,[ ]], \"a\":\"x\\n\\u0041\\uD83D\\uDE00\" }\n" =
    some (.obj [(some c!"a", .arr [.num c!"1", .num c!"-0.5e+3", .null, .bool true, .arr []]), (some c!"a", .str (some c!"x\nA😀"))]) := by
  with_unfolding_all rfl
example : ∀ s ∈ [c!"[1,]", c!"{\"a\":1,}", c!"01", c!"\"\n\"", c!"", c!"1 2", c!"'a'", c!"[1", c!"nul", c!"1.", c!"\"\\x\"", c!"+1"],
    Json.parse s = none := by decide +kernel
/-- A surrogate alone is a JSON text, but stands for no text. -/
example : Json.parse c!"[\"\\uD800\"]" = some (.arr [.str none]) := by with_unfolding_all rfl

/-! ## C57 -/

/-- C57: `parse_plurals_resource_from_string` accepts exactly the JSON texts of a resource, with the data that they give. -/
theorem C57_resource (s : Str) (r : Generate.Resource) : parseResource s = some r ↔ ResourceText s r := Lemmas.parseResource_iff s r

/-- C57: a text says at most one resource. -/
theorem C57_unique (s : Str) (r r' : Generate.Resource) (h : ResourceText s r) (h' : ResourceText s r') : r = r' := by
  rw [← C57_resource] at h h'
  rw [h] at h'; exact Option.some.inj h'

/-- A text with other members, a missing and a `null` optional field, and a rule that is given twice. -/
def exampleText : Str := c!"{\"x\": 1, \"supplemental\": {\"plurals-type-cardinal\": {\"en\": {\"pluralRule-count-one\": \"i = 1\", \"pluralRule-count-one\": \"i = 2\"}},
  \"version\": {\"_cldrVersion\": \"37\", \"_unicodeVersion\": \"13.0.0\"}, \"plurals-type-ordinal\": null}}"

example : parseResource exampleText =
    some ⟨c!"37", some [(c!"en", [(c!"pluralRule-count-one", c!"i = 1"), (c!"pluralRule-count-one", c!"i = 2")])], none⟩ := by decide +kernel

/-- Arrays in place of objects; and errors: no Unicode version, a field twice, a rule that is no string, a number for the version,
an unreadable key, and the part of a file without the outer object. -/
example :
    parseResource c!"[[[null, \"13\", \"37\"], {}, {}]]" = some ⟨c!"37", some [], some []⟩ ∧
    parseResource c!"[[[\"13\", \"37\"], {}, {}]]" = none ∧
    parseResource c!"{\"supplemental\": {\"version\": {\"_cldrVersion\": \"37\"}}}" = none ∧
    parseResource c!"{\"supplemental\": {\"version\": [null, \"13\", \"37\"], \"version\": [null, \"13\", \"37\"]}}" = none ∧
    parseResource c!"{\"supplemental\": {\"version\": [null, \"13\", \"37\"], \"plurals-type-cardinal\": {\"en\": {\"a\": 1}}}}" = none ∧
    parseResource c!"{\"supplemental\": {\"version\": [null, \"13\", 37]}}" = none ∧
    parseResource c!"{\"\\uD800\": 1, \"supplemental\": {\"version\": [null, \"13\", \"37\"]}}" = none ∧
    parseResource c!"{\"version\": [null, \"13\", \"37\"]}" = none ∧
    (parseResource c!"{\"supplemental\": {\"version\": [null, \"13\", \"37\"]}}").isSome = true := by decide +kernel

/-- What `generate_rs` does with texts: all have to be resources, and the rest is `generateRs`. -/
theorem C57_generate (parseId : Str → Option LangId) (texts : List Str) (out : Str) : generateText parseId texts = some out ↔
    ∃ rs, List.Forall₂ ResourceText texts rs ∧ generateRs parseId rs = some out := by
  unfold generateText
  constructor
  · intro h
    cases hm : mapPanic parseResource texts with
    | none => simp [hm] at h
    | some rs =>
      rw [hm] at h
      exact ⟨rs, (Lemmas.mapPanic_forall₂ C57_resource _ _).1 hm, h⟩
  · rintro ⟨rs, h1, h2⟩
    rw [(Lemmas.mapPanic_forall₂ C57_resource _ _).2 h1]
    exact h2

example : ∃ out rs, generateText LangId.parse [exampleText] = some out ∧ List.Forall₂ ResourceText [exampleText] rs ∧
    generateRs LangId.parse rs = some out := by
  obtain ⟨out, h⟩ := Option.isSome_iff_exists.1 (show (generateText LangId.parse [exampleText]).isSome = true by decide +kernel)
  obtain ⟨rs, h1, h2⟩ := (C57_generate LangId.parse [exampleText] out).1 h
  exact ⟨out, rs, h, h1, h2⟩

/-! ## C58 -/

/-- C58: the text of the output, read by the Rust lexer, is the generated tokens: nothing runs together, nothing is torn apart. -/
theorem C58_lexes_back (parseId : Str → Option LangId) (rs : List Generate.Resource) (toks : List Tok)
    (h : generateTokens parseId rs = some toks) : generateRs parseId rs = some (render toks) ∧ lex (render toks) = toks :=
  ⟨by rw [generateRs, h]; rfl, Lemmas.lex_render toks fun t ht => List.all_eq_true.1 (Lemmas.generateTokens_clean parseId rs toks h) t ht⟩

example : ∃ toks, generateTokens LangId.parse exampleFiles = some toks ∧ generateRs LangId.parse exampleFiles = some (render toks) ∧
    lex (render toks) = toks := by
  obtain ⟨toks, h⟩ := Option.isSome_iff_exists.1 (show (generateTokens LangId.parse exampleFiles).isSome = true by decide +kernel)
  exact ⟨toks, h, C58_lexes_back LangId.parse exampleFiles toks h⟩

/-- C58: different tokens give different texts. -/
theorem C58_injective (parseId : Str → Option LangId) (rs rs' : List Generate.Resource) (toks toks' : List Tok)
    (h : generateTokens parseId rs = some toks) (h' : generateTokens parseId rs' = some toks') (he : render toks = render toks') :
    toks = toks' := by
  rw [← (C58_lexes_back parseId rs toks h).2, he, (C58_lexes_back parseId rs' toks' h').2]

/-- A literal, a suffix, a name and brackets; and tokens for which it would not hold, which are never generated. -/
example : lex (render [.id c!"po", .sym c!".", .id c!"n", .sym c!"==", .lit 1 [], .sym c!".", .lit 0 [], .lit 5 c!"u64", .sym c!"(", .sym c!")"]) =
    [.id c!"po", .sym c!".", .id c!"n", .sym c!"==", .lit 1 [], .sym c!".", .lit 0 [], .lit 5 c!"u64", .sym c!"(", .sym c!")"] := by decide +kernel
example : lex (render [.id c!"a b"]) = [.id c!"a", .id c!"b"] := by decide +kernel

/-! ## C59 -/

/-- The number that a version text becomes: a negative number is taken modulo 2⁶⁴. -/
def VersionNumber (s : Str) (n : Nat) : Prop := ∃ l, l ≠ [] ∧
  ((s = digitText l ∨ s = '+' :: digitText l) ∧ digitsNum l < 2 ^ 63 ∧ n = digitsNum l ∨
    s = '-' :: digitText l ∧ digitsNum l ≤ 2 ^ 63 ∧ n = (2 ^ 64 - digitsNum l) % 2 ^ 64)

theorem version_number {s : Str} {z : Int} (h : parseSigned 64 s = some z) : VersionNumber s (isizeAsU64 z) := by
  have hb : ∀ (neg : Bool) (body : Str), (if body.isEmpty then none else if !body.all isDigit then none else
      if neg then if digitsVal body ≤ 2 ^ 63 then some (-(digitsVal body : Int)) else none
      else if digitsVal body < 2 ^ 63 then some (digitsVal body : Int) else none) = some z →
      ∃ l, l ≠ [] ∧ body = digitText l ∧ if neg then digitsNum l ≤ 2 ^ 63 ∧ z = -(digitsNum l : Int) else digitsNum l < 2 ^ 63 ∧ z = digitsNum l := by
    intro neg body h
    by_cases h1 : body.isEmpty = true
    · simp [h1] at h
    by_cases h2 : body.all isDigit = true
    · obtain ⟨l, rfl⟩ := Strings.all_digits _ h2
      simp only [if_neg h1, h2, Bool.not_true, Bool.false_eq_true, if_false, Strings.digitsVal_digitText] at h
      refine ⟨l, by rintro rfl; simp [digitText] at h1, rfl, ?_⟩
      cases neg
      · simp at h ⊢
        exact ⟨h.1, h.2.symm⟩
      · simp at h ⊢
        exact ⟨h.1, h.2.symm⟩
    · simp [h1, h2] at h
  have hpos : ∀ m : Nat, m < 2 ^ 63 → isizeAsU64 (m : Int) = m := by
    intro m hm; unfold isizeAsU64; omega
  have hneg : ∀ m : Nat, m ≤ 2 ^ 63 → isizeAsU64 (-(m : Int)) = (2 ^ 64 - m) % 2 ^ 64 := by
    intro m hm; unfold isizeAsU64; omega
  obtain ⟨l, h1, h2, h3⟩ := hb _ _ h
  refine ⟨l, h1, ?_⟩
  cases s with
  | nil => exact absurd (Strings.digitText_eq_nil.1 h2.symm) h1
  | cons c t =>
    unfold splitSign at h2 h3
    by_cases hp : c = '+'
    · subst hp
      simp only [if_true, Bool.false_eq_true, if_false] at h2 h3
      exact .inl ⟨.inr (by rw [h2]), h3.1, by rw [h3.2, hpos _ h3.1]⟩
    · by_cases hm : c = '-'
      · subst hm
        simp only [reduceCtorEq, Char.reduceEq, if_true, if_false] at h2 h3
        exact .inr ⟨by rw [h2], h3.1, by rw [h3.2, hneg _ h3.1]⟩
      · simp only [hp, hm, Bool.false_eq_true, if_false] at h2 h3
        exact .inl ⟨.inl h2, h3.1, by rw [h3.2, hpos _ h3.1]⟩

/-- The data of a plural type in a file. -/
def dataOf : PluralRuleType → Generate.Resource → Option TypeObj
  | .CARDINAL, r => r.cardinal
  | .ORDINAL, r => r.ordinal

/-- The name of the table, as intl_pluralrules/src/lib.rs:113-116 uses it. -/
def tableOf : PluralRuleType → Str
  | .CARDINAL => c!"PRS_CARDINAL"
  | .ORDINAL => c!"PRS_ORDINAL"

/-- What the data of a plural type becomes: no table if no file has such data, else the table of the generated entries. -/
def TypeItems (parseId : Str → Option LangId) (t : PluralRuleType) (rs : List Generate.Resource) (items : List Item) : Prop :=
  (rs.filterMap (dataOf t) = [] ∧ items = []) ∨ ∃ obj streams table, rs.filterMap (dataOf t) = [obj] ∧
    genTypeRs parseId obj = some streams ∧ readTable streams = some table ∧ items = [.table (tableOf t) table]

/-- The items before the tables: lints, imports, the type of a rule, the version, and the macro for identifiers. -/
def preamble (n : Nat) : List Item :=
  [.attr (lex c!"allow(unused_variables, unused_parens)]"),
   .attr (lex c!"cfg_attr(feature = \"cargo-clippy\", allow(clippy::float_cmp))]"),
   .attr (lex c!"cfg_attr(feature = \"cargo-clippy\", allow(clippy::unreadable_literal))]"),
   .attr (lex c!"cfg_attr(feature = \"cargo-clippy\", allow(clippy::nonminimal_bool))]"),
   .use [c!"super", c!"operands", c!"PluralOperands"], .use [c!"super", c!"PluralCategory"],
   .use [c!"unic_langid", c!"LanguageIdentifier"], .use [c!"unic_langid", c!"subtags"],
   .ruleType, .version n, .langidMacro]

theorem preamble_eq (n : Nat) : Lemmas.headItems n = preamble n := by
  have h : (Lemmas.headItems 0).take 9 = (preamble 0).take 9 := by decide +kernel
  have h1 : ∀ n, Lemmas.headItems n = (Lemmas.headItems 0).take 9 ++ [.version n, .langidMacro] := fun n => rfl
  have h2 : ∀ n, preamble n = (preamble 0).take 9 ++ [.version n, .langidMacro] := fun n => rfl
  rw [h1, h2, h]

theorem streams_readable (parseId : Str → Option LangId) (t : PluralRuleType) (ty : RuleType) (hty : tableName ty = tableOf t)
    (rs : List Generate.Resource) (st : Option (List (List Tok))) (hf : Lemmas.From parseId (rs.filterMap (dataOf t)) none st)
    (items : List Item) : Lemmas.readTables (st.toList.map fun l => (ty, l)) = some items ↔ TypeItems parseId t rs items := by
  rcases hf with ⟨h1, rfl⟩ | ⟨obj, l, h1, -, h2, rfl⟩
  · unfold TypeItems Lemmas.readTables
    simp [h1, mapPanic, eq_comm]
  · have e : Lemmas.readTables [(ty, l)] = (readTable l).map fun es => [.table (tableOf t) es] := by
      simp only [Lemmas.readTables, mapPanic, readTable, hty]
      cases mapPanic readEntry l <;> rfl
    simp only [Option.toList_some, List.map_cons, List.map_nil]
    rw [e]
    unfold TypeItems
    simp only [h1, List.cons_ne_nil, false_and, false_or, List.cons.injEq, and_true]
    constructor
    · intro h
      cases ht : readTable l with
      | none => simp [ht] at h
      | some table =>
        simp only [ht, Option.map_some, Option.some.injEq] at h
        exact ⟨obj, l, table, rfl, h2, ht, h.symm⟩
    · rintro ⟨_, l', table, rfl, h3, h4, rfl⟩
      rw [h2] at h3; cases h3
      rw [h4]; rfl

/-- C59: the output, read as a Rust file, is the preamble with the version of the input files, then the table of cardinals if
there is data for it, then the table of ordinals; and each has the generated entries. -/
theorem C59_file (parseId : Str → Option LangId) (rs : List Generate.Resource) (text : Str) (h : generateRs parseId rs = some text) :
    ∃ v n, (∀ r ∈ rs, r.cldrVersion = v) ∧ VersionNumber v n ∧ ∀ items, readFile (lex text) = some items ↔
      ∃ c o, TypeItems parseId .CARDINAL rs c ∧ TypeItems parseId .ORDINAL rs o ∧ items = preamble n ++ c ++ o := by
  cases hg : generateTokens parseId rs with
  | none => simp [generateRs, hg] at h
  | some toks =>
    obtain ⟨h1, h2⟩ := C58_lexes_back parseId rs toks hg
    rw [h] at h1; cases h1
    obtain ⟨s, v, num, hl, hv, hn, hs, -, rfl⟩ := Lemmas.generateTokens_parts parseId rs toks hg
    obtain ⟨f1, f2, f3⟩ := Lemmas.genLoop_from parseId rs _ s hl
    refine ⟨v, isizeAsU64 num, fun r hr => ?_, version_number hn, fun items => ?_⟩
    · have := f3 r hr
      rw [hv] at this; cases this; rfl
    rw [h2]
    have hread := Lemmas.readFile_tables (isizeAsU64 num)
      ((s.cardinal.toList.map fun l => (RuleType.cardinal, l)) ++ (s.ordinal.toList.map fun l => (RuleType.ordinal, l)))
      (by
        intro p hp
        rcases List.mem_append.1 hp with hp | hp
        · obtain ⟨l, hl, rfl⟩ := List.mem_map.1 hp
          exact hs.1 l (Option.mem_toList.1 hl)
        · obtain ⟨l, hl, rfl⟩ := List.mem_map.1 hp
          exact hs.2 l (Option.mem_toList.1 hl))
      (by cases s.cardinal <;> cases s.ordinal <;> simp)
    rw [List.map_append, List.map_map, List.map_map] at hread
    rw [show (List.map (fun l => createPrType .cardinal l) s.cardinal.toList ++ List.map (fun l => createPrType .ordinal l) s.ordinal.toList) =
      (List.map ((fun p : RuleType × List (List Tok) => createPrType p.1 p.2) ∘ fun l => (RuleType.cardinal, l)) s.cardinal.toList ++
       List.map ((fun p : RuleType × List (List Tok) => createPrType p.1 p.2) ∘ fun l => (RuleType.ordinal, l)) s.ordinal.toList) from rfl, hread]
    have happ : ∀ a b, Lemmas.readTables (a ++ b) = (Lemmas.readTables a).bind fun x => (Lemmas.readTables b).map fun y => x ++ y := by
      intro a b
      induction a with
      | nil =>
        simp only [List.nil_append]
        show Lemmas.readTables b = (Lemmas.readTables b).map fun y => [] ++ y
        cases Lemmas.readTables b <;> rfl
      | cons p a ih =>
        unfold Lemmas.readTables at ih ⊢
        rw [List.cons_append]
        simp only [mapPanic, ih]
        cases mapPanic readEntry p.2 with
        | none => rfl
        | some e =>
          simp only [Option.map_some]
          cases mapPanic (fun p : RuleType × List (List Tok) => (mapPanic readEntry p.2).map (Item.table (tableName p.1))) a with
          | none => rfl
          | some x =>
            simp only [Option.bind_some]
            cases mapPanic (fun p : RuleType × List (List Tok) => (mapPanic readEntry p.2).map (Item.table (tableName p.1))) b <;> rfl
    rw [happ, preamble_eq]
    have hc := streams_readable parseId .CARDINAL .cardinal rfl rs s.cardinal f1
    have ho := streams_readable parseId .ORDINAL .ordinal rfl rs s.ordinal f2
    constructor
    · intro h
      cases h1 : Lemmas.readTables (s.cardinal.toList.map fun l => (RuleType.cardinal, l)) with
      | none => simp [h1] at h
      | some c =>
        cases h2 : Lemmas.readTables (s.ordinal.toList.map fun l => (RuleType.ordinal, l)) with
        | none => simp [h1, h2] at h
        | some o =>
          simp only [h1, h2, Option.bind_some, Option.map_some, Option.some.injEq] at h
          exact ⟨c, o, (hc c).1 h1, (ho o).1 h2, by rw [← h, List.append_assoc]⟩
    · rintro ⟨c, o, h1, h2, rfl⟩
      rw [(hc c).2 h1, (ho o).2 h2]
      simp

/-- Files with both types, in the other order. -/
example : ((generateRs LangId.parse exampleFiles.reverse).bind fun s => readFile (lex s)).map (fun l => (l.take 11, l.drop 11 |>.map fun
      | .table n es => (n, es.map (·.1))
      | _ => ([], []))) =
    some (preamble 37, [(c!"PRS_CARDINAL", [c!"en", c!"pl"].filterMap LangId.parse), (c!"PRS_ORDINAL", [c!"en"].filterMap LangId.parse)]) := by
  decide +kernel

/-- An entry that is no Rust code makes the whole file unreadable: here the identifier without a language. -/
example : ((generateRs LangId.parse [⟨c!"37", some [(c!"und", [])], none⟩]).map fun s => readFile (lex s)) = some none := by decide +kernel

/-- A negative version. -/
example : ((generateRs LangId.parse [⟨c!"-1", some [], none⟩]).bind fun s => readFile (lex s)) =
    some (preamble (2 ^ 64 - 1) ++ [.table c!"PRS_CARDINAL" []]) := by decide +kernel

/-! ## C60 -/

theorem pipeline {Q : Relation → Prop} {K : PluralOperands → Dec → Prop} (hQ : RightFor Q K) (texts : List Str)
    (rs : List Generate.Resource) (hr : List.Forall₂ ResourceText texts rs) (v : Str) (hvt : VersionText v)
    (hver : ∀ r ∈ rs, r.cldrVersion = v) (hone : ∀ t, (rs.filterMap (dataOf t)).length ≤ 1) (hex : ∃ t, rs.filterMap (dataOf t) ≠ [])
    (hobj : ∀ t, ∀ obj ∈ rs.filterMap (dataOf t), PlainIds obj ∧ DistinctIds LangId.parse obj ∧
      ∀ key rules, LastOf obj key rules → key ≠ c!"root" → Supported Q rules) :
    ∃ out items n, generateText LangId.parse texts = some out ∧ readFile (lex out) = some items ∧ VersionNumber v n ∧
      (∀ m, Item.version m ∈ items ↔ m = n) ∧
      ∀ t, ∀ obj ∈ rs.filterMap (dataOf t), ∃ table, (∀ es, Item.table (tableOf t) es ∈ items ↔ es = table) ∧
        ∀ key rules id, LastOf obj key rules → key ≠ c!"root" → LangId.parse key = some id →
          ∃ i f, binarySearchByKey table id = .ok i ∧ table[i]? = some (id, f) ∧
            ∀ po d, K po d → ∀ c, f.call po = some c ↔ FirstCategory rules d c := by
  have hmem : ∀ t obj, obj ∈ rs.filterMap (dataOf t) ↔ ∃ r ∈ rs, dataOf t r = some obj := by
    intro t obj; rw [List.mem_filterMap]
  have htab : ∀ t, ∀ obj ∈ rs.filterMap (dataOf t), _ := fun t obj ho =>
    table_function hQ obj (hobj t obj ho).1 (hobj t obj ho).2.1 (hobj t obj ho).2.2
  -- the generator succeeds
  have hgen : ∃ text, generateRs LangId.parse rs = some text := by
    rw [C47_succeeds_iff]
    obtain ⟨t, ht⟩ := hex
    obtain ⟨obj, ho⟩ := List.exists_mem_of_ne_nil _ ht
    obtain ⟨r, hr1, hr2⟩ := (hmem t obj).1 ho
    refine ⟨by rintro rfl; simp at hr1, ⟨v, hvt, hver⟩, hone .CARDINAL, hone .ORDINAL, ⟨r, hr1, ?_⟩, fun r hr obj ho => ?_⟩
    · cases t
      · exact .inr (by rw [show r.ordinal = some obj from hr2]; simp)
      · exact .inl (by rw [show r.cardinal = some obj from hr2]; simp)
    · rw [← typeAccepted_iff]
      rcases ho with ho | ho
      · obtain ⟨streams, -, h, -⟩ := htab .CARDINAL obj ((hmem _ _).2 ⟨r, hr, ho⟩)
        rw [h]; simp
      · obtain ⟨streams, -, h, -⟩ := htab .ORDINAL obj ((hmem _ _).2 ⟨r, hr, ho⟩)
        rw [h]; simp
  obtain ⟨text, htext⟩ := hgen
  obtain ⟨v', n, hv', hn, hfile⟩ := C59_file LangId.parse rs text htext
  have hvv : v = v' := by
    obtain ⟨t, ht⟩ := hex
    obtain ⟨obj, ho⟩ := List.exists_mem_of_ne_nil _ ht
    obtain ⟨r, hr1, hr2⟩ := (hmem t obj).1 ho
    rw [← hver r hr1, hv' r hr1]
  subst hvv
  -- the items of a type
  have hitems : ∀ t, ∃ items, TypeItems LangId.parse t rs items ∧ (∀ m, Item.version m ∉ items) ∧
      (∀ t', t' ≠ t → ∀ es, Item.table (tableOf t') es ∉ items) ∧
      ∀ obj ∈ rs.filterMap (dataOf t), ∃ table, (∀ es, Item.table (tableOf t) es ∈ items ↔ es = table) ∧
        ∀ key rules id, LastOf obj key rules → key ≠ c!"root" → LangId.parse key = some id →
          ∃ i f, binarySearchByKey table id = .ok i ∧ table[i]? = some (id, f) ∧
            ∀ po d, K po d → ∀ c, f.call po = some c ↔ FirstCategory rules d c := by
    intro t
    match hd : rs.filterMap (dataOf t), hone t with
    | [], _ => exact ⟨[], .inl ⟨hd, rfl⟩, by simp, by simp, by simp⟩
    | [obj], _ =>
      obtain ⟨streams, table, h1, h2, h3⟩ := htab t obj (by rw [hd]; simp)
      refine ⟨[.table (tableOf t) table], .inr ⟨obj, streams, table, hd, h1, h2, rfl⟩, by simp, ?_, fun o ho => ?_⟩
      · intro t' ht es he
        have hname : tableOf t' = tableOf t := by simp at he; exact he.1
        revert hname ht
        cases t <;> cases t' <;> decide
      · simp at ho; subst ho
        exact ⟨table, by simp, h3⟩
    | _ :: _ :: _, hlen => simp at hlen
  obtain ⟨c, c1, c2, c3, c4⟩ := hitems .CARDINAL
  obtain ⟨o, o1, o2, o3, o4⟩ := hitems .ORDINAL
  refine ⟨text, preamble n ++ c ++ o, n, (C57_generate _ _ _).2 ⟨rs, hr, htext⟩, (hfile _).2 ⟨c, o, c1, o1, rfl⟩, hn, fun m => ?_, fun t obj ho => ?_⟩
  · simp only [List.mem_append, c2, o2, or_false]
    simp [preamble]
  · have hpre : ∀ name es, Item.table name es ∉ preamble n := by intro name es; simp [preamble]
    cases t
    · obtain ⟨table, h1, h2⟩ := o4 obj ho
      refine ⟨table, fun es => ?_, h2⟩
      rw [List.mem_append, List.mem_append, h1]
      simp only [hpre, c3 .ORDINAL (by decide), false_or]
    · obtain ⟨table, h1, h2⟩ := c4 obj ho
      refine ⟨table, fun es => ?_, h2⟩
      rw [List.mem_append, List.mem_append, h1]
      simp only [hpre, o3 .CARDINAL (by decide), false_or, or_false]

/-- C60: from the texts of the input files to the answer for a number, for rules that are right for all decimals: the text of the
output, read as Rust code, has the version of the files and, for each type that is given, one table, in which the locale of each
key is found, with the function that gives the category that its rules say. -/
theorem C60_pipeline (texts : List Str) (rs : List Generate.Resource) (hr : List.Forall₂ ResourceText texts rs) (v : Str)
    (hvt : VersionText v) (hver : ∀ r ∈ rs, r.cldrVersion = v) (hone : ∀ t, (rs.filterMap (dataOf t)).length ≤ 1)
    (hex : ∃ t, rs.filterMap (dataOf t) ≠ [])
    (hobj : ∀ t, ∀ obj ∈ rs.filterMap (dataOf t), PlainIds obj ∧ DistinctIds LangId.parse obj ∧
      ∀ key rules, LastOf obj key rules → key ≠ c!"root" → Supported RightForAll rules) :
    ∃ out items n, generateText LangId.parse texts = some out ∧ readFile (lex out) = some items ∧ VersionNumber v n ∧
      (∀ m, Item.version m ∈ items ↔ m = n) ∧
      ∀ t, ∀ obj ∈ rs.filterMap (dataOf t), ∃ table, (∀ es, Item.table (tableOf t) es ∈ items ↔ es = table) ∧
        ∀ key rules id, LastOf obj key rules → key ≠ c!"root" → LangId.parse key = some id →
          ∃ i f, binarySearchByKey table id = .ok i ∧ table[i]? = some (id, f) ∧
            ∀ po d, OperandsOf po d → Fits d → ∀ c, f.call po = some c ↔ FirstCategory rules d c := by
  obtain ⟨out, items, n, h1, h2, h3, h4, h5⟩ := pipeline rightFor_all texts rs hr v hvt hver hone hex hobj
  refine ⟨out, items, n, h1, h2, h3, h4, fun t obj ho => ?_⟩
  obtain ⟨table, g1, g2⟩ := h5 t obj ho
  refine ⟨table, g1, fun key rules id a b c => ?_⟩
  obtain ⟨i, f, k1, k2, k3⟩ := g2 key rules id a b c
  exact ⟨i, f, k1, k2, fun po d ho hd => k3 po d ⟨ho, hd⟩⟩

/-- The text of an object that meets the hypotheses. -/
example : ∃ s out items, ResourceText s ⟨c!"37", some supportedObject, none⟩ ∧ generateText LangId.parse [s] = some out ∧
    readFile (lex out) = some items ∧ Item.version 37 ∈ items := by
  have hs : ResourceText c!"{\"supplemental\": {\"version\": {\"_unicodeVersion\": \"13\", \"_cldrVersion\": \"37\"}, \"plurals-type-cardinal\":
      {\"root\": {\"?\": \"\"}, \"zh_hant\": {\"pluralRule-count-other\": \" @integer 3, 4\", \"pluralRule-count-one\": \"i = 1 and  v=0 @integer 1\",
      \"pluralRule-count-few\": \"n = 0..4 or n != 5,7 and f % 10 in 7..9\"}}}}" ⟨c!"37", some supportedObject, none⟩ :=
    (C57_resource _ _).1 (by decide +kernel)
  obtain ⟨out, items, n, h1, h2, ⟨l, -, h3⟩, h4, -⟩ := C60_pipeline _ _ (.cons hs .nil) c!"37" ⟨[3, 7], by simp, .inl ⟨.inl rfl, by decide⟩⟩
    (by simp) (by intro t; cases t <;> exact Nat.le_of_ble_eq_true rfl) ⟨.CARDINAL, List.cons_ne_nil _ _⟩ (by
      intro t obj ho
      cases t
      · cases ho
      · obtain rfl := List.mem_singleton.1 ho
        exact supportedObject_ok)
  refine ⟨_, out, items, hs, h1, h2, (h4 37).2 ?_⟩
  rcases h3 with ⟨h3 | h3, -, rfl⟩ | ⟨h3, -⟩
  · rw [← Strings.digitText_inj (show digitText [3, 7] = digitText l from h3)]; decide
  · cases h3
  · cases h3

/-- C60: the same for integers, where `n` may have a modulus. -/
theorem C60_pipeline_integers (texts : List Str) (rs : List Generate.Resource) (hr : List.Forall₂ ResourceText texts rs) (v : Str)
    (hvt : VersionText v) (hver : ∀ r ∈ rs, r.cldrVersion = v) (hone : ∀ t, (rs.filterMap (dataOf t)).length ≤ 1)
    (hex : ∃ t, rs.filterMap (dataOf t) ≠ [])
    (hobj : ∀ t, ∀ obj ∈ rs.filterMap (dataOf t), PlainIds obj ∧ DistinctIds LangId.parse obj ∧
      ∀ key rules, LastOf obj key rules → key ≠ c!"root" → Supported RightForIntegers rules) :
    ∃ out items n, generateText LangId.parse texts = some out ∧ readFile (lex out) = some items ∧ VersionNumber v n ∧
      (∀ m, Item.version m ∈ items ↔ m = n) ∧
      ∀ t, ∀ obj ∈ rs.filterMap (dataOf t), ∃ table, (∀ es, Item.table (tableOf t) es ∈ items ↔ es = table) ∧
        ∀ key rules id, LastOf obj key rules → key ≠ c!"root" → LangId.parse key = some id →
          ∃ i f, binarySearchByKey table id = .ok i ∧ table[i]? = some (id, f) ∧
            ∀ po d, OperandsOf po d → Fits d → d.f = 0 → ∀ c, f.call po = some c ↔ FirstCategory rules d c := by
  obtain ⟨out, items, n, h1, h2, h3, h4, h5⟩ := pipeline rightFor_integers texts rs hr v hvt hver hone hex hobj
  refine ⟨out, items, n, h1, h2, h3, h4, fun t obj ho => ?_⟩
  obtain ⟨table, g1, g2⟩ := h5 t obj ho
  refine ⟨table, g1, fun key rules id a b c => ?_⟩
  obtain ⟨i, f, k1, k2, k3⟩ := g2 key rules id a b c
  exact ⟨i, f, k1, k2, fun po d ho hd hi => k3 po d ⟨ho, hd, hi⟩⟩

/-- A text that meets the hypotheses for integers. -/
def supportedText : Str := c!"{\"supplemental\": {\"version\": {\"_unicodeVersion\": \"13\", \"_cldrVersion\": \"37\"}, \"plurals-type-ordinal\": {\"root\": {\"?\": \"\"},
  \"en\": {\"pluralRule-count-other\": \" @integer 3, 4\", \"pluralRule-count-one\": \"i = 1 and  v=0 @integer 1\", \"pluralRule-count-few\": \"n % 100 != 2,5 or n mod 10 in 7\"}}}}"

example : ∃ rs, List.Forall₂ ResourceText [supportedText] rs ∧ VersionText c!"37" ∧ (∀ r ∈ rs, r.cldrVersion = c!"37") ∧
    (∀ t, (rs.filterMap (dataOf t)).length ≤ 1) ∧ (∃ t, rs.filterMap (dataOf t) ≠ []) ∧
    ∀ t, ∀ obj ∈ rs.filterMap (dataOf t), PlainIds obj ∧ DistinctIds LangId.parse obj ∧
      ∀ key rules, LastOf obj key rules → key ≠ c!"root" → Supported RightForIntegers rules := by
  have hlast : ∀ k r, LastOf [(c!"root", [(c!"?", [])]), (c!"en", supportedRules)] k r → k ≠ c!"root" → k = c!"en" ∧ r = supportedRules := by
    intro k r h hr
    have := (Maps.lastOf_nodup (by decide +kernel) k r).1 h
    simp only [List.mem_cons, Prod.mk.injEq, List.not_mem_nil, or_false] at this
    rcases this with ⟨rfl, -⟩ | ⟨rfl, rfl⟩
    · exact absurd rfl hr
    · exact ⟨rfl, rfl⟩
  refine ⟨[⟨c!"37", none, some [(c!"root", [(c!"?", [])]), (c!"en", supportedRules)]⟩], .cons ((C57_resource _ _).1 (by decide +kernel)) .nil,
    ⟨[3, 7], by simp, .inl ⟨.inl rfl, by decide⟩⟩, by simp, by intro t; cases t <;> exact Nat.le_of_ble_eq_true rfl, ⟨.ORDINAL, List.cons_ne_nil _ _⟩, ?_⟩
  intro t obj ho
  cases t
  · obtain rfl := List.mem_singleton.1 ho
    refine ⟨fun k r h hr => ?_, fun k k' r r' id h h' hr hr' _ _ => ?_, fun k r h hr => ?_⟩
    · obtain ⟨rfl, -⟩ := hlast k r h hr
      exact ⟨_, rfl, by simp, rfl⟩
    · rw [(hlast k r h hr).1, (hlast k' r' h' hr').1]
    · rw [(hlast k r h hr).2]; exact supportedRules_ok
  · cases ho

end Verif.Props
