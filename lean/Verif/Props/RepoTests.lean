import Verif.Props.FloatDecimals
import Verif.Props.Shipped

/-!
# The tests of /repo, run on the model

These are tests of the model, not proofs of properties: each assertion of a test or documentation example of /repo, and each
`unwrap` of a benchmark, with the same input, is an `example` here.
-/

namespace Verif.RepoTests
open Verif Api Rust PluralOperands

/-! ## intl_pluralrules/tests/operands.rs -/

/-- The operands with this decimal literal for `n`. -/
def ops (n : Str) (i v w f t : Nat) : Option PluralOperands :=
  (Flt.fromStr b64 n).map fun n => { n, i, v, w, f, t }

/-- operands.rs:10-41 (`test_operands_from_str`). -/
example : ([(ops c!"0" 0 0 0 0 0, c!"0"),
    (ops c!"2" 2 0 0 0 0, c!"2"),
    (ops c!"57" 57 0 0 0 0, c!"57"),
    (ops c!"987" 987 0 0 0 0, c!"987"),
    (ops c!"1234567" 1234567 0 0 0 0, c!"1234567"),
    (ops c!"10" 10 0 0 0 0, c!"-10"),
    (ops c!"1000000" 1000000 0 0 0 0, c!"-1000000"),
    (ops c!"0.23" 0 2 2 23 23, c!"0.23"),
    (ops c!"0.230" 0 3 2 230 23, c!"0.230"),
    (ops c!"23.00" 23 2 0 00 0, c!"23.00"),
    (ops c!"0.0203000" 0 7 4 203000 203, c!"0.0203000"),
    (ops c!"123.45" 123 2 2 45 45, c!"123.45"),
    (ops c!"1234.567" 1234 3 3 567 567, c!"-1234.567")].all fun x =>
      x.1.isSome && (tryFromStr x.2).toOption == x.1) = true := by decide +kernel

/-- operands.rs:43-68 (`test_operands_from_int`); the literals are `i32`. -/
example : ([(ops c!"0" 0 0 0 0 0, 0), (ops c!"2" 2 0 0 0 0, 2), (ops c!"57" 57 0 0 0 0, 57), (ops c!"987" 987 0 0 0 0, 987),
    (ops c!"1234567" 1234567 0 0 0 0, 1234567), (ops c!"10" 10 0 0 0 0, -10),
    (ops c!"1000000" 1000000 0 0 0 0, -1000000)].all fun x =>
      x.1.isSome && (tryFromSigned 64 x.2).toOption == x.1 && (tryFromSigned 32 x.2).toOption == x.1) = true := by decide +kernel

/-- operands.rs:70-93 (`test_operands_from_float`); a decimal literal in Rust source is the nearest float (C55 saves the search for
the shortest text). -/
example : (∀ x ∈ [(ops c!"0.23" 0 2 2 23 23, false, [0], [2, 3]),
    (ops c!"0.230" 0 2 2 23 23, false, [0], [2, 3, 0]),
    (ops c!"0.0203000" 0 4 4 203 203, false, [0], [0, 2, 0, 3, 0, 0, 0]),
    (ops c!"123.45" 123 2 2 45 45, false, [1, 2, 3], [4, 5]),
    (ops c!"1234.567" 1234 3 3 567 567, true, [1, 2, 3, 4], [5, 6, 7])], x.1.isSome ∧
      (tryFromFloat b64 (.ofRat b64 x.2.1 (Spec.allDigits (Spec.decOf x.2.2.1 x.2.2.2)) (10 ^ x.2.2.2.length))).toOption = x.1) := by
  intro x hx
  simp only [List.mem_cons, List.not_mem_nil, or_false] at hx
  rcases hx with rfl | rfl | rfl | rfl | rfl <;>
  · rw [Props.C55_fifteen_digits _ _ _ (by simp) (by decide) (by decide)]
    decide +kernel

/-- operands.rs:95-98 (`test_incorrect_operand`). -/
example : (tryFromStr c!"foo").isOk = false := by decide +kernel

/-- operands.rs:135-140 (`many_decimal_places`). -/
example : ((Flt.fromStr b64 c!"2.813829837982735").map fun n => (tryFromFloat b64 n).isOk) = some true := by decide +kernel

/-! ## intl_pluralrules/src/lib.rs -/

/-- `create` with a parsed identifier. -/
def rules (id : Str) (t : PluralRuleType) : Option PluralRules :=
  (LangId.parse id).bind fun id => (create id t).toOption

/-- `select` on converted operands. -/
def sel (pr : Option PluralRules) (ops : Except OpsErr PluralOperands) : Option PluralCategory :=
  pr.bind fun pr => (select pr ops).bind (·.toOption)

/-- tests/operands.rs:100-105 (`test_get_locale`), lib.rs:176-180. -/
example : ((rules c!"naq" .CARDINAL).map getLocale) = LangId.parse c!"naq" ∧ (LangId.parse c!"naq").isSome := by decide +kernel

/-- tests/operands.rs:107-133 (`custom_type`): operands made by the caller. -/
example : sel (rules c!"en" .CARDINAL) (.ok { n := Flt.ofNat b64 5, i := 5, v := 0, w := 0, f := 0, t := 0 }) = some .OTHER := by
  decide +kernel

/-- lib.rs:13-25 (documentation, Polish). -/
example : ((LangId.parse c!"pl").map fun id => (getLocales .CARDINAL).contains id) = some true ∧
    sel (rules c!"pl" .CARDINAL) (tryFromSigned 64 1) = some .ONE ∧
    sel (rules c!"pl" .CARDINAL) (tryFromStr c!"3") = some .FEW ∧
    sel (rules c!"pl" .CARDINAL) (tryFromSigned 64 12) = some .MANY ∧
    sel (rules c!"pl" .CARDINAL) (tryFromStr c!"5.0") = some .OTHER ∧
    (rules c!"pl" .CARDINAL).map getLocale = LangId.parse c!"pl" := by decide +kernel

/-- lib.rs:69-79 (documentation of `PluralRules`); 5.0 is a float. -/
example : sel (rules c!"naq" .CARDINAL) (tryFromSigned 64 1) = some .ONE ∧
    sel (rules c!"naq" .CARDINAL) (tryFromStr c!"2") = some .TWO ∧
    Flt.fromStr b64 c!"5.0" = some (.fin false (5 * 2 ^ 1074)) ∧
    sel (rules c!"naq" .CARDINAL) (tryFromFloat b64 (.fin false (5 * 2 ^ 1074))) = some .OTHER := by
  rw [Props.C20_integral false 5 (by decide)]
  decide +kernel

/-- lib.rs:191-203 (`cardinals_test`), :129-139; the test on "xx" asks only that the two predicates agree. -/
example : sel (rules c!"naq" .CARDINAL) (tryFromSigned 64 1) = some .ONE ∧
    sel (rules c!"naq" .CARDINAL) (tryFromSigned 64 2) = some .TWO ∧
    sel (rules c!"naq" .CARDINAL) (tryFromSigned 64 5) = some .OTHER ∧
    (LangId.parse c!"xx").isSome ∧ rules c!"xx" .CARDINAL = none := by decide +kernel

/-- lib.rs:205-211 (`ordinals_rules`). -/
example : sel (rules c!"uk" .ORDINAL) (tryFromSigned 64 33) = some .FEW ∧
    sel (rules c!"uk" .ORDINAL) (tryFromSigned 64 113) = some .OTHER := by decide +kernel

/-- lib.rs:213-216 (`version_test`). -/
example : RulesTable.cldrVersion = 37 := by decide +kernel

/-- lib.rs:218-224 (`locale_test`), :156-161. -/
example : (getLocales .CARDINAL).isEmpty = false := by decide +kernel

/-! ## benches (what they `unwrap` or `expect`) -/

/-- intl_pluralrules/benches/pluralrules.rs:9-26 ("construct"). -/
example : ([c!"uk", c!"de", c!"sk", c!"ar", c!"fr", c!"it", c!"en", c!"cs", c!"es", c!"zh"].all fun l =>
    (rules l .ORDINAL).isSome && (rules l .CARDINAL).isSome) = true := by decide +kernel

/-- benches/pluralrules.rs:28-46 ("select"). -/
example : ([1, 2, 3, 4, 5, 25, 134, 910293019, 12, 1412, -12, 15, 2931, 31231, 3123, 13231, 91, 0, 231,
    -2, -45, 33, 728, 2, 291, 24, 479, 291, 778, 919, 93].all fun x : Int =>
      (sel (rules c!"pl" .CARDINAL) (tryFromSigned 32 x)).isSome) = true := by decide +kernel

/-- benches/pluralrules.rs:48-64 ("total"): the floats and the text; the integers are as above. -/
example : (sel (rules c!"pl" .CARDINAL) (tryFromFloat b64 (.ofRat b64 false (Spec.allDigits (Spec.decOf [5] [2])) (10 ^ ([2] : List (Fin 10)).length)))) = some .OTHER ∧
    (sel (rules c!"pl" .CARDINAL) (tryFromFloat b64 (.ofRat b64 true (Spec.allDigits (Spec.decOf [0] [2])) (10 ^ ([2] : List (Fin 10)).length)))) = some .OTHER ∧
    sel (rules c!"pl" .CARDINAL) (tryFromStr c!"12.06") = some .OTHER ∧
    sel (rules c!"pl" .CARDINAL) (tryFromSigned 32 5090) = some .MANY := by
  rw [Props.C55_fifteen_digits false [5] [2] (by simp) (by decide) (by decide),
    Props.C55_fifteen_digits true [0] [2] (by simp) (by decide) (by decide)]
  decide +kernel

/-! ## cldr_pluralrules_parser/tests/conditions.rs -/

/-- The condition of a rule, if it parses. -/
def cond (s : Str) : Option Condition := (Parser.parsePluralRule 64 s).toOption.map (·.condition)

/-- conditions.rs:4-42 (`simple_empty`). -/
example : [c!"", c!" ", c!"@integer 0", c!" @integer 0"].map cond = [some [], some [], some [], some []] := by decide +kernel

/-- conditions.rs:44-61 (`simple_expression`), ast.rs:37-54. -/
example : cond c!"i = 5" = some [[⟨⟨.I, none⟩, .EQ, [.value 5]⟩]] := by decide +kernel

/-- conditions.rs:63-84 (`multi_value`), ast.rs:268-281. -/
example : cond c!"i = 5, 7, 9" = some [[⟨⟨.I, none⟩, .EQ, [.value 5, .value 7, .value 9]⟩]] := by decide +kernel

/-- conditions.rs:86-112 (`multi_range`), ast.rs:302-315. -/
example : cond c!"i in 5..9, 11..15" = some [[⟨⟨.I, none⟩, .In, [.range 5 9, .range 11 15]⟩]] := by decide +kernel

/-- conditions.rs:114-142 (`and_condition`). -/
example : cond c!"i in 5 and v not in 2" =
    some [[⟨⟨.I, none⟩, .In, [.value 5]⟩, ⟨⟨.V, none⟩, .NotIn, [.value 2]⟩]] := by decide +kernel

/-- conditions.rs:144-172 (`or_condition`), lib.rs:8-37,47-77, ast.rs:58-87. -/
example : cond c!"i is 5 or v within 2" =
    some [[⟨⟨.I, none⟩, .Is, [.value 5]⟩], [⟨⟨.V, none⟩, .Within, [.value 2]⟩]] := by decide +kernel

/-- conditions.rs:174-194 (`ars_many_rule`). -/
example : cond c!"n % 100 = 11..99 @integer 11~26, 111, 1011, … @decimal 11.0, 12.0, 13.0, 14.0, 15.0, 16.0, 17.0, 18.0, 111.0, 1011.0, …" =
    some [[⟨⟨.N, some 100⟩, .EQ, [.range 11 99]⟩]] := by decide +kernel

/-- conditions.rs:196-222 (`be_one_rule`). -/
example : cond c!"n % 10 = 1 and n % 100 != 11 @integer 1, 21, 31, 41, 51, 61, 71, 81, 101, 1001, … @decimal 1.0, 21.0, 31.0, 41.0, 51.0, 61.0, 71.0, 81.0, 101.0, 1001.0, …" =
    some [[⟨⟨.N, some 10⟩, .EQ, [.value 1]⟩, ⟨⟨.N, some 100⟩, .NotEQ, [.value 11]⟩]] := by decide +kernel

/-- conditions.rs:224-255 (`be_few_rule`). -/
example : cond c!"n % 10 = 2..4 and n % 100 != 12..14 @integer 2~4, 22~24, 32~34, 42~44, 52~54, 62, 102, 1002, … @decimal 2.0, 3.0, 4.0, 22.0, 23.0, 24.0, 32.0, 33.0, 102.0, 1002.0, …" =
    some [[⟨⟨.N, some 10⟩, .EQ, [.range 2 4]⟩, ⟨⟨.N, some 100⟩, .NotEQ, [.range 12 14]⟩]] := by decide +kernel

/-- conditions.rs:257-295 (`be_many_rule`). -/
example : cond c!"n % 10 = 0 or n % 10 = 5..9 or n % 100 = 11..14 @integer 0, 5~19, 100, 1000, 10000, 100000, 1000000, … @decimal 0.0, 5.0, 6.0, 7.0, 8.0, 9.0, 10.0, 11.0, 100.0, 1000.0, 10000.0, 100000.0, 1000000.0, …" =
    some [[⟨⟨.N, some 10⟩, .EQ, [.value 0]⟩], [⟨⟨.N, some 10⟩, .EQ, [.range 5 9]⟩], [⟨⟨.N, some 100⟩, .EQ, [.range 11 14]⟩]] := by
  decide +kernel

/-- cldr_pluralrules_parser/benches/parser.rs:8-34. -/
example : ([
    c!"n % 10 = 0 or n % 10 = 5..9 or n % 100 = 11..14 @integer 0, 5~19, 100, 1000, 10000, 100000, 1000000, … @decimal 0.0, 5.0, 6.0, 7.0, 8.0, 9.0, 10.0, 11.0, 100.0, 1000.0, 10000.0, 100000.0, 1000000.0, …",
    c!"n % 10 = 2..4 and n % 100 != 12..14 @integer 2~4, 22~24, 32~34, 42~44, 52~54, 62, 102, 1002, … @decimal 2.0, 3.0, 4.0, 22.0, 23.0, 24.0, 32.0, 33.0, 102.0, 1002.0, …",
    c!"n % 10 = 1 and n % 100 != 11 @integer 1, 21, 31, 41, 51, 61, 71, 81, 101, 1001, … @decimal 1.0, 21.0, 31.0, 41.0, 51.0, 61.0, 71.0, 81.0, 101.0, 1001.0, …",
    c!"n % 100 = 11..99 @integer 11~26, 111, 1011, … @decimal 11.0, 12.0, 13.0, 14.0, 15.0, 16.0, 17.0, 18.0, 111.0, 1011.0, …"].all fun s =>
    (Parser.parsePluralCondition 64 s).toOption.isSome && (Parser.parsePluralRule 64 s).toOption.isSome) = true := by decide +kernel

/-! ## make_pluralrules/tests/test.rs

`full_cldr_test` and `within_test` are `C62_fixtures`. -/

/-- The text of an input file with one locale, of this type and version (test.rs:44-56,93-120). -/
def testInput (version type id : Str) : Str :=
  c!"{\n  \"supplemental\": {\n    \"version\": {\n      \"_number\": \"$Revision: 13898 $\",\n      \"_unicodeVersion\": \"10.0.0\",\n      \"_cldrVersion\": \"" ++ version ++
  c!"\"\n    },\n    \"" ++ type ++
  c!"\": {\n      \"" ++ id ++ c!"\": {\n        \"pluralRule-count-one\": \"n = 1 @integer 1 @decimal 1.0, 1.00, 1.000, 1.0000\",\n        \"pluralRule-count-other\": \" @integer 0, 2~16, 100, 1000, 10000, 100000, 1000000, … @decimal 0.0~0.9, 1.1~1.6, 10.0, 100.0, 1000.0, 10000.0, 100000.0, 1000000.0, …\"\n      }\n    }\n  }\n}"

/-- test.rs:40-60 (`bad_type_test`): a panic, because of the type.  (The identifier "test" would panic too.) -/
example : Resource.generateText LangId.parse [testInput c!"0" c!"plurals-type-cardinals" c!"test"] = none ∧
    Resource.generateText LangId.parse [testInput c!"0" c!"plurals-type-cardinals" c!"tst"] = none ∧
    Resource.generateText LangId.parse [testInput c!"0" c!"plurals-type-cardinal" c!"test"] = none ∧
    (Resource.generateText LangId.parse [testInput c!"0" c!"plurals-type-cardinal" c!"tst"]).isSome := by decide +kernel

/-- test.rs:88-125 (`different_version_test`): a panic, already because of the type and the identifier; without these, because of
the version. -/
example : Resource.generateText LangId.parse [testInput c!"0" c!"plurals-type-cardinals" c!"test",
      testInput c!"1" c!"plurals-type-cardinals" c!"test"] = none ∧
    Resource.generateText LangId.parse [testInput c!"0" c!"plurals-type-cardinal" c!"tst",
      testInput c!"1" c!"plurals-type-ordinal" c!"tst"] = none ∧
    (Resource.generateText LangId.parse [testInput c!"0" c!"plurals-type-cardinal" c!"tst",
      testInput c!"0" c!"plurals-type-ordinal" c!"tst"]).isSome := by
  decide +kernel

/-- test.rs:62-86 (`same_data_cardinal_test`, `same_data_ordinal_test`): a panic. -/
example : Resource.generateText LangId.parse [Fixtures.cardinals33, Fixtures.cardinals33] = none ∧
    Resource.generateText LangId.parse [Fixtures.ordinals33, Fixtures.ordinals33] = none := by decide +kernel

end Verif.RepoTests
