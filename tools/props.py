#!/usr/bin/env python3
"""Writes /verif/properties.jsonl (kept as Python so the text stays readable)."""
import json, os
P = []
def p(title, statement, quantifier, why, anchors):
    P.append(dict(id="C%02d" % (len(P) + 1), title=title, statement=statement, quantifier=quantifier,
                  why_tests_cant=why, anchors=anchors))
LIB = "intl_pluralrules/src/lib.rs"; OPS = "intl_pluralrules/src/operands.rs"; RUL = "intl_pluralrules/src/rules.rs"
PAR = "cldr_pluralrules_parser/src/parser.rs"; PLIB = "cldr_pluralrules_parser/src/lib.rs"; AST = "cldr_pluralrules_parser/src/ast.rs"
GPR = "make_pluralrules/src/parser/gen_pr.rs"; GRS = "make_pluralrules/src/parser/gen_rs.rs"; MLIB = "make_pluralrules/src/lib.rs"
RES = "make_pluralrules/src/parser/resource.rs"
CJ = "intl_pluralrules/cldr_data/cldr_pluralrules_cardinals.json"; OJ = "intl_pluralrules/cldr_data/cldr_pluralrules_ordinals.json"

# --- intl_pluralrules: locales -------------------------------------------------------------------------------------
p("create accepts exactly the listed locales",
  "For a language identifier and a rule type, PluralRules::create returns Ok if and only if the identifier is an element of PluralRules::get_locales for that type; otherwise it returns Err(\"unknown locale\").",
  "every language identifier (any language, script, region, variants) and both rule types",
  "The set of language identifiers is unbounded, and the lookup is a binary search whose answer is right only if the whole table is ordered the way the comparison orders it.",
  [LIB + ":PluralRules::create", LIB + ":PluralRules::get_locales", RUL + ":PRS_CARDINAL", RUL + ":PRS_ORDINAL"])
p("create selects that locale's own rule and remembers the locale",
  "When create(id, type) succeeds, get_locale() returns id, and select uses the rule function stored next to id in the shipped table, never that of another locale.",
  "every language identifier and rule type for which create succeeds",
  "An off-by-one in the search or a misordered table hands out a neighbouring locale's rule only for some keys.",
  [LIB + ":PluralRules::create", LIB + ":PluralRules::get_locale"])
p("get_locales has no duplicates and is in identifier order",
  "The vector returned by get_locales is strictly increasing in the order of LanguageIdentifier, so it has no duplicates, for both rule types.",
  "every pair of positions in both shipped tables",
  "A test on a few neighbours cannot show it for every pair; the binary search depends on all of them.",
  [LIB + ":PluralRules::get_locales", RUL])
p("create does not fall back",
  "create fails for every identifier that carries variants, for every identifier with a script, and for every identifier with a region other than pt-PT (cardinal); it never falls back from a regional identifier to its base language, nor to root.",
  "every language identifier that has a variant, a script, or a region",
  "Unboundedly many identifiers.",
  [LIB + ":PluralRules::create", RUL])
# --- select ---------------------------------------------------------------------------------------------------------
p("select never panics and is total on operands",
  "For every locale that create accepts and every value of PluralOperands (including NaN, infinities, and operands that no number has), select returns Ok of a category; no remainder by zero or other panic can occur.",
  "every locale of both tables, every PluralOperands value",
  "The operand space is infinite (2^64 in four fields and all floats).",
  [LIB + ":PluralRules::select", RUL])
p("select fails exactly when the operand conversion fails",
  "select(number) returns Err(\"Argument can not be parsed to operands.\") if and only if the conversion of number into PluralOperands fails, whatever the locale; otherwise it is Ok.",
  "every locale, every convertible or non-convertible input",
  "Any input type and any value.",
  [LIB + ":PluralRules::select"])
p("select returns only categories the locale declares",
  "The category select returns is OTHER or one of the categories for which the CLDR data of that locale and type has a rule.",
  "every locale of both tables, every PluralOperands value",
  "Depends on all operand values.",
  [LIB + ":PluralRules::select", RUL, CJ, OJ])
# --- operands: integers ---------------------------------------------------------------------------------------------
p("unsigned integers give exact operands",
  "Converting an unsigned integer x of any width gives i = x and v = w = f = t = 0; n is the f64 nearest to x, so n equals an integer constant k below 2^53 exactly when x = k.",
  "every u8/u16/u32/u64/usize value",
  "2^64 values; rounding above 2^53.",
  [OPS + ":impl_integer_type!"])
p("signed integers are taken by absolute value",
  "On a 64-bit target, converting a signed integer x gives the same operands as converting |x| as unsigned, and fails only for the minimum value of isize/i64 (which has no absolute value in isize).",
  "every i8/i16/i32/i64/isize value on a 64-bit target",
  "2^64 values with one exceptional value.",
  [OPS + ":impl_signed_integer_type!"])
p("signed conversion on every pointer width",
  "On a target with W-bit pointers the operands of a signed integer are those of the absolute value of x wrapped into W bits: right when x fits in W bits and is not the minimum, an error when the wrapped value is the minimum, and otherwise the operands of a different number.",
  "every pointer width and every signed value",
  "Only a 64-bit host is tested; the wrap appears on other targets.",
  [OPS + ":impl_signed_integer_type!"])
# --- operands: strings ----------------------------------------------------------------------------------------------
p("decimal strings with a fraction give the UTS #35 operands",
  "For a string of one or more digits, a point and one or more digits (optionally after one '-'), whose integer part and fraction are below 2^64 as numbers, the conversion gives i, v, w, f, t exactly as UTS #35 defines them, and n is the f64 nearest to the absolute value.",
  "every digit string of any length with the stated shape",
  "Unbounded strings.",
  [OPS + ":TryFrom<&str> for PluralOperands"])
p("integer strings give the operands of that integer",
  "For a string of one or more digits (optionally after one '-') whose value is at most 2^53, the conversion gives the same operands as converting that integer as u64. Above 2^53 the integer passes through f64, so i can differ from the number written.",
  "every digit string of any length",
  "Unbounded strings; the failure starts at 2^53+1.",
  [OPS + ":TryFrom<&str> for PluralOperands"])
p("a leading minus sign does not change operands",
  "For every string s that does not itself start with '-', the conversion of \"-\" followed by s gives the same result (Ok or Err) as that of s; hence select(\"-\"+s) = select(s) in every locale.",
  "every string not starting with '-', every locale",
  "Unbounded strings.",
  [OPS + ":TryFrom<&str> for PluralOperands"])
p("leading zeros do not change operands",
  "Adding zeros in front of the integer part of a plain decimal string does not change any operand.",
  "every plain decimal string and any number of added zeros",
  "Unbounded strings.",
  [OPS + ":TryFrom<&str> for PluralOperands"])
p("trailing fraction zeros are visible only in v and f",
  "Appending k zeros to a fraction adds k to v and multiplies f by 10^k (the conversion failing exactly when that product reaches 2^64) and leaves n, i, w and t unchanged.",
  "every plain decimal string with a fraction and any k",
  "Unbounded strings.",
  [OPS + ":TryFrom<&str> for PluralOperands"])
p("operands are consistent with each other",
  "Whenever the conversion of a string succeeds: w <= v, f = t * 10^(v-w), f < 10^v, t < 10^w, t is 0 exactly when w is 0, t is not divisible by 10 unless it is 0, and i, f, t are below 2^64.",
  "every string whose conversion succeeds",
  "Unbounded strings, including exponent and special forms.",
  [OPS + ":PluralOperands", OPS + ":TryFrom<&str> for PluralOperands"])
p("exactly which strings are accepted",
  "The conversion of a string succeeds if and only if, after removing at most one leading '-', it is either a point-free float literal (optional sign, digits or inf/infinity/nan in any case, optional exponent) or digits '.' digits with an optional leading '+', no exponent, and both parts below 2^64. Everything else, including \"\", \"1.\", \".5\", \"1.5e3\" and text, is an error.",
  "every string",
  "All strings, of any length and alphabet.",
  [OPS + ":TryFrom<&str> for PluralOperands"])
p("special strings and a second minus sign",
  "Strings such as \"inf\", \"NaN\" and a second minus sign are accepted: inf has i = 2^64-1, NaN has i = 0, and \"--5\" is accepted with n = -5 and i = 0, so n is not always an absolute value.",
  "every point-free string with a sign after the first '-', and all spellings of inf and nan",
  "Infinitely many spellings; not what the documentation says.",
  [OPS + ":TryFrom<&str> for PluralOperands"])
p("n equals an integer constant exactly when the number does",
  "For a decimal string whose digits form a number below 2^53 and which has at most 300 fraction digits, the test n == k.0 that the rules use holds if and only if the exact decimal value is the integer k. With more digits this fails (\"1.0000000000000000001\" has n == 1.0).",
  "every decimal string with significand below 2^53 and at most 300 fraction digits, every constant k",
  "Depends on rounding at every representable point.",
  [OPS + ":PluralOperands", RUL])
p("floats convert without error",
  "Converting any f64 (zero, subnormal, huge, infinite or NaN) succeeds; for a finite value n is its absolute value, i its integer part saturated to u64, v = w and f = t (no trailing zeros are ever visible), and an integral float below 2^53 gives the same operands as that integer.",
  "every f64 value",
  "2^64 bit patterns; relies on the shortest decimal form having at most 17 digits so that the fraction fits in u64.",
  [OPS + ":impl_convert_type!"])
# --- CLDR conformance -----------------------------------------------------------------------------------------------
p("the shipped tables are what the generator makes of the shipped CLDR data",
  "For both types, the shipped table has one entry for each locale of the CLDR JSON except root, and each entry's function is the one the generator produces from that locale's rules.",
  "every locale of both JSON files and every entry of both tables",
  "No test runs the generator on the shipped data and compares; 309 entries.",
  [RUL, CJ, OJ, MLIB + ":gen_type_rs"])
p("integers get the CLDR category",
  "For every locale of the shipped tables and every u64 integer, select returns the category whose CLDR rule (UTS #35 semantics) the number satisfies. False for the locales whose rules compare n modulo m against a range; those are listed with a number that gets the wrong category.",
  "every locale, every u64 integer",
  "2^64 integers times 309 locales; fixtures compare text, not behaviour.",
  [LIB + ":PluralRules::select", RUL, CJ, OJ, GPR + ":create_relation"])
p("decimal strings get the CLDR category",
  "For every locale of the shipped tables and every plain decimal string within the operand bounds, select returns the category whose CLDR rule the exact decimal value and its visible digits satisfy. False for the locales that compare n modulo m without requiring v = 0; those are listed with a witness.",
  "every locale, every plain decimal string with integer part below 2^53, significand below 2^53 and at most 300 fraction digits",
  "Unbounded strings times 309 locales.",
  [LIB + ":PluralRules::select", RUL, CJ, OJ, GPR + ":create_relation"])
p("every locale is right on single digits",
  "For every locale of the shipped tables, including the ones that are wrong elsewhere, select returns the CLDR category for each integer 0 to 9.",
  "every locale, every integer below 10, in every integer type and as string",
  "All locales and all ways of passing the number.",
  [LIB + ":PluralRules::select", RUL])
p("CLDR categories of a locale exclude each other",
  "In the shipped CLDR data no number satisfies the rules of two different non-OTHER categories of one locale, so the order in which the generated code tests them does not matter and the CLDR category is unique.",
  "every locale of both JSON files, every exact decimal number",
  "Infinitely many numbers.",
  [CJ, OJ, GRS + ":gen_mid"])
p("visible-digit locales see trailing zeros, others do not",
  "In locales whose rules use only n and i (such as af, fr, ar), select gives the same category for a decimal string with and without trailing fraction zeros, while in locales that use v (such as en) 1 and 1.0 may differ.",
  "every plain decimal string and number of zeros, every locale whose functions read only n, i, w, t",
  "Unbounded strings.",
  [LIB + ":PluralRules::select", RUL])
# --- parser ---------------------------------------------------------------------------------------------------------
p("parser soundness",
  "If parse_plural_rule(s) returns a rule, then s is a text of the UTS #35 plural-rule grammar (in the lenient spacing the parser allows) whose meaning is exactly that AST; nothing is left unread.",
  "every string",
  "All strings.",
  [PLIB + ":parse_plural_rule", PAR])
p("parser completeness and round trip",
  "Printing any well-formed rule AST in canonical spacing and parsing it gives back the same AST, with samples.",
  "every well-formed AST: any number of or/and parts, list items and samples, all operators and operands, all values below 2^64",
  "Unbounded nesting lists.",
  [PLIB + ":parse_plural_rule", PAR, AST])
p("spacing does not matter where the grammar allows it",
  "Parsing succeeds with the same AST when any run of spaces or tabs (zero or more around operators and commas, one or more around and/or/mod operands) is used instead of single spaces, and with mod instead of %.",
  "every well-formed condition and every choice of space/tab runs",
  "Unboundedly many spacings.",
  [PAR])
p("parse_plural_rule reports leftover text",
  "parse_plural_rule returns Err(\"Left string: \" ++ rest) with the exact unread suffix when a rule prefix parses but text remains, and Err(\"Parser failed\") when no prefix parses; it never returns Ok with text unread (except for the sample-only case).",
  "every string",
  "All strings.",
  [PLIB + ":parse_plural_rule"])
p("the two parsing entry points agree",
  "If parse_plural_rule(s) is Ok(r) then parse_plural_condition(s) is Ok(r.condition); parse_plural_condition also accepts s followed by arbitrary text that cannot extend the condition, and ignores that text.",
  "every string",
  "All strings.",
  [PLIB + ":parse_plural_rule", PLIB + ":parse_plural_condition"])
p("samples never influence the condition",
  "For every condition text c and every well-formed sample text following it, the parsed condition is the one of c alone.",
  "every well-formed condition and every sample list",
  "Unbounded.",
  [PAR + ":parse_rule", PAR + ":samples"])
p("empty and sample-only rules",
  "A string that is blank, or whose first non-blank character is '@', parses to the empty condition with no samples, whatever follows the '@'.",
  "every blank string, every string starting (after white space) with '@'",
  "All such strings; shows that samples of an 'other' rule are dropped and text after '@' is not checked.",
  [PAR + ":parse_condition", PAR + ":parse_rule"])
p("numbers in rules are exact or rejected",
  "Every number in a parsed AST is the decimal value of the digits written and is below 2^64; a rule with a number of 2^64 or more in value position does not parse.",
  "every string",
  "All strings.",
  [PAR + ":value"])
p("parsed ASTs are well-formed",
  "Every successfully parsed non-blank condition has at least one and-condition, each with at least one relation; but a relation's range list may be empty (\"i =\" parses).",
  "every string",
  "All strings.",
  [PAR + ":range_list", PAR + ":and_condition", PAR + ":parse_condition"])
p("and binds tighter than or",
  "For condition texts a, b, c: \"a or b and c\" parses to the or of a with the and of b and c, and its meaning is a or (b and c).",
  "every relation texts",
  "Unbounded.",
  [PAR + ":and_condition", PAR + ":parse_condition"])
p("parsing is deterministic on the grammar",
  "No text of the canonical grammar has two different ASTs: printing is injective on well-formed ASTs.",
  "every pair of well-formed ASTs",
  "Unbounded.",
  [PAR, AST])
# --- generator ------------------------------------------------------------------------------------------------------
p("generated conditions mean what the rule means (operands other than n)",
  "For every condition built from operands i, v, w, f, t with =, !=, in, not in, is, is not, non-empty lists and non-zero moduli, the generated Rust expression, evaluated on the operands of a number, is true exactly when the number satisfies the condition by UTS #35.",
  "every such condition, every exact decimal number with i, f below 2^64",
  "All conditions times all numbers.",
  [GPR + ":create_relation", GPR + ":create_and_condition", GPR + ":create_condition"])
p("generated conditions on n",
  "The generated expression for a condition on n agrees with UTS #35 for values and ranges without modulus (ranges only positively), and for integers also for values with modulus and negated ranges. It disagrees for a modulus with a range, for negated ranges on fractions, and for a modulus on fractions.",
  "every condition, every exact decimal number in the operand bounds",
  "All conditions times all numbers.",
  [GPR + ":create_relation"])
p("within is generated only for one range",
  "A within relation without a range makes the generator panic; with several items all but the first range are ignored; not within generates a test that no number satisfies when lower <= upper. A single-range within without modulus is correct.",
  "every within / not within relation, every number",
  "All range lists times all numbers.",
  [GPR + ":create_relation"])
p("generated code has the intended precedence",
  "The token stream generated for a condition, parsed with Rust's operator precedence, is the or of the ands of the relations in order; no relation's tokens bind across its neighbour's.",
  "every condition the generator accepts",
  "Unbounded and/or/list lengths.",
  [GPR + ":create_relation", GPR + ":create_and_condition", GPR + ":create_condition"])
p("generated code type-checks",
  "For every condition with non-empty range lists (and a range in each within), the generated expression is a well-typed boolean over the fields of PluralOperands; with an empty range list it is not an expression at all.",
  "every condition",
  "All conditions.",
  [GPR + ":create_relation"])
p("a negated relation is the negation of the positive one",
  "For operands other than n, and for n with values, the code generated for != (not in, is not) evaluates to the negation of the code generated for = on all operands; for ranges on n without modulus it does not.",
  "every expression, list and operands",
  "All conditions times all operands.",
  [GPR + ":create_relation", GPR + ":get_operator_symbol"])
p("operator spellings are interchangeable",
  "=, in and is generate the same code, and so do !=, not in and is not.",
  "every relation",
  "All relations.",
  [GPR + ":get_operator_symbol", GPR + ":create_relation"])
p("generator output does not depend on input file order",
  "If generate_rs succeeds on a list of CLDR files it succeeds with the same output on every reordering of them, and if it panics on one order it panics on every order.",
  "every list of resources and every permutation",
  "All permutations of all inputs.",
  [MLIB + ":generate_rs"])
p("generator output does not depend on JSON key order",
  "Reordering the locales of a file, or the rules of a locale, does not change the generated code.",
  "every resource with distinct keys and every permutation of its keys",
  "All permutations.",
  [MLIB + ":gen_type_rs", RES])
p("when generate_rs panics",
  "generate_rs succeeds exactly when: at least one file, all files have the same CLDR version, that version parses as isize, each of cardinal and ordinal is given at most once and at least one is given, every locale key but root parses as a language identifier, every rule key has at least three '-' separated parts, every rule condition parses, and no non-OTHER rule has a within relation without a range.",
  "every list of resources",
  "All inputs.",
  [MLIB + ":generate_rs", MLIB + ":gen_type_rs", GRS + ":gen_fn"])
p("generated tables are sorted and omit root",
  "The generated table lists every locale key but root exactly once, in LanguageIdentifier order, so the consumer's binary search finds each of them (for keys that parse to distinct identifiers).",
  "every resource",
  "All inputs.",
  [MLIB + ":gen_type_rs", LIB + ":PluralRules::create"])
p("OTHER is the default and is never tested",
  "A generated function returns OTHER exactly when no generated condition of the locale holds, the conditions of the 'other' rule and of unknown category names are never part of the code, and a locale without rules returns OTHER always.",
  "every rule set, every operands",
  "All rule sets times all operands.",
  [MLIB + ":gen_type_rs", GRS + ":gen_mid", GRS + ":create_return"])
p("categories are tested in a fixed order",
  "A generated function tests few, many, one, two, zero in this order whatever the order in the file, and returns the first that holds.",
  "every rule set with standard keys, every operands",
  "All rule sets times all operands.",
  [MLIB + ":gen_type_rs", GRS + ":gen_mid", RES])
p("language subtags survive the raw encoding",
  "The raw integer the generator writes for a language (script, region) subtag decodes to the same subtag, so a generated entry is found under the identifier it was generated from.",
  "every subtag of 1 to 8 ASCII characters",
  "All subtags.",
  [GRS + ":gen_langid", RUL])
p("a rule set generates a function with the CLDR meaning",
  "For every rule set in the supported fragment, parsing its JSON texts, generating code and evaluating it on a number's operands gives the first category in test order whose rule the number satisfies, and OTHER if none.",
  "every rule set of the supported fragment, every exact decimal number in bounds",
  "All rule sets times all numbers; end to end.",
  [MLIB + ":gen_type_rs", GPR, GRS, PAR])
p("f32 values convert through their own shortest text",
  "Converting any f32 succeeds; a finite one shows no trailing zeros (v = w, f = t, f = 0 exactly if integral), its integer part is i unless it is integral, an integral one below 2^24 has the operands of the integer, and n is the shown decimal read as f64; for a larger f32 (2^60) i is not the value.",
  "every f32 value",
  "2^32 bit patterns, and the f32 text is read back as f64.",
  [OPS + ":impl_convert_type!"])
p("the text of a float reads back as the float and is the shortest",
  "The text through which a float is converted reads back as the same float; it is a decimal without exponent, and no decimal that reads as the float has fewer digits or a larger exponent, or is nearer to the float with the same exponent.",
  "every f64 value (reading back), every finite positive f64 or f32 (shortest)",
  "All bit patterns against all decimals.",
  [OPS + ":impl_convert_type!"])
p("decimals of up to 15 digits keep their operands as f64",
  "The f64 nearest to a decimal of at most 15 digits converts to exactly the operands of the decimal's text without trailing zeros, and so gets the CLDR category of that decimal in every locale whose rules are right on decimals.",
  "every decimal with fewer than 10^15 as digits and at most 300 fraction digits, both signs",
  "10^15 digit strings for each position of the point.",
  [OPS + ":impl_convert_type!", OPS + ":TryFrom<&str> for PluralOperands"])
p("the JSON reader accepts exactly RFC 8259",
  "An input text is read as a JSON value exactly if the grammar of RFC 8259 gives it that value, a text has at most one value, and every other text is an error.",
  "every text",
  "All texts; escapes, surrogate pairs, nesting to any depth.",
  [RES + ":parse_plurals_resource_from_string"])
p("which texts are input files",
  "parse_plurals_resource_from_string succeeds exactly on the JSON texts of the documented shape (unknown members ignored, optional fields missing or null, no field twice, _unicodeVersion required), and gives the version and the rules the text says.",
  "every text",
  "All JSON texts; missing, repeated, null and unknown members in any combination.",
  [RES + ":parse_plurals_resource_from_string", RES])
p("the output text is the generated tokens",
  "The text generate_rs returns, read by the Rust lexer, is exactly the generated token stream: no two tokens run together and none is torn apart; different token streams give different texts.",
  "every input on which the generator succeeds",
  "All rule sets; every literal and every neighbouring pair of tokens.",
  [MLIB + ":generate_rs", GRS + ":gen_fn"])
p("the output file has the fixed shape",
  "The output, read as a Rust file, consists of the lint attributes, the four imports, the rule type, CLDR_VERSION with the version number of the inputs, the langid macro, then PRS_CARDINAL if some input has cardinal data, then PRS_ORDINAL if some input has ordinal data, each with exactly the generated entries in order.",
  "every input on which the generator succeeds",
  "All inputs.",
  [GRS + ":gen_fn", GRS + ":create_pr_type", MLIB + ":generate_rs"])
p("from input texts to categories",
  "For JSON texts whose rules are in the supported fragment, generate_rs succeeds, its output text reads as a Rust file with the right version and one table per given type, the binary search finds every locale of the input in it, and its function gives the category the rules say for every number.",
  "every list of input texts in the fragment, every locale, every exact decimal number in bounds",
  "All texts times all numbers; end to end from characters to categories.",
  [MLIB + ":generate_rs", RES, GRS, GPR, PAR])
p("the shipped files agree",
  "The text of rules.rs, read as a Rust file, is the tables of the model with version 37; the texts of the shipped CLDR files are the data of the model; and the generator run on these texts gives a text that reads as the same file but for the order of two imports.",
  "the shipped files in full",
  "No test of the repository compares rules.rs with the CLDR data it was generated from.",
  [RUL, "intl_pluralrules/cldr_data", MLIB + ":generate_rs"])
p("the generator reproduces the fixtures",
  "On the texts of the input fixtures the generator gives the texts of the output fixtures letter by letter.",
  "the fixtures in full",
  "The tests run the generator; this ties the model itself to the same texts, so that the theorems about all inputs are about the program the tests run.",
  ["make_pluralrules/tests/fixtures", MLIB + ":generate_rs"])
p("the output file is written only at the end",
  "If an input cannot be read, is not UTF-8, or the generator panics, no file is changed; an error is returned only after the text was generated, and then either nothing has changed or the output file has lost what it had and holds a proper part of the text; when the program ends well with --ugly the output file is exactly the generated text and no other file has changed, even if the output is one of the inputs; without --ugly it is what rustfmt made of it, whether or not rustfmt reported success.",
  "every file system, every list of arguments",
  "All states of the file system, failing reads and writes, a missing rustfmt.",
  ["make_pluralrules/src/main.rs:main"])
p("what generated code tests, exactly",
  "For every condition (any operators, any modulus but zero, any list), the generated expression is true on the operands of a number exactly if: n % m stands for i % m; n or n % m in a range stands for i in the range, without modulus only with fraction zero, for the negated relation as well; of within only the first range counts, and not within is never true; everything else is as in UTS #35.",
  "every condition, every number",
  "All conditions times all numbers; includes the conditions on which the code is wrong.",
  [GRS + ":gen_relation", GPR])
p("what select computes, exactly",
  "On the operands of a number, select returns the first of FEW, MANY, ONE, TWO, ZERO whose generated test (in the sense of the previous property) is true for the locale's CLDR rule, and OTHER if none is.",
  "every locale of both tables, every exact decimal number in bounds, every u64",
  "All numbers; includes the numbers on which the category is wrong, and says which wrong category they get.",
  [LIB + ":PluralRules::select", RUL])
p("exactly which numbers get a wrong category",
  "The category select returns differs from the CLDR category exactly on an explicitly given set of numbers: for cardinals sets in ar, ars, be, br, kw, lt, lv, mo, mt, prg and ro, for ordinals in be, en, kk, kw, sq, sv, tk and uk; in all other locales nowhere.",
  "every locale of both tables, every exact decimal number in bounds, every u64",
  "The sets are infinite; a test can show single wrong numbers, not that all others are right.",
  [LIB + ":PluralRules::select", RUL, CJ, OJ])
p("which error a conversion gives",
  "The conversion of a text fails with \"Incorrect number passed!\" exactly if what follows one optional minus sign is no float literal, and with \"Could not convert string to integer!\" exactly if it is a float literal with a point that is not digits, point, digits, after an optional plus sign and with both numbers below 2^64; a signed integer fails exactly if it wraps to the minimum of isize, with \"Number too big\".",
  "every text, every signed integer and target width",
  "All texts.",
  [OPS])
p("texts with an exponent",
  "Digits with an exponent are accepted; two such texts that write the same number have the same operands; if the number is an integer up to 2^53 they are those of the integer; no fraction digits are ever seen, even if the number has some; an exponent after a point is an error.",
  "every digit string and exponent",
  "All digit strings and exponents; the float rounding depends only on the number written.",
  [OPS])
p("the type of the input does not matter",
  "An integer k below 2^53 has the same operands, and so the same category, whether it is given as unsigned or signed integer (k or -k), as text with any leading zeros, as text with an exponent, as f64 (k or -k) or, below 2^24, as f32.",
  "every integer below 2^53, every form, every locale",
  "All integers times all forms.",
  [OPS, LIB + ":PluralRules::select"])
p("CLDR samples have their categories",
  "Every sample number that the shipped CLDR data lists with a rule, ranges a~b included, has the category of the rule by UTS #35 (in the formal reading of the rules that the other properties use).",
  "every sample of both files",
  "Ties the specification that all other properties use to the numbers that CLDR itself lists.",
  [CJ, OJ])
p("every category is reached",
  "For every locale and every category for which the locale has a rule there is a decimal text for which select returns that category, rightly. In Belarusian, however, none of the CLDR samples of OTHER gets it.",
  "every locale and category of both tables",
  "A rule that can never hold, or is shadowed by another one, cannot be told by testing some numbers.",
  [LIB + ":PluralRules::select", RUL])
p("categories of integers repeat",
  "In every locale, integers above a bound with the same remainder by a period get the same category: bound 99 and period 100 for cardinals, except br (99, 10^6) and kw (20000, 10^6); 84 and 100 for ordinals, except it, sc, scn (800, 1) and az (0, 1000). So every u64 has the category of an integer up to 1020000.",
  "every locale, every pair of u64 values",
  "All of u64; it is what would make a finite test enough.",
  [LIB + ":PluralRules::select", RUL])
p("categories of all decimal texts",
  "For every accepted text with a point that is equal to, or at least 10^-13 away from, each integer up to 800 (10^-300 from 0), in particular for every one with at most 13 fraction digits, select returns the CLDR category unless the number is in the locale's set of wrong numbers (C66). The condition is needed: 1.00000000000000001 is ONE in Bulgarian, but OTHER by CLDR.",
  "every locale, every text sign digits point digits with both digit strings below 2^64",
  "The bound of 2^53 on all digits, up to which floats are exact, is not needed; no test can cover the rest.",
  [LIB + ":PluralRules::select", OPS, RUL])
p("categories of digit texts of any length",
  "A text of digits of any length gets the category of an integer that is an f64 and nearest to the number, or of 2^64-1 if that is larger.",
  "every locale, every digit text",
  "Digit texts of every length.",
  [LIB + ":PluralRules::select", OPS, RUL])
p("categories of all f64",
  "Every finite f64 that is no integer gets the CLDR category of the decimal number it is shown as, unless that is in the locale's set of wrong numbers (C66); every integral one gets the category of the integer, or of 2^64-1 if it is larger; so do the infinities.",
  "every locale, every f64 except NaN",
  "All 2^64 floats.",
  [LIB + ":PluralRules::select", OPS, RUL])
p("categories of all f32",
  "Every finite f32 that is no integer gets the CLDR category of the decimal number it is shown as, unless that is in the locale's set of wrong numbers (C66); every integral one gets the category of a nearest f64 integer to the digits it is shown as, or of 2^64-1 if that is larger.",
  "every locale, every finite f32",
  "All floats times all locales; the shown decimal is read again as f64, which could hit an integer.",
  [LIB + ":PluralRules::select", OPS, RUL])
p("n is rounded as IEEE 754 says",
  "The operand n of every integer, of every accepted text with a point, and of digits with or without an exponent is the f64 that roundTiesToEven of IEEE 754 gives for the absolute value: the nearest one, of two nearest the one with an even last digit, infinity from half a unit above the largest one on. There is only one such f64.",
  "every integer, every such text",
  "Ties and the limit of overflow are too rare to be hit by tests.",
  [OPS])
p("the operands of every text",
  "Exactly which texts convert and to which operands: after one minus sign that is ignored, and an optional plus sign, digits point digits (both below 2^64) give the UTS #35 operands; digits with an optional exponent, inf, infinity and nan in any case give n, its truncation to u64 as i, and no fraction; after a second minus sign only the latter forms are accepted, with n negated and i zero.",
  "every text",
  "All texts; one statement that leaves nothing open.",
  [OPS])
p("the parser and the published syntax",
  "The README calls the parser fully compliant with UTS #35. The published grammar is unambiguous and does not depend on white space. Where the rule parser accepts a text of it, it returns the rule that the grammar gives (dropping samples that have no condition); every such text with a condition and numbers that fit is accepted after changing its white space, and all rules of the shipped data as they are; beyond it, only missing lists, lists after is and is not, and unchecked text after @ without a condition are accepted. Not compliant: no text with white space before or after it is accepted, and parse_plural_condition, which the generator uses, silently drops the rest after a line break or after blanks in a range.",
  "every text, every rule",
  "Compliance is about all texts of a grammar.",
  ["/repo/README.md", PAR, PLIB])
p("the generated text does not depend on the sorting algorithm",
  "sort_unstable_by promises a sorted permutation only. Whatever algorithm it is, the generator panics on the same files, and the tables have the same identifiers in the same places; if no locale is spelt in two ways in a type, as in the shipped data, the text is the same. With two spellings it can differ.",
  "every sorting algorithm, every list of parsed input files",
  "Another version of the standard library may sort differently.",
  [MLIB])
p("the bytes of input and output",
  "An input file is read exactly if its bytes are UTF-8 as in RFC 3629, and a byte order mark at its start makes the program panic. Whatever the input files say, the output is a single line of printable ASCII, so the file has one byte per character. The program ends well exactly if all inputs are UTF-8 files from which a text can be generated, the output file can be created, there is room for the text, and rustfmt can be started or is not wanted.",
  "every file system, every list of arguments, every sequence of bytes",
  "All byte sequences, among them those that are not UTF-8, and all generated texts.",
  ["make_pluralrules/src/main.rs:main", GRS])
p("the generated text depends only on what the files say",
  "Files of the same version generate the same text if their types have the same identifiers, however these are spelt (case, hyphen or underscore) and ordered, as long as none is spelt twice, and rules of the same names with texts that are read as the same conditions: spaces, leading zeros, samples, and = / in / is or != / not in / is not make no difference.",
  "every two lists of parsed input files",
  "All respellings of all files.",
  [MLIB, GPR, PAR])
p("categories of what is no number",
  "NaN as f64, f32 or text is OTHER except in an explicit list of locales (French ONE, Russian MANY, ...); the infinities get the category of 18446744073709551615; with two minus signs before a literal without point, zero gets the category of 0 and everything else that of NaN.",
  "every locale of both types, every spelling, every literal",
  "All literals, and a list of exceptions that is complete.",
  [OPS, LIB, RUL])
p("when generated code panics",
  "On any operands (also those that no number has) the code of a condition gives a boolean or panics, and it panics exactly if it comes to a relation with modulus 0 whose modulus is not lost (it is lost for n with a list of ranges only): all and-conditions before are false and all relations before it in its and-condition are true. A generated function whose rules but that of OTHER have no such relation never panics.",
  "every condition with non-empty lists, every rule set, all operands",
  "All conditions and all operands; the shipped rules have no modulus 0.",
  [GPR, GRS])
p("categories of texts with an exponent",
  "Digits with an exponent get the category of the f64 nearest to the number they write if that is an integer (of 2^64-1 if it is larger), and of its integer part if it is not, except for listed integer parts in listed locales, whose categories are listed too: 15e-1 is ONE in English (1.5 is OTHER) and OTHER in Danish (1.5 is ONE).",
  "every locale of both types, all digits, all exponents",
  "All texts, and a list of exceptions that is complete.",
  [OPS, LIB, RUL])
p("equal operands",
  "The derived equality of operands is symmetric and transitive, and the operands of a text equal themselves unless the text is NaN. The operands of two numbers are equal exactly if these are the same number with the same fraction digits, trailing zeros included. Equal operands (n may be 0 and -0) get the same result from every generated function, panics included, and the same category from select in every locale.",
  "all operands, all texts, all numbers, every generated function, every locale",
  "All pairs of operands and all functions.",
  [OPS, LIB, GPR])
p("regenerating files",
  "On the files of the repository the commands regenerate_fixtures and regenerate_fixtures_within end well and change no file, and regenerate-data leaves what rustfmt makes of a text with the items of the shipped rules.rs. In general, running the program again after it ended well changes nothing, if the output is not an input and rustfmt changes only the file it is given; if the output is an input, the second run with --ugly panics.",
  "every file system, every list of arguments",
  "All file systems, arguments and behaviours of rustfmt.",
  ["make_pluralrules/src/main.rs:main", "make_pluralrules/.cargo/config", "intl_pluralrules/.cargo/config"])
p("number literals of generated files are in range",
  "Every number literal of a generated file is in the range of its type: those without suffix and with suffix u64 are below 2^64, those with suffix u32 below 2^32.",
  "every list of input texts for which a file is generated",
  "All files; literals that are out of range are an error of rustc.",
  [GPR, GRS, MLIB])
p("the condition that a text begins with",
  "parse_plural_condition returns the empty condition for a blank text or one that begins with @, and otherwise the longest condition at the front of the text, where the last list may be missing and where no number is cut; it does not look at the rest. It accepts exactly the blank texts and those that begin with an operand, an optional modulus and an operator.",
  "every text",
  "All texts, also those that are not rules: what the generator makes of them is decided by what it ignores.",
  [PAR, PLIB])
p("the machine that runs the generator",
  "The generator writes the same text, or panics in the same way, on a machine with narrower pointers as on one with 64 bits if the version and the numbers in the rules fit there; so the shipped data gives the same text on every machine with 20 to 64 bits. A number that does not fit is lost without an error (the rule is read up to the number, where its last list is empty, and what follows is lost too), and a version that does not fit makes the generator panic.",
  "every width up to 64, every list of parsed input files; every text for the parsers",
  "Tests run on one machine.",
  [PAR, PLIB, MLIB, GRS])
p("identifiers as texts",
  "The texts that are language identifiers are those of UTS 35 without extensions: a language, then a script or not, a region or not, and variants, with - or _ between; und is no language, and variants are kept in order and once. Texts that differ only in the case of letters and in - or _ are the same identifier, and texts of the same identifier without variants differ in nothing else. A text leads to plural rules exactly if it is, up to spelling, the name of a locale in the CLDR file, root excepted.",
  "every text, both types",
  "All texts.",
  [LIB, GRS])
p("which binary search std has does not matter",
  "std promises for binary_search_by_key an index of some match, or the place for insertion if there is none; the loops of std up to 1.51, from 1.52 and from 1.82 keep it. With any search that keeps it, create gives the same result and does not panic. In a table generated with any sorting algorithm an identifier is found exactly if it is that of a key but root, and its function is the one generated from such a key alone, also if several keys are spellings of the identifier.",
  "every search and sorting algorithm that keeps its promise, every identifier, every object of rules",
  "Tests run with one version of std.",
  [LIB, MLIB])
p("the library built with a generated file",
  "The library compiles with a generated and formatted file in the place of rules.rs exactly if the input files had both types, no key but root is an identifier without language, and no rule but OTHER has an empty condition or list or a remainder by zero that gets into the code. Then its locales are those of the keys but root, without their variants; create does not panic and fails exactly for other identifiers; and from the input files through make_pluralrules, a rustfmt that keeps the items of the file and joins its numbers, the compiled library and create, select gives every plain decimal text the category that the rules of the key say, if they are of the kinds the generator gets right. With the shipped file this is the library of the other properties.",
  "every list of input files for which a file is generated, both types, every identifier, every search that keeps the promise of std, all decimals of up to 53 bits",
  "Tests compile the library with one file.",
  [LIB, RUL, GPR, GRS, MLIB])
p("what a library computes, whatever the rules",
  "In a library compiled with any generated and formatted file, the function that create gives answers for a number with the category of the first rule, in the order of the keys, that is true on the number as the generated code reads it, and OTHER if none is. A rule counts if the third part of its key (at hyphens) is few, many, one, two or zero, whatever the other parts; of equal keys the last counts; its condition is the longest one that its text begins with; and n % m, ranges on n and within are read as in the property on what generated code tests. Numbers from 2^53 compared with n are excepted.",
  "every list of input files with which the library compiles, every rule in them, every locale, all numbers of up to 53 bits and all integers below 2^64",
  "All rules, also those that CLDR never had.",
  [GPR, GRS, MLIB, LIB])
p("layouts of generated files, and --ugly",
  "However the tokens of a generated file are laid out, with any white space between them and some where two words or symbols would run together, they are read back the same. The library compiles with the layout as with the formatted file if no number with a point has white space in it, and does not compile otherwise; such a layout exists for every generated file. The file as written, with --ugly, has blanks in these numbers (1 . 0), so the library compiles with it exactly if it would with the formatted file and no rule but OTHER compares n with a number or within; with the CLDR files of the repository it does not. The shipped rules.rs is a formatted form of the file generated from these.",
  "every list of input files for which a file is generated, every layout of its tokens",
  "Tests compare texts after rustfmt, for one input.",
  [GPR, GRS, RUL, MLIB])
p("the code on all operands",
  "What the code of every condition tests is said for all operands, also those that belong to no number: n alone is compared with the nearest float to a number of the rule, by the order of numbers and infinities, and NaN is equal to nothing; a range on n asks i, and without modulus f = 0; n with a modulus, and every within with a modulus, ask i; the other operands are compared as integers; of a within only the first range counts. On the operands of a number that fits this is what was said of numbers. The function that create gives, in a library compiled with any generated and formatted file, and in the shipped library, gives for all operands the category of the first rule that is true in this sense, and select of any text gives the category of the operands of the text, or an error if it has none.",
  "every condition and list of rules, all operands (every float, every integer), every text",
  "All operands, infinities and NaN included, and all texts.",
  [OPS, GPR, GRS, RUL, LIB])
p("the library on machines of any pointer width",
  "The operands v and w and the version number are usize. For a machine with pointers of at most 64 bits the library compiles with a generated and formatted file exactly if it does for 64 bits, the version of the input files (a negative one wraps at 64 bits) is below 2^bits, and so are the numbers that rules compare with v and w; the numbers compared with other operands do not matter, nor those of a within on v or w with a modulus. Then it is the same library, with the same tables. With the shipped file it compiles for every width from 6 bits on, and below only the version does not fit.",
  "every list of input files for which a file is generated, every formatted form of it, every width up to 64",
  "Tests run on machines of one width.",
  [OPS, RUL, GPR, GRS])
p("texts as bytes",
  "A text is a slice of bytes for the code. Cut at the byte offsets that the code computes (after one minus sign, at the first point), no text is cut inside a character, so the conversion does not panic, and what it gives, with lengths counted in bytes, is what the other properties say of characters. The loops of std for unsigned and signed integers, which check every step for overflow, accept exactly the digits (with one optional sign) whose number fits the type.",
  "every text, every width of the integer type",
  "All texts, characters of several bytes included.",
  [OPS, PAR, GRS])
p("the samples of the CLDR data through select",
  "The shipped data lists for every rule sample numbers (@integer, @decimal). Read as texts, they get from select the category of the rule that lists them, in every locale of both types, except for a stated number of samples in twelve cases (Arabic, Najdi Arabic, Belarusian, Breton, Cornish, Lithuanian, Latvian, Moldavian, Maltese, Prussian, Romanian; Cornish ordinals), where the category is another. The samples are those written in the data, with their ranges.",
  "every locale of the data, both types, every sample, every text of it",
  "The tests of the repository check a few numbers in a few locales.",
  [LIB, OPS, RUL, CJ, OJ])
p("fourteen texts tell all locales apart",
  "Two locales, of the same or of different types, for which select gives the same answers on the texts 2, 0.00, 1.1, 3.0, 1.0, 81, 0.05, 54, 11, 5, 0.01, 10.0, 6 and 1 get the same answers for all operands and so all inputs. They get the same answers for all texts exactly if they have the same code, or one has the code of French (i == 0 || i == 1) and the other that of Portuguese (i in 0..=1).",
  "every two locales of the tables, both types, all operands, every text",
  "Agreement on all inputs cannot be tested; here fourteen are proved to be enough.",
  [LIB, RUL, OPS])
p("the conversion whatever f64::from_str does",
  "If f64::from_str refuses some of the texts that it reads now (as before Rust 1.55), the conversion of a text gives the same as now, or the error for texts that are no numbers, exactly if it refuses. Of a text with a point only n depends on how floats are read: two readings that accept it give the same other operands, or the same error. If the reading tells the integers up to 800 from all other numbers, however it rounds, then every decimal number with a point whose parts are below 2^64 gets its CLDR category from select, except the wrong numbers of the generator, with no limit on the digits: where the shipped library is wrong beyond these, it is by the rounding of n.",
  "every function in the place of f64::from_str with the stated promise, every text, every locale, both types",
  "Tests run with one version of std.",
  [OPS, RUL, LIB])
p("which operands matter in which locale",
  "In a locale the answer of select depends on an operand (there are operands that differ in it alone and get different categories) exactly if the code of one of the relations in the CLDR rules of the locale reads it: the operand of the relation, but i for n with a modulus, and i and f for a range on n without. The one exception is f in the ordinals of Cornish, where the lost modulus of another relation makes the test of f redundant. No locale depends on w.",
  "every locale of both types, every operand, all operands",
  "That the answer does not depend on an operand is a statement on all pairs of operands.",
  [RUL, LIB, GPR, CJ, OJ])
p("what the lookup of a locale reads",
  "In a table of less than 2^k entries the binary search compares at most k of them with the identifier, or k + 1 with the loop of std before 1.52 and since 1.82, and only entries of the table, which std reads without a check; so create compares at most 8 (9) cardinal and 7 (8) ordinal entries, for every identifier.",
  "every table, sorted or not, and every identifier",
  "All tables; a read out of bounds need not show in a test.",
  [LIB])
p("updates of the data",
  "What a library does for a locale depends on the rules of the locale alone, and of these only on the names and conditions of the tested rules: two libraries compiled with files generated from any data give the same answers for it if these agree, whatever else is in the data; and a locale is found exactly if the data has rules for it. With the file generated from the CLDR 33 fixtures the library compiles, has all shipped locales but 9 cardinal and 5 ordinal ones, and bh; it gives the same answers as the shipped library for all values and common locales, but for cardinals of kw, mo, mr and ro, where answers differ; for mo and ro no decimal number has another answer, although the rules changed for 101, because the code loses the modulus.",
  "every two lists of input files with which the library compiles, every locale, all values; every formatted form of the fixture",
  "All data, and all values; the tests compare the generated text only.",
  [MLIB, GPR, GRS, LIB])
p("the parser takes linear time",
  "With the steps of the primitive parsers counted, failed attempts included, the parser takes at most 174 steps for each character of a rule and for its end, and 86 if only the condition is read: no text makes it go back over the input again and again. The parser with its steps counted gives the results of the parser.",
  "every text, read or refused; every width of usize",
  "A text that takes long need not be among the tested ones; the bound is for all texts.",
  [PAR, PLIB])
p("codes for one language",
  "The old and the new code of a language (iw and he, in and id, ji and yi, jw and jv, mo and ro, tl and fil), and sh and its members sr, hr and bs, are both listed or both not listed and get the same answers for all inputs, for cardinal and ordinal numbers. Norwegian (no), Bokmål (nb) and Nynorsk (nn) get the same answers for cardinal numbers, but create fails for the ordinals of no and nn. Every locale with ordinal rules has cardinal rules.",
  "all the pairs, both types, every input; every identifier",
  "Equal answers are a statement on all inputs; a locale that is missing in one table shows only in a test with that locale.",
  [LIB, RUL])
p("the cast of a float to u64",
  "For a text without a point the conversion casts n to u64, which Rust promises to truncate only if the result is a u64 (before 1.45 the cast is undefined behaviour otherwise). With every cast that keeps this promise the conversion of a text is the same exactly if the text is none of these: a word (inf, infinity, nan), with signs; a number from 2^64 - 2^10 on without a point, so also 18446744073709551615; after two minus signs a number from 1 - 2^-54 on. An f64 converts the same exactly if it is finite and its magnitude is below 2^64, an f32 exactly if it is finite and its magnitude is at most 2^64. Whatever the cast does, it changes the operand i only.",
  "every text, every f32 and f64, every function in the place of the cast",
  "Undefined behaviour need not show in a test; all texts and floats.",
  [OPS])
p("integer and decimal samples",
  "A category that has a rule is got by some integer exactly if the CLDR data lists integer samples for it; the one exception is OTHER of the cardinals of be, which has no integer samples and is got by integers. A category of the cardinals whose rule has decimal samples is got by a number with a fraction, and one whose rule has none is got by no operands with fraction digits, whatever the other operands are.",
  "every locale, both types for integers and cardinals for decimals, every category with a rule, all integers below 2^64 and all operands with fraction digits",
  "That no input gets a category is a statement on all inputs.",
  [LIB, RUL, CJ, OJ])
p("telling locales apart",
  "Two locales get the same answers for all inputs exactly if every number has the same CLDR category in both: the errors of the generated code neither merge locales with different rules nor separate locales with the same rules (French and Portuguese, whose conditions are written differently, are the same). Two locales that get the same answers for the ten numbers 0, 0.1, 0.2, 1, 1.0, 1.1, 2, 2.0, 7, 21 (for ordinals the nine 1, 2, 3, 4, 5, 6, 9, 10, 11) get the same answers for all inputs.",
  "every two locales of a type, all inputs and all numbers",
  "Equal answers are a statement on all inputs; the tests compare no two locales.",
  [LIB, RUL, CJ, OJ])
p("what the unchecked constructors are given",
  "Generated files build identifiers with constructors that do not check their arguments. Wherever a generated file calls from_raw_unchecked, whatever input files it is made from, the argument is an integer of the type of that constructor whose bytes are, lowest first, the characters of a well-formed subtag of that kind in its normal letter case (a language of 2, 3 or 5 to 8 letters other than und, a script of 4 letters, a region of 2 letters or 3 digits). It has one unsafe block, with one call of from_raw_parts_unchecked. The same holds for the integers in the shipped rules.rs.",
  "every list of input files for which the generator writes a file; every call in it",
  "An unchecked constructor gives no error for a wrong argument; a key with an odd subtag shows only if it is in a test.",
  [GRS, RUL, MLIB])
p("where the rounding of n matters",
  "Of the operands of a text with a point only n is not exact. n is equal to an integer k below 2^52 exactly if the number is at most half of the distance to the next float away from k: for 0 up to 2^-1075, for other k with 2^e <= k < 2^(e+1) up to k + 2^(e-53) and down to k - 2^(e-53), or k - 2^(e-54) if k = 2^e. A number whose n equals no integer up to 800, or only the number itself, gets its CLDR category, except the wrong numbers of the generator. In a locale where n does not matter all numbers do, however many digits they have. The rounding makes a category wrong, of some number that the generator gets right, exactly in the locales where n matters, except the cardinals of br, da, mo, ro and the ordinals of kk, kw.",
  "every text with digits on both sides of a point that write numbers below 2^64, every locale, both types",
  "The intervals are about 2^-53 wide; a test does not hit them by chance, and that a locale is not affected is a statement on all texts.",
  [OPS, LIB, RUL, CJ, OJ])
p("where the rounding of large integers matters",
  "A text of digits is read as an f64, so its operand i is rounded from 2^53 on, which the integer as a u64 is not. In a locale and type, some text of digits below 2^64 gets another category than the same integer as a u64 exactly if the integers from 2^53 on do not all get the same category; then one of the integers between 2^53 and 2^53 + 30 shows it. These are the locales and types with a CLDR rule that has a relation on i, or on n with a single value in its list, with a modulus (Russian: 9007199254741001 is ONE as a u64 and MANY as a text).",
  "every locale, both types, every text of digits that writes a number below 2^64",
  "That no text of a locale is affected is a statement on all texts; tests do not use integers of sixteen digits.",
  [OPS, LIB, RUL, CJ, OJ])
p("what a library computes for long texts",
  "In the library compiled with a generated file, whatever its rules are, a function gives for the operands of a number, and select for its text with a point and any number of digits, the category of the first rule, in the order of keys, that is true as the code reads it, if each integer that the rules compare n with is below 2^52 and the number is not rounded to it, or is that integer. Numbers with more digits than a float holds are included; so are all numbers if no rule compares n.",
  "every list of input files for which the generator writes a file that compiles, every locale in it, all operands of numbers and all texts with digits on both sides of a point that write numbers below 2^64",
  "Rules that the program gets are not known; texts with many digits are rarely tested.",
  [OPS, LIB, GPR, GRS, MLIB])
p("rules written in another way",
  "The order of the alternatives of a condition, of the relations in an alternative and of the items of a list (but for within), and repetitions of these, do not matter: the generated code has the same value on all operands, and libraries generated from rules that differ so give the same answers. For operands but n a list may also be replaced by any with the same integers, such as a range by its values, and for n without modulus and negation too, on all numbers. In the other cases, n with a modulus or negated, a range lo..hi written out as its values always has code with another value on some number.",
  "all conditions that compile, all operands or numbers; every operand, modulus, operator but within, and range (on numbers: with constants below 2^53)",
  "That two rules give the same code on all operands, and that each of the other rewritings fails, is about all rules.",
  [GPR, GRS, LIB])
p("every rule has a form that the generator gets right",
  "Each relation on n can be replaced by relations on i and f, and each within by =, so that the condition is true of the same numbers; only conditions with an empty list or a modulus zero are left out. The code generated for the new condition is right for every number, whatever n was rounded to. With rules whose texts are rewritten so, the library compiles even with the generated file as written (--ugly), and answers for every number whose i, v, w, f and t it is given what the original rules say; with the CLDR data of the repository so rewritten it has the same locales and answers the CLDR category of every such number. Every data is said by some JSON file, so there are such files.",
  "all conditions with lists that are not empty and moduli that are not zero, all numbers; every list of input files whose data are rewritten so; every locale, both types",
  "That rewritten rules mean the same, and that the code is right, is about all numbers and all rules; the shipped rules are wrong for numbers that tests do not reach.",
  [GPR, GRS, MLIB, LIB, RES, CJ, OJ])
p("finitely many numbers are enough to test any rules",
  "Take a K that no number in the lists of a rule is above, and an M > 0 that all its moduli divide. What the rule says of a number, and what its code does with it, depend on each of i, v, w, f, t only as far as it is the same up to K and has the same remainder by M above K. Every number is alike in this sense to one with an integer part up to K + M and fewer than (K + M + 1)^4 fraction digits. So these finitely many numbers decide whether the code of a rule is right on all numbers, and whether two rules mean the same. In a library compiled with a generated file, every u64 gets the category of an integer up to K + M, and it is right on all u64 if it is right on these.",
  "all conditions, all K and M as above, all numbers; every list of input files for which the generator writes a file that compiles, every locale in it, every u64 (K below 2^53)",
  "It is what tells which tests are enough: that a finite set of tests decides about all numbers cannot itself be tested.",
  [GPR, GRS, MLIB, LIB, OPS])
p("which tests in rules.rs are needless",
  "The functions of the tables consist of 355 tests (comparisons and contains), in 59 functions. Replacing a single one by true or by false never changes an answer of select, for any text, integer or float, in these cases, and for every other replacement one of a list of 67 texts gets another answer. Cardinals: be !(12..=14).contains(i) and lt !(11..=19).contains(i) in FEW; ceb, fil, tl each test of v == 0 && (i == 1 || i == 2 || i == 3); v == 0 in ONE of cs, sk, mo, ro, in ONE and TWO of gv, in FEW, ONE and TWO of sl; he, iw f == 0 in MANY; is t == 0; kw n != 0.0 in TWO; lv, prg the first v == 2 in ONE; pl (0..=1).contains(i % 10) in MANY and i == 1 in ONE; ru, uk i % 10 == 1 and i % 100 != 11 in ONE. Ordinals: kw (1..=4).contains(i) && f == 0 in ONE.",
  "every locale, both types, every test of its function, both values; every text, unsigned and signed integer and float",
  "That a test can be left out is a statement on all inputs; that the others are needed makes the list complete. A test suite can show at most the second.",
  [RUL, LIB, OPS])
p("where the order of the conditions matters",
  "The functions in rules.rs test their conditions in the order few, many, one, two, zero of the keys. In which order they are tested matters, for some text, exactly in the cardinals of lt, lv and prg and the ordinals of kw; in all other locales every order gives the same answer for every text. The pairs of conditions that are true of one text are: FEW and MANY (2.1), MANY and ONE (1.1) of lt, ONE and ZERO (0.1) of lv and prg, and MANY and ONE of kw (4.9999999999999999999, whose n is rounded to 5). For integers the order matters in no locale. (By CLDR no two conditions are true of one number, C25.)",
  "every locale, both types, every order of the conditions, every text; every integer",
  "That an order never matters is about all texts and all orders; the overlaps come from lost moduli and rounding, where nobody looks.",
  [RUL, LIB, GRS, MLIB])
p("which numbers in rules.rs are pinned down by its answers",
  "The tests in the 59 functions of the tables have 560 numbers: values, bounds of ranges, and moduli. "
  "For 490 of them any other number in the same place, however large, changes the answer of select for some text (a panic, as by % 0, is another answer): for one of a list of 156 texts, or, for "
  "the first v == 0 of ceb, fil and tl, for 1.0…04 with as many fraction digits as the new number. The other 70 have another number in whose place "
  "every text, integer and float gets the same answer. These are in the cardinals: MANY of ar, ars the 11 of 11..=99; be both bounds of 12..=14 (FEW) and 5..=9, and "
  "the 11 of 11..=14 (MANY); br all bounds of 10..=19, 70..=79, 90..=99 (FEW); bs, hr, sh, sr both bounds of 12..=14 of i and of f; ceb, fil, tl the 1, 2, 3; "
  "ga the 7 of 7..=10; he, iw the 10 of 0..=10; kw both bounds of 1000..=20000 and the 0 of n != 0.0 in TWO; lt the bounds of both 11..=19; lv, prg "
  "both bounds of 11..=19 of i; mt the 11 of 11..=19; pl both bounds of each 12..=14 and of 5..=9, and the 1 of 0..=1; ru, uk both bounds of 12..=14, "
  "5..=9 and 11..=14 and the 11 of i % 100 != 11; in the ordinals of kw, both bounds of the first 1..=4, the 4 of the second, and the 0 of f == 0; "
  "and the moduli of, in the cardinals: ceb, fil, tl i % 10 != 4 and f % 10 != 4 (could be 5); gv i % 100 == 0 (20); kw i % 100 == 1, == 2, == 3 (20); "
  "lv, prg both f % 100 (200); pl i % 10 in 0..=1 (5) and i % 100 in 12..=14 in MANY (20); ru, uk i % 10 == 0, i % 10 == 1 (5) and i % 100 != 11 (10); in the ordinals of "
  "az i % 1000 == 100, 200, 300, 400 (500), i % 100 == 40, == 20 (50), i % 10 == 1, == 2 (5).",
  "for all locales of the tables, all places of a number in their functions, all other numbers, and all texts, integers and floats",
  "A test set that finds a changed number is itself only tested on the changes one thinks of; here any number at all may stand in the place. That no input at "
  "all shows a change cannot be tested.",
  [RUL, LIB, OPS])

p("slips in one place of rules.rs",
  "In the 59 functions of the tables there are 3258 slips in one place: a negated test, && for || or || for &&, another operand in a test (n only where it would compile), another "
  "category of a condition or of the last else, a condition left out. 3154 of them change the answer of select for one of a list of 84 texts; the other 104 "
  "change it for no text, integer or float. Of all but the operands only three are harmless: the two || between i == 1, i == 2, i == 3 of ceb, fil, tl, and "
  "f == 0 negated in the ordinals of kw. The 101 harmless operands are: w, f and t for each other in f == 0, f != 0, t == 0 and t != 0; w, f, t for v in each v == 0 that is needless or stands beside its "
  "fraction (cs, sk, mo, ro ONE; gv ONE, TWO; sl all; ceb, fil, tl); v for f in f == 0 of he, iw; t for f in the f % 100 tests of bs, hr, sh, sr, of lv, prg and of mk; w for v in v == 2, v != 2 of lv, prg; i for n in n != 0 of kw and in n == 0 of "
  "lag; any but n for i in i % 10 in 0..=1 of pl and in i % 100 != 11 of ru, uk; any in the first four tests of ceb, fil, tl; and in the ordinals of kw any in f == 0 and w, f, t in the 1..=4 before it.",
  "for all locales of the tables, all slips of these kinds, and all texts, integers and floats",
  "Mutation testing shows that a test set finds some slips; that a slip is found by no input at all, so that a surviving mutant is no gap in the tests, cannot be tested.",
  [RUL, LIB, OPS])

p("which operands occur",
  "The operands of texts are exactly these: without fraction digits (v, w, f, t zero) any f64 is n, negative numbers, infinities and NaN included, and i is n cut off to a u64; with v > 0 fraction digits "
  "i and f are any numbers below 2^64 with f < 10^v, w and t are v and f without the zeros at the end, and n is the number i + f / 10^v rounded as IEEE 754 says. So in the first case n determines all operands, in the second i, v and f do; two texts with fraction digits have the same operands exactly if they differ in zeros in front and ignored signs. "
  "The operands of u64 integers are any i below 2^64 with n rounded from it and no fraction; a text has the same operands exactly if the integer is an f64 (below 2^53 times a power of two) or u64::MAX. Two f64 have the same operands exactly if they differ at most in the sign, and an f64 has those of a decimal with a fraction exactly if it is shown as that decimal.",
  "for all operands; for all texts; for all u64",
  "That operands cannot occur is a statement about all texts; that all others do occur needs a text for each.",
  [OPS])

out = os.path.join(os.path.dirname(os.path.abspath(__file__)), "..", "properties.jsonl")
with open(out, "w") as fh:
    for d in P:
        fh.write(json.dumps(d, ensure_ascii=False) + "\n")
print(len(P))
for d in P: print(d["id"], d["title"])
