# A Lean 4 model of zbraniecki/pluralrules

The source is in /repo (read as text, never run).  The model is in `lean/Verif`, the properties in `properties.jsonl`, the
theorems for each property in `MANIFEST.json`.

## What is modelled

All three crates of the workspace, function by function: texts are `List Char` (Rust `&str`), integers `Nat` with explicit bounds
(`u64`, `usize`), `Result` is `Except`, and a panic is `none`.  Each definition cites the lines it models.

| module (lean/Verif/…) | models |
|---|---|
| `Chars` | `char::is_whitespace`, `str::trim`, `u64/usize/isize::from_str` (std) |
| `Nom` | the nom 5 combinators used by the parser (dependency) |
| `Ast`, `Parser` | `cldr_pluralrules_parser/src/{ast,parser,lib}.rs` |
| `AnyCast` | operands.rs:73-122 and 168-181 over any function in the place of `as u64` |
| `ParserSteps` | parser.rs again, with the steps of the primitive parsers counted |
| `F64` | binary64/binary32 values, nearest-even rounding of rationals, `f64::from_str`, `as u64`, comparison (std) |
| `FloatDisplay` | `Display` of f64 and f32: shortest digits that read back, nearest among them (std) |
| `ByteText` | `TryFrom<&str>` of operands.rs again, on bytes, with the loops of std for integers |
| `AnyRead` | the same, with any function in the place of `f64::from_str` |
| `Operands`, `Equality` | `intl_pluralrules/src/operands.rs`; its derived `PartialEq` |
| `Rust` | the fragment of Rust that generated code uses: lexer, tokens, precedence parser, types, evaluation with panics |
| `GenPr`, `GenRs`, `Generate` | `make_pluralrules/src/parser/{gen_pr,gen_rs,plural_category}.rs`, `make_pluralrules/src/lib.rs` |
| `Json`, `Resource` | `serde_json` reading (dependency), `make_pluralrules/src/parser/resource.rs` with its derived `Deserialize` |
| `Main`, `Utf8` | `make_pluralrules/src/main.rs`, over an arbitrary file system of bytes; UTF-8 as std reads and writes it |
| `LangId` | `unic_langid::LanguageIdentifier` (dependency): parsing, order, raw integer form |
| `RulesRead`, `FileRead` | what a table entry, and a whole generated file, says as Rust code |
| `AnySort`, `HostWidth` | `make_pluralrules/src/lib.rs` again, with any sorting algorithm; with any width of `usize` on the machine that runs it |
| `AnySearch` | `PluralRules::create` again, with any search; `binary_search_by_key` of other versions of std |
| `SearchTrace` | the loops of `binary_search_by_key` again, with the indices at which they read |
| `Library` | `PluralRules::create` and `get_locales` again, with any text in the place of `rules.rs`; what rustc asks of that text |
| `TargetWidth` | the same for a target with any width of `usize` |
| `RulesTable`, `RulesText` | `intl_pluralrules/src/rules.rs`: as data, and its text verbatim |
| `CldrData`, `CldrText` | `intl_pluralrules/cldr_data/*.json`: as data, and their texts verbatim |
| `Fixtures` | `make_pluralrules/tests/fixtures`, verbatim |
| `Api` | `intl_pluralrules/src/lib.rs` |

`tools/gen_tables.py` writes the data modules from /repo.  It is not trusted for the tables: `C61` proves in Lean that the data is
what the verbatim texts say.  That the texts are verbatim is trusted (compare with /repo).

Specifications, apart from the model: `Uts35` (operands and meaning of rules on exact decimals, rational numbers), `Spec` (digit
texts, order of identifiers, float literals), `Intended`
(which relations the generator gets right), `Actual` (what the generated code tests for any relation, on numbers), `OnOperands` (the same on operands), `Grammar` (the rule grammar as relations, and a printer), `Conditions`
(the condition that a text begins with), `InputSpec` (JSON objects as
last-wins maps, versions, identifiers that fit an entry), `JsonSpec` (RFC 8259), `ResourceSpec` (shape of an input file),
`IeeeSpec` (rounding by IEEE 754, roundTiesToEven), `UtsSyntax` (the published EBNF of plural rules, with its own white space),
`IdSpec` (texts of identifiers), `Layout` (tokens with white space between them).

## Simplifications, and what is not modelled

* Dependencies are modelled from their documented behaviour; their sources are not in /repo: nom 5, serde and serde_json,
  unic-langid, quote/proc_macro2 (`TokenStream::to_string`), std.  `C62` ties quote, serde_json and unic-langid to the fixtures.
* `unic_langid` parsing covers language, script, region and variants as in its version for this commit, with `_` and `-` as
  separators and case normalisation; extensions (`-u-`, `-x-`) are an error.
* `1 . 0` in the generated text becomes the literal `1.0` only when rustfmt joins it; the token parser of the model reads both, so
  that theorems on generated tokens (C21, C39, C60 and others) are about the joined text.  `Library.build` tells them apart (C95).
* Recursion limits, memory and stack are unbounded.  `serde_json` has a depth limit that can matter only inside ignored members.
* `sort_unstable_by` on entries with equal identifiers (two spellings of one locale in a file) is taken as stable in `Generate`;
  theorems that depend on it assume distinct identifiers.  `AnySort` has the algorithm as a parameter (C80).
* What rustc refuses is modelled as no reading (`RulesRead`, `FileRead`), no type (`Rust`), and in `Library` literals out of range,
  numbers torn at their point, missing or repeated names, and the remainder by a literal 0.  Elsewhere (C84) such a remainder panics when it is reached.
* The command line (`clap`) is not modelled; `Main.run` takes the arguments.  Writing fails after some number of bytes.
* `TryFrom<String>` is the same macro text as `TryFrom<&str>` and is modelled once.
* The tests, doc tests and benchmarks of /repo are examples in `Props/RepoTests` (all pass on the model).  The `#[derive]`d `Debug`, `Clone`, `Hash` are not.
* Operands of `usize`/`isize` depend on the target: the width is a parameter (C09 fixes 64, C10 is for every width).  The machine
  that runs the generator has 64-bit pointers, except in C90; the target of the library too, except in C97.

## Findings

Each has a theorem or an example in `lean/Verif/Props`.

* Rules that compare `n % m` with a range lose the modulus: integers get wrong categories in the cardinals of ar, ars, be, br, kw,
  lt, lv, mo, mt, prg, ro and the ordinals of kw (C22, C39).
* `n % m` is computed on `i`, so fractions are treated as their integer part: on decimals also the ordinals of be, en, kk, kw,
  sq, sv, tk, uk are wrong (C23, C39).  C66 gives the exact set of wrong numbers of each locale.
* `n not in a..b` adds `&& f == 0`, so it is false on fractions (C39).  `not within` is a test that is always false; `within`
  without a range panics; further ranges of `within` are ignored; with a modulus it uses `i` (C40).
  Written with `i` and `f` instead of `n` in the data, all rules are right on all numbers (C115).
* Integer strings above 2^53 pass through f64: `i` is wrong for every odd number above 2^53, and saturates from 2^64 (C12).
  2^64 - 1 is right by saturation.  So the text "9007199254741001" is MANY in Russian and the integer is ONE (C112).  f32 2^60 has i = 1152921500000000000 (C53).
* "1.0000000000000000001" has n == 1.0 (C19), so "1.00000000000000001" is ONE in Bulgarian (C73), and "0.99999999999999999" too (C96).  "--5" has n = -5 and i = 0; "inf" and "NaN" are accepted (C18).
* "15e-1" has no fraction digits, although it writes 1.5, and is ONE in English (C85); "1.5e0" is an error (C68).  In Belarusian no CLDR sample of OTHER gets
  OTHER (C71), and integers do although CLDR has no integer samples of it (C108); 190 cardinal samples in eleven locales and two ordinal ones get another category than CLDR lists (C99).
* `i =` parses with an empty list, for which the generated code is no expression (C35, C42).
* A rule of samples only drops the samples and does not check them (C33).  `parse_plural_condition` ignores any text that follows
  (C31).  Samples 1.0 and 1.00 have the same AST.
* `parse_plural_condition` takes the longest condition that the text begins with: `n = 99999999999999999999` has an empty list,
  `n is nothing` is `is not` with an empty list, and `n = 1 or oops` is `n = 1` (C89).
* `no` and `nn` have no ordinal rules although `nb` has: `create` fails for them (C106).
* Before Rust 1.45 the conversion of texts such as `18446744073709551615`, `inf` and `--1`, and of floats from 2^64 on, is undefined
  behaviour, since it casts a float that is out of range (C107).
* On a 32-bit machine the generator loses numbers from 2^32 in rules without an error (C90).
* The README calls the parser fully compliant with UTS #35.  White space at the ends is rejected, white space other than blanks and
  tabs and some published spellings (`n%10=1`) too; `parse_plural_condition`, used by the generator, reads `n = 1 .. 5` as `n = 1`
  and drops what follows a line break (C79).
* A file written with `--ugly` does not compile if a rule compares `n` with a number, since `1 . 0` is a field of an integer for rustc;
  so it is with the CLDR files of the repository.  Without `--ugly` all depends on rustfmt joining these numbers (C95).
* A rules file generated from one type only does not compile with lib.rs, which uses both tables (C93).
* The identifier `und` generates `None` where a subtag is needed; variants are lost (C51, C59).
* A version with a point ("35.1") panics (C47); a negative version becomes a huge `usize` (C59).
* Input files may give arrays in place of objects; `_unicodeVersion` is required although unused (C57).
* The test `different_version_test` of make_pluralrules panics already because its types are misspelt (and "test" is no language
  subtag), so it does not test the versions (`Props/RepoTests`).
* An output file that is also an input is overwritten, and the next run panics (C87).
* `main` does not look at the exit status of rustfmt; when writing fails, the old output is lost (C63).  An input
  file with a byte order mark makes it panic (C81).
* NaN, and everything but zero with two minus signs (`"--5"`), is not OTHER everywhere: it is ONE in
  French, MANY in Russian and so on; the list is complete (C83).
* The test of `f` in the ordinals of Cornish never decides, since another test has lost its modulus; no locale uses `w` (C102).
  In the cardinals of be and lt `!(12..=14)` and `!(11..=19)` never decide for the same reason; all needless tests of rules.rs are listed in C117.
* In the cardinals of lt, lv and prg two conditions of rules.rs are true of one number, so that the order of the keys decides (2.1 in Lithuanian); by CLDR they exclude each other (C118).
* 70 of the 560 numbers in the tests of rules.rs could be another number without a change of any answer; for the others a list of 156 texts finds every change, but for one (C119).
* 104 of 3258 slips in one place of rules.rs (negated tests, && for ||, other operands or categories) change no answer; a list of 84 texts finds all others (C120).
* An integer from 2^53 on that is no f64, other than u64::MAX, has operands that no text has (C121).
* From CLDR 33 to 37 the rules for Romanian changed for 101; the code gives the same answers for all decimal numbers, since both rules
  lose their modulus (C104).
* The generated text depends only on the identifiers, the names of the rules and the conditions,
  not on their spelling, order or samples (C82).
* A rule with modulus 0 is not rejected: its function panics when it gets there (C84).  (rustc rejects a remainder by a literal
  zero by a lint that is on by default: C93.)

## Properties

What is proved for each, and how.  All are proved in full for the statement in `properties.jsonl`, where a statement says that the
code is wrong on some inputs the theorems include that.

<!-- properties -->
* **C01** create accepts exactly the listed locales (proved: `C01_create_iff_listed`).  Binary search over a strictly sorted list finds exactly the members (general lemma); the tables are sorted (kernel evaluation over the whole table), lifted to every identifier.
* **C02** create selects that locale's own rule and remembers the locale (proved: `C02_create_own_rule`, `C02_select_own_rule`).  From the binary-search lemma: the index found is the index of the identifier, and create keeps both.
* **C03** get_locales has no duplicates and is in identifier order (proved: `C03_getLocales_sorted`, `C03_before_order`, `C03_getLocales_nodup`).  Before is a written-out order on identifiers, shown to be a strict total order; sortedness of both tables by kernel evaluation.
* **C04** create does not fall back (proved: `C04_no_fallback`, `C04_region_not_dropped`).  Every listed identifier is checked for script, region and variants (kernel evaluation); then C01 excludes all others, for every identifier.
* **C05** select never panics and is total on operands (proved: `C05_select_total`, `C05_tables_type_check`).  Evaluation of a well-typed expression without zero moduli cannot fail (structural induction); the type check of all shipped functions is evaluated in the kernel.
* **C06** select fails exactly when the operand conversion fails (proved: `C06_select_error_iff`).  Case analysis on the conversion, with C05 for totality.
* **C07** select returns only categories the locale declares (proved: `C07_select_declared`).  The categories a function can return are its arms and OTHER; that each is declared in the CLDR data is evaluated in the kernel over all entries.
* **C08** unsigned integers give exact operands (proved: `C08_unsigned`, `C08_operands`).  Rounding of integers to f64 is exact below 2^53; monotone above.
* **C09** signed integers are taken by absolute value (proved: `C09_signed`).  Case analysis with the width fixed to 64.
* **C10** signed conversion on every pointer width (proved: `C10_signed`, `C10_fits`, `C10_wrong`, `C10_minimum`).  The width is a parameter; two's complement by integer arithmetic modulo 2^W.
* **C11** decimal strings with a fraction give the UTS #35 operands (proved: `C11_decimal`).  Induction over digit lists: the text conversion is the UTS #35 operands of the decimal; n by the rounding function on rationals.
* **C12** integer strings give the operands of that integer (proved: `C12_integer`, `C12_i_iff`, `C12_odd_wrong`, `C12_saturates`).  Integers up to 2^53 are exact; above, i is the rounded value, and the exact condition for i to be right is proved; odd integers above 2^53 are always wrong; saturation from 2^64.
* **C13** a leading minus sign does not change operands (proved: `C13_minus`, `C13_select`).  The code strips one leading minus before anything else.
* **C14** leading zeros do not change operands (proved: `C14_decimal`, `C14_integer`).  Digit-list induction.
* **C15** trailing fraction zeros are visible only in v and f (proved: `C15_trailing_zeros`).  Digit-list induction; failure exactly on u64 overflow.
* **C16** operands are consistent with each other (proved: `C16_consistent`).  From the characterisation of accepted strings (C17) and digit-list arithmetic.
* **C17** exactly which strings are accepted (proved: `C17_accepted_iff`).  Both directions, against a separate grammar of float literals.
* **C18** special strings and a second minus sign (proved: `C18_infinity`, `C18_nan`, `C18_two_minus`, `C18_minus_plus`, `C18_two_minus_point`).  Evaluation of the model on the written forms, for all digit strings after the signs.
* **C19** n equals an integer constant exactly when the number does (proved: `C19_equals_constant`).  Rounding of a quotient of integers below 2^53 hits an integer only if the quotient is that integer; the bound on fraction digits keeps the divisor in range.
* **C20** floats convert without error (proved: `C20_special`, `C20_succeeds`, `C20_finite`, `C20_integral`).  Shortest-text display of floats is modelled; at most 17 digits are shown, so both parts fit in u64; trailing zeros never shown.
* **C21** the shipped tables are what the generator makes of the shipped CLDR data (proved: `C21_table_is_text`, `C21_table_is_generated`, `C21_locales_are_keys`, `C21_version`).  The text of rules.rs is read as Rust code and is the table of the model; the generator is evaluated on the whole CLDR data in the kernel and gives the same table.
* **C22** integers get the CLDR category (proved: `C22_integers`, `C22_signed`, `C22_exceptions_wrong`).  General theorem (code right on the supported fragment for integers) plus a static check of every locale in the kernel; the excluded locales are listed, each with a number that gets a wrong category.
* **C23** decimal strings get the CLDR category (proved: `C23_decimals`, `C23_exceptions_wrong`).  The same for decimals of any length within the operand bounds.
* **C24** every locale is right on single digits (proved: `C24_digits`, `C24_zeros`).  The quantifier is finite (digits 0-9 times locales); C24_zeros extends it to any number of leading zeros and to fraction zeros.
* **C25** CLDR categories of a locale exclude each other (proved: `C25_exclusive`, `C25_unique`).  An interval argument on moduli: rules of two categories of a locale contradict each other on residues, checked for each pair and lifted to all numbers.
* **C26** visible-digit locales see trailing zeros, others do not (proved: `C26_blind`, `C26_visible`, `C26_rules`).  Rules without v, w, f, t give the same value for d and d with zeros appended; the list of such locales is evaluated; witnesses for the others.
* **C27** parser soundness (proved: `C27_sound`).  Soundness of every parser function against the inductive grammar.
* **C28** parser completeness and round trip (proved: `C28_round_trip`).  The printed text is in the grammar, and C29 gives the rest.
* **C29** spacing does not matter where the grammar allows it (proved: `C29_complete`, `C29_relation`, `C29_same`).  Completeness of every parser function for every text of the grammar.
* **C30** parse_plural_rule reports leftover text (proved: `C30_failed_iff`, `C30_leftover`, `C30_exact`).  Exact characterisation of both errors; the left text is the true suffix.
* **C31** the two parsing entry points agree (proved: `C31_agree`, `C31_ignores`).  Both entry points in terms of the same prefix parser.
* **C32** samples never influence the condition (proved: `C32_samples`).  From C27 and C29: the condition is read before the samples and does not depend on them.
* **C33** empty and sample-only rules (proved: `C33_empty`, `C33_only`).  Evaluation of the first branch for every text.
* **C34** numbers in rules are exact or rejected (proved: `C34_numbers`, `C34_too_large`).  The number parser returns the value of the digits read, or nothing from 2^64 on.
* **C35** parsed ASTs are well-formed (proved: `C35_shape`, `C35_nonempty`, `C35_empty_list`).  By the shape of the parser results; the empty list is exhibited.
* **C36** and binds tighter than or (proved: `C36_precedence`).  By C29 on the composed text and the semantics.
* **C37** parsing is deterministic on the grammar (proved: `C37_deterministic`, `C37_injective`).  From C27/C28: two readings of one text give the same AST.
* **C38** generated conditions mean what the rule means (operands other than n) (proved: `C38_condition_correct`).  Per relation: tokens, expression, value; lists by induction; against the semantics on exact rationals.
* **C39** generated conditions on n (proved: `C39_right_for_all`, `C39_right_for_integers`, `C39_range_with_modulus_wrong`, `C39_negated_range_wrong`, `C39_modulus_on_fractions_wrong`).  As C38 for n, with f64 equality by C19's argument; the three wrong forms are refuted for all lists, with witnesses.
* **C40** within is generated only for one range (proved: `C40_panics_iff`, `C40_only_first_range`, `C40_modulus_uses_i`, `C40_not_within_false`, `C40_single_range_right`).  Case analysis on the within generator.
* **C41** generated code has the intended precedence (proved: `C41_precedence`).  Precedence parser for the Rust fragment applied to the generated tokens of any condition.
* **C42** generated code type-checks (proved: `C42_well_typed`, `C42_empty_no_expression`, `C42_expression_iff`).  Typing rules of the fragment on the expression of C41; exactly which conditions give an expression.
* **C43** a negated relation is the negation of the positive one (proved: `C43_negation`, `C43_range_on_n`).  Evaluation of both expressions on all operands.
* **C44** operator spellings are interchangeable (proved: `C44_spellings`, `C44_respelled`).  Equality of generated tokens.
* **C45** generator output does not depend on input file order (proved: `C45_file_order`).  The loop step commutes with itself; induction on permutations.
* **C46** generator output does not depend on JSON key order (proved: `C46_same_objects`, `C46_key_order`).  The sorted map of a list of members depends only on the last value of each key.
* **C47** when generate_rs panics (proved: `C47_succeeds_iff`).  Exact condition, both directions.
* **C48** generated tables are sorted and omit root (proved: `C48_listed`, `C48_sorted`, `C48_found`).  Sorting by insertion gives a sorted permutation of the parsed keys; C01's binary-search lemma finds each of them.
* **C49** OTHER is the default and is never tested (proved: `C49_other_default`, `C49_no_rules`).  The arms of the generated function are exactly the conditions of the non-OTHER rules.
* **C50** categories are tested in a fixed order (proved: `C50_test_order`).  Keys of one prefix sort as the category names do.
* **C51** language subtags survive the raw encoding (proved: `C51_subtag`, `C51_injective`, `C51_entry`).  Base-256 digits, little-endian.
* **C52** a rule set generates a function with the CLDR meaning (proved: `C52_locale`, `C52_locale_integers`, `C52_table`, `C52_table_integers`).  C29 (parsing), C38/C39 (code), C41 (precedence), C48 (table), C49/C50 (order) combined.
* **C53** f32 values convert through their own shortest text (proved: `C53_succeeds`, `C53_finite`, `C53_integral`, `C53_large_wrong`).  The f32 display and its reading as f64.
* **C54** the text of a float reads back as the float and is the shortest (proved: `C54_reads_back`, `C54_shortest`).  The digit search of the display model stops at the first exponent with a decimal in the rounding interval; both the interval and minimality are proved.
* **C55** decimals of up to 15 digits keep their operands as f64 (proved: `C55_fifteen_digits`, `C55_category`).  A decimal of 15 digits is the only one of its length in the rounding interval of its nearest f64, so the shortest text is that decimal.
* **C56** the JSON reader accepts exactly RFC 8259 (proved: `C56_json`, `C56_unique`, `C56_error`).  Soundness and completeness of a recursive-descent reader against the grammar, by mutual induction; every depth of nesting.
* **C57** which texts are input files (proved: `C57_resource`, `C57_unique`, `C57_generate`).  Field lookup characterised by exactly-once membership; both directions for each struct.
* **C58** the output text is the generated tokens (proved: `C58_lexes_back`, `C58_injective`).  Every generated token can be told from its text (compositional over all generator functions), and the printer leaves a blank wherever two tokens could join.
* **C59** the output file has the fixed shape (proved: `C59_file`).  Every generated stream has matching brackets, so the reader of items cuts the tables where the generator put them; iff, so unreadable entries are covered.
* **C60** from input texts to categories (proved: `C60_pipeline`, `C60_pipeline_integers`).  C57, C59 and C52 combined.
* **C61** the shipped files agree (proved: `C61_rules_file`, `C61_cldr_files`, `C61_regenerated`).  Kernel evaluation of the lexer, the file reader and the JSON reader on the whole shipped texts; regeneration through C57 and C59.
* **C62** the generator reproduces the fixtures (proved: `C62_fixtures`).  Kernel evaluation on the whole texts (60 KB of output).
* **C63** the output file is written only at the end (proved: `C63_untouched`, `C63_ugly`, `C63_formatted`, `C63_error`).  Case analysis on the model of main; file system (bytes), disk room and rustfmt are arbitrary parameters.
* **C64** what generated code tests, exactly (proved: `C64_generated_code`).  Induction over the condition; the meaning is the separate specification Actual, in terms of the digits of the number. Constants compared with n must be below 2^53.
* **C65** what select computes, exactly (proved: `C65_select`, `C65_strings`).  The conditions of every table entry are checked by kernel evaluation to be the code of its CLDR rules in this order; the rest is C64.
* **C66** exactly which numbers get a wrong category (proved: `C66_exactly`, `C66_integers`, `C66_strings`).  C65 and C22-C23, then one arithmetic equivalence for each exceptional locale; the sets are written out in wrongNumbers.
* **C67** which error a conversion gives (proved: `C67_incorrect`, `C67_not_integer`, `C67_too_big`).  Case analysis on the conversion; the float literals are given by a grammar separate from the model, proved to be what the model of f64::from_str accepts.
* **C68** texts with an exponent (proved: `C68_same_number`, `C68_integer`, `C68_no_fraction`, `C68_point`).  The model of f64::from_str rounds the rational number written (lemma ofDec_rnd), so equal numbers give equal floats; then C12.
* **C69** the type of the input does not matter (proved: `C69_operands`, `C69_category`).  C10, C12, C20, C53 and C68 for the forms in the inductive type Given.
* **C70** CLDR samples have their categories (proved: `C70_samples`).  Kernel evaluation over all samples of both files, lifted to the statement by the decision procedure for rules.
* **C71** every category is reached (proved: `C71_reached`, `C71_belarusian`).  Kernel evaluation finds a number for every category; C65 carries it to select.
* **C72** categories of integers repeat (proved: `C72_periodic`, `C72_small`).  By C65 the category depends on comparisons with constants up to the bound and on remainders by divisors of the period; general lemma, side conditions checked by kernel evaluation for each locale.
* **C73** categories of all decimal texts (proved: `C73_texts`, `C73_thirteen_digits`, `C73_close`).  The shipped functions compare n only with integers up to 800 and only by == and !=, checked by kernel evaluation, so only these comparisons must agree with the exact number; rounding error bounds do the rest. Texts nearer than 10^-13 to an integer are not claimed.
* **C74** categories of digit texts of any length (proved: `C74_digits`, `C74_right`).  The float of a digit text is an integer times a power of two nearest to the number; rest as C73. Which of two equally near ones is taken is not said.
* **C75** categories of all f64 (proved: `C75_fraction`, `C75_integer`, `C75_infinite`).  The shown text reads back as the float (C54), so n is the float itself; rest as C73. NaN is in C20.
* **C76** categories of all f32 (proved: `C76_fraction`, `C76_integer`).  The shown decimal cannot round to an integer up to 800 as f64, as it would then read back as that integer as f32; rest C73 and C74.
* **C77** n is rounded as IEEE 754 says (proved: `C77_unique`, `C77_unsigned`, `C77_signed`, `C77_decimal`, `C77_exponent`).  Ieee is a separate specification; the arithmetic of the model (truncated division, remainder compared with half) is proved to meet it, and it is proved to determine the result.
* **C78** the operands of every text (proved: `C78_operands`).  TextOps is a separate specification with Ieee for n; both directions by C17, C77 and the grammar lemmas of C67.
* **C79** the parser and the published syntax (proved: `C79_unique`, `C79_reads`, `C79_extra`, `C79_respaced`, `C79_rejected`, `C79_truncated_line`, `C79_truncated_range`, `C79_shipped`).  Published EBNF in UtsSyntax.lean, independent of Grammar.lean; unambiguity by a deterministic reader; relation to the parser by C27 and C29. The claim of full compliance in the README is false as stated: C79_rejected, C79_truncated_line, C79_truncated_range.
* **C80** the generated text does not depend on the sorting algorithm (proved: `C80_succeeds`, `C80_table`, `C80_text`, `C80_shipped`, `C80_spellings`).  The generator with the sorting algorithm as a parameter (AnySort.lean, with insertion the model of Generate.lean); a sorted permutation with distinct identifiers is unique.
* **C81** the bytes of input and output (proved: `C81_encoding`, `C81_utf8`, `C81_printable`, `C81_ascii`, `C81_bom`, `C81_ok`).  The decoder accepts exactly the encodings of RFC 3629, by arithmetic on the bytes; every generated token is printable ASCII, by induction over the generator; then case analysis on main.
* **C82** the generated text depends only on what the files say (proved: `C82_meaning`, `C82_texts`).  Rules enter the generator through their code only, and the code of a relation depends only on the class of its operator; the maps commute with this, and sorted lists with distinct identifiers and the same members are equal.
* **C83** categories of what is no number (proved: `C83_nan`, `C83_nan_text`, `C83_infinite`, `C83_infinite_text`, `C83_two_minus`).  The shipped functions only compare n with integers up to 800 (C73), so operands whose n equals none of them can be replaced by NaN; kernel evaluation over both tables.
* **C84** when generated code panics (proved: `C84_panics_iff`, `C84_never`, `C84_always`, `C84_function`).  Chains of && and || are evaluated from the left until one decides, by induction; a relation with such a modulus panics at its first test, since values are tested before ranges; all other expressions have a value by their types.
* **C85** categories of texts with an exponent (proved: `C85_integer`, `C85_fraction`).  The operands by C78; the shipped functions compare n only with listed integers (collected syntactically), all other operands being equal to those of the integer part; kernel evaluation at the listed integers.
* **C86** equal operands (proved: `C86_symmetric_transitive`, `C86_reflexive`, `C86_call`, `C86_select`, `C86_numbers`).  peq models #[derive(PartialEq)] field by field with IEEE equality on n; numbers via OperandsOf (C08, C11), select via every Closure; NaN excluded exactly.
* **C87** regenerating files (proved: `C87_fixtures`, `C87_fixtures_within`, `C87_data`, `C87_again`, `C87_own_input`).  C62 and C61 for the texts, C63/C81 for the program; the generated text starts with #, which is no JSON.
* **C88** number literals of generated files are in range (proved: `C88_literals`).  All numbers of a condition are below 2^64 (grammar, C34), subtags have at most 8 or 4 ASCII letters, the version is an isize; every token of the file is followed through the generator, and lexing gives these tokens back (C58).
* **C89** the condition that a text begins with (proved: `C89_condition`, `C89_one`, `C89_accepted`, `C89_refused`).  ConditionOf (Verif.Conditions) says it with the grammar alone. The parser reads at least every condition at the front (induction over the grammar with arbitrary continuation), and stops at the end of a number; a text is one condition only. The statements about the generator use ConditionOf, not the parser.
* **C90** the machine that runs the generator (proved: `C90_parse`, `C90_same`, `C90_lost`, `C90_version`, `C90_shipped`, `C90_differs`).  HostWidth is the generator with the width as parameter, equal to the other model at 64 (generateTextOn_64). Two parsers of different widths agree on every end of a text whose numbers fit both, combinator by combinator; the shipped texts are scanned by kernel evaluation.
* **C91** identifiers as texts (proved: `C91_texts`, `C91_fold`, `C91_one_spelling`, `C91_create`).  IdText and SameSpelling (Verif.IdSpec) are stated without the parser. The parser ignores foldChar subtag by subtag; the parts of an identifier without variants give the text back up to case; with C01, C04 and C21. The parser of unic_langid is a dependency: its model is trusted.
* **C92** which binary search std has does not matter (proved: `C92_std`, `C92_create`, `C92_found`).  Searches (Verif.AnySearch) is the promise of std. Loop invariants for the two algorithms; the table is strictly sorted (C03), so the match is unique; C80 and C48 for generated tables.
* **C93** the library built with a generated file (proved: `C93_compiles`, `C93_locales`, `C93_create`, `C93_variants`, `C93_shipped`, `C93_program`).  build (Verif.Library) is what rustc asks of the text: that it is the fragment of Rust that FileRead reads, no number torn at its point, one table of each name, literals in range, types, and no remainder by the literal 0 (a lint that is an error). Formatted is what rustfmt is trusted for in C93_program and C94_program; C95 shows it of the shipped file. C60's pipeline for the table, C84 for panics, C88 for literals, C92 for the search; C61 for the shipped file.
* **C94** what a library computes, whatever the rules (proved: `C94_one`, `C94_library`, `C94_program`).  FirstTrue is stated with LastOf, ThirdPart (InputSpec), ConditionOf (Conditions) and Actual.Holds. The arms of a function are the rules in key order (C50's lemma); C64's lemma for each, a modulus zero that is lost being replaced by one; C93 for the library. Literals from 2^53 on n are excluded by ExactRules.
* **C95** layouts of generated files, and --ugly (proved: `C95_tokens`, `C95_layout`, `C95_exists`, `C95_formatted`, `C95_ugly`, `C95_shipped`).  Layout.Of (Verif.Layout) is a small specification of texts with given tokens. Lexing by induction on the layout; the points of generated tokens are followed through the generator; render (C58) is one layout.
* **C96** the code on all operands (proved: `C96_compare`, `C96_code`, `C96_numbers`, `C96_library`, `C96_texts`, `C96_shipped`, `C96_shipped_texts`).  `OnOperands` says what the code tests as statements about the fields (`number` of a float in the rationals with infinities, IEEE rounding of the numbers in rules). `C96_code` for conditions, `C96_library`, `C96_texts` for libraries with any generated file, `C96_shipped`, `C96_shipped_texts` for the shipped one; `C96_numbers` is the agreement with C64. No bound on numbers, digits or operands; the texts and their operands are those of C78.
* **C97** the library on machines of any pointer width (proved: `C97_64`, `C97_compiles`, `C97_shipped`).  TargetWidth is Library with the width of usize as a parameter; the literals of a comparison have the type of its operand. C97_64: at 64 bits it is Library.build. C97_compiles says in terms of the input files when it compiles; C97_shipped uses the reading of the shipped file in C61 and an evaluation over its tables.
* **C98** texts as bytes (proved: `C98_unsigned`, `C98_signed`, `C98_accepts`, `C98_accepts_signed`, `C98_conversion`).  ByteText is operands.rs:73-122 on bytes: is_char_boundary, slices (a panic inside a character), find, trim_end_matches, len, and from_str of integers with checked_mul and checked_add. C98_conversion is equality with the model on characters for the UTF-8 bytes of every text, C98_unsigned and C98_signed for the integers. f64::from_str is taken on the characters of the slice.
* **C99** the samples of the CLDR data through select (proved: `C99_samples`, `C99_listed`).  C99_samples: for each locale the samples split into right ones and wrong ones, with the length of the second list given; C99_listed says where it is not 0. The samples are parsed from the verbatim rules (C61) as in C70, which says that all of them can be read; the evaluation is of rules on decimals, and C65 carries it to select on texts.
* **C100** fourteen texts tell all locales apart (proved: `C100_tests`, `C100_code`).  C100_tests and C100_code. The fifty-seven closures of the tables have different values on the texts, except those of fr and pt, by evaluation; these two are equal on all operands by proof.
* **C101** the conversion whatever f64::from_str does (proved: `C101_refusing`, `C101_point`, `C101_decimal`).  AnyRead is operands.rs:73-122 with the reading of floats as a parameter; with the one of the model it is the conversion of the model (by rfl). C101_decimal uses the exact description of C66, without its limits on digits.
* **C102** which operands matter in which locale (proved: `C102_matters`, `C102_w`).  C102_matters and C102_w. Code that does not name an operand does not depend on it, by induction on expressions; that named operands matter is shown by pairs of operands found by evaluation, for each function of the tables, and the names are compared with the rules of every locale by evaluation. The exception is proved by an equivalence of Boolean conditions.
* **C103** what the lookup of a locale reads (proved: `C103_search`, `C103_create`).  SearchTrace is the search with the list of compared indices. By induction on the loops, for any comparison; an example shows that the bounds are reached.
* **C104** updates of the data (proved: `C104_local`, `C104_found`, `C104_cldr33`).  From C96 (what a function computes is said by the tested rules) and C93. For the fixtures the tables are computed from the input texts by kernel evaluation and compared with the shipped ones; C62 for the output text; the code for mo and ro is written out and compared for all decimals. That CLDR's rules differ at 101 is an observation on the two files, shown in an example.
* **C105** the parser takes linear time (proved: `C105_same`, `C105_linear`).  ParserSteps is the parser of Parser with a count beside each result. C105_same by induction on the combinators. C105_linear: an element of a list takes steps for its text and for what it has looked ahead at; when a separator follows, this lookahead was over spaces only, and otherwise the list ends, and with it all lists around it (ListSteps, used for ranges, relations, conjunctions and samples).
* **C106** codes for one language (proved: `C106_old_codes`, `C106_norwegian`, `C106_ordinal`).  The codes found in the tables by kernel evaluation for each pair are the same, which gives the same answers for all inputs; C01 for the missing ones.
* **C107** the cast of a float to u64 (proved: `C107_texts`, `C107_only_i`, `C107_f64`, `C107_f32`).  AnyCast is the conversion with a function in the place of the cast. If the cast value is out of range, two casts with the promise differ there. From C78 (the operands of every text), and where rounding reaches 2^64 and 1; for floats from the decimal that is shown, which for the f32 2^64 is 18446744000000000000.
* **C108** integer and decimal samples (proved: `C108_integers`, `C108_decimals`).  Integers: what select answers is the category by the conditions as the code reads them (C65); the conditions without integer samples repeat with period 100 from 21 on, so 0..120 are all cases. Decimals: in the shipped functions such a condition has v == 0 in every alternative, or for OTHER an earlier one has v != 0 as an alternative, which is checked on the functions and proved to be enough for all operands.
* **C109** telling locales apart (proved: `C109_probes`, `C109_same`).  There are 36 cardinal and 23 ordinal functions, each with its CLDR rules; their categories of these numbers, by the function and by the rules, are evaluated in the kernel and differ for each two but French and Portuguese, for which both are proved the same for all operands and all numbers.
* **C110** what the unchecked constructors are given (proved: `C110_calls`, `C110_unsafe`, `C110_read`, `C110_shipped`).  On the tokens of the written text: every occurrence of the name is preceded by the path of its kind and followed by one integer literal in parentheses. The integers are related to the subtags byte by byte, and the keys are parsed by the model of unic-langid (C91). The shipped file is read as Rust code in C61; the reader accepts an identifier with well-formed subtags only from such calls.
* **C111** where the rounding of n matters (proved: `C111_equal`, `C111_category`, `C111_without_n`, `C111_where`).  Finer than C73: the interval of each integer is exact, its ends included (round half to even). The locales are settled with a witness for each kind of rules (kernel evaluation) on the one side, and on the other side by the argument for all texts for locales without n and for the six exceptions.
* **C112** where the rounding of large integers matters (proved: `C112_soon`, `C112_where`, `C112_rules`).  The witness within thirty integers is found in the kernel for each kind of rules; the other functions test i and n against small integers only, which is proved to give one answer for all operands of integers from 2^53 on. The link with the rules as printed in CLDR is checked for each kind.
* **C113** what a library computes for long texts (proved: `C113_library`, `C113_program`).  Extends C94 from numbers that f64 tells apart from all integers to the numbers that it tells apart from those which the rules use: comparisons of n with such an integer give what those of the number give (through C111), and the code of a condition uses n in no other way.
* **C114** rules written in another way (proved: `C114_order`, `C114_numbers`, `C114_written_out`, `C114_library`).  From what the code tests on operands (C96) and on numbers (C64): the tests of a list say whether it has the integer that the code looks at. The exceptions have a witness for every range and modulus: 0.5 for the negated range, and for a modulus an integer above the range whose remainder is in it, or the first of the range if its remainder is not.
* **C115** every rule has a form that the generator gets right (proved: `C115_meaning`, `C115_without`, `C115_code`, `C115_texts`, `C115_library`, `C115_shipped`, `C115_files`, `C115_exists`).  The rewriting is a function on conditions and on texts, independent of the model of the generator; its meaning is by UTS #35 over the rationals. The code is right by C38, the library by C93 and C95. The CLDR data are checked in the kernel to consist of such rules. The repository has no such rewriting: it is what can be done in the data while the generator is as it is.
* **C116** finitely many numbers are enough to test any rules (proved: `C116_meaning`, `C116_code`, `C116_small`, `C116_numbers`, `C116_finite`, `C116_library`).  Alike is defined on the operands of the decimal, not on the code. The number of fraction digits is bounded by cutting out a block between two prefixes with alike operands (there are at most (K + M + 1)^4 classes). For libraries the numbers are those whose operands the code is given exactly (as in C94).
* **C117** which tests in rules.rs are needless (proved: `C117_needless`, `C117_inputs`, `C117_tests`, `C117_texts`).  The replacement is done on the model of the functions of rules.rs (tied to its text by C61). The list is complete by a text for each of the other 686 replacements, evaluated in the kernel; the 24 of the list are proved for all operands with f = 0 if v = 0 and n != 0 if i != 0, which all inputs have.
* **C118** where the order of the conditions matters (proved: `C118_overlap`, `C118_order`, `C118_integers`).  Two conditions of a function are shown to exclude each other from what all texts have: if n equals an integer below 1000, i is it, or one less with a fraction. The overlaps are shown by texts, evaluated in the kernel.
* **C119** which numbers in rules.rs are pinned down by its answers (proved: `C119_texts`, `C119_loose`, `C119_numbers`, `C119_count`).  changeIn puts another number in a test. If the changed test has the value b on some operands, the function is there like the one with the test replaced by b (C117), so a text on which the operand is the number itself, or is just outside of the range, and where the test matters, shows all other numbers, or all on one side; 360 such pairs of texts are checked by the kernel. For the first v == 0 of ceb the text depends on the number. For a modulus m in a % m == c the first text has a dividend with the remainder c, which only the divisors of the difference leave; these are finitely many and shown one by one; in a range the first text has a dividend above the range, which is its own remainder by all larger moduli; 129 such rows. The 70 others are shown by case analysis for all operands with what all inputs have (InputFacts; two fraction digits are below 100).
* **C120** slips in one place of rules.rs (proved: `C120_harmless`, `C120_texts`, `C120_slips`, `C120_logic`, `C120_count`).  Slip has the six kinds, Slip.in the function with the slip (by tree, as if all parentheses were written), Slip.Fits that there is such a place and something else is put there; the slips are finitely many, and the kernel checks for each its text. The harmless ones are shown by case analysis for all operands with what all inputs have (InputFacts, FractionFacts). Slips in numbers are C119, other orders of the conditions C118.
* **C121** which operands occur (proved: `C121_texts`, `C121_unsigned`, `C121_integers`, `C121_determined`, `C121_same`, `C121_float_n`, `C121_floats`, `C121_float_texts`).  OnlyN and WithFraction say it on the operands alone, with Ieee and IsFloat of IeeeSpec. One direction is C78 and C16; for the other a text is given: the shortest decimal of n with its exponent, after two minus signs if n is negative, or i, a point and the last v digits of f; w and t are unique. C121_determined: when two texts have the same operands. C121_floats is from C20 and the text of a float without its sign; C121_float_texts is C121_same for the text of a float.
<!-- end properties -->

## Trusted base

* Lean's kernel, and the axioms `propext`, `Classical.choice`, `Quot.sound`.  No other axiom, no `sorry`, no `native_decide`, no
  `bv_decide`.  Closed computations are `decide +kernel`.
<!-- axioms -->
* Depending on no axiom: `C105_same`.
* Depending on `propext`: `C05_tables_type_check`, `C106_old_codes`, `C119_count`, `C120_count`, `C20_special`, `C21_table_is_generated`, `C21_table_is_text`, `C21_version`, `C61_cldr_files`, `C61_rules_file`, `C62_fixtures`.
* Depending on `Quot.sound`, `propext`: `C01_create_iff_listed`, `C02_create_own_rule`, `C02_select_own_rule`, `C03_before_order`, `C03_getLocales_nodup`, `C03_getLocales_sorted`, `C04_no_fallback`, `C04_region_not_dropped`, `C05_select_total`, `C06_select_error_iff`, `C07_select_declared`, `C101_refusing`, `C102_w`, `C106_norwegian`, `C106_ordinal`, `C10_fits`, `C10_signed`, `C120_logic`, `C120_texts`, `C13_minus`, `C13_select`, `C21_locales_are_keys`, `C26_visible`, `C40_modulus_uses_i`, `C40_only_first_range`, `C40_panics_iff`, `C44_respelled`, `C44_spellings`, `C45_file_order`, `C46_key_order`, `C46_same_objects`, `C48_listed`, `C48_sorted`, `C80_shipped`, `C80_spellings`, `C80_succeeds`, `C80_table`, `C80_text`, `C81_encoding`, `C83_nan`, `C86_symmetric_transitive`, `C90_differs`, `C90_parse`, `C90_same`, `C90_shipped`, `C90_version`, `C91_fold`, `C92_create`, `C92_std`, `C93_shipped`, `C97_64`, `C99_listed`.
* Depending on `Classical.choice`, `Quot.sound`, `propext`: `C08_operands`, `C08_unsigned`, `C09_signed`, `C100_code`, `C100_tests`, `C101_decimal`, `C101_point`, `C102_matters`, `C103_create`, `C103_search`, `C104_cldr33`, `C104_found`, `C104_local`, `C105_linear`, `C107_f32`, `C107_f64`, `C107_only_i`, `C107_texts`, `C108_decimals`, `C108_integers`, `C109_probes`, `C109_same`, `C10_minimum`, `C10_wrong`, `C110_calls`, `C110_read`, `C110_shipped`, `C110_unsafe`, `C111_category`, `C111_equal`, `C111_where`, `C111_without_n`, `C112_rules`, `C112_soon`, `C112_where`, `C113_library`, `C113_program`, `C114_library`, `C114_numbers`, `C114_order`, `C114_written_out`, `C115_code`, `C115_exists`, `C115_files`, `C115_library`, `C115_meaning`, `C115_shipped`, `C115_texts`, `C115_without`, `C116_code`, `C116_finite`, `C116_library`, `C116_meaning`, `C116_numbers`, `C116_small`, `C117_inputs`, `C117_needless`, `C117_tests`, `C117_texts`, `C118_integers`, `C118_order`, `C118_overlap`, `C119_loose`, `C119_numbers`, `C119_texts`, `C11_decimal`, `C120_harmless`, `C120_slips`, `C121_determined`, `C121_float_n`, `C121_float_texts`, `C121_floats`, `C121_integers`, `C121_same`, `C121_texts`, `C121_unsigned`, `C12_i_iff`, `C12_integer`, `C12_odd_wrong`, `C12_saturates`, `C14_decimal`, `C14_integer`, `C15_trailing_zeros`, `C16_consistent`, `C17_accepted_iff`, `C18_infinity`, `C18_minus_plus`, `C18_nan`, `C18_two_minus`, `C18_two_minus_point`, `C19_equals_constant`, `C20_finite`, `C20_integral`, `C20_succeeds`, `C22_exceptions_wrong`, `C22_integers`, `C22_signed`, `C23_decimals`, `C23_exceptions_wrong`, `C24_digits`, `C24_zeros`, `C25_exclusive`, `C25_unique`, `C26_blind`, `C26_rules`, `C27_sound`, `C28_round_trip`, `C29_complete`, `C29_relation`, `C29_same`, `C30_exact`, `C30_failed_iff`, `C30_leftover`, `C31_agree`, `C31_ignores`, `C32_samples`, `C33_empty`, `C33_only`, `C34_numbers`, `C34_too_large`, `C35_empty_list`, `C35_nonempty`, `C35_shape`, `C36_precedence`, `C37_deterministic`, `C37_injective`, `C38_condition_correct`, `C39_modulus_on_fractions_wrong`, `C39_negated_range_wrong`, `C39_range_with_modulus_wrong`, `C39_right_for_all`, `C39_right_for_integers`, `C40_not_within_false`, `C40_single_range_right`, `C41_precedence`, `C42_empty_no_expression`, `C42_expression_iff`, `C42_well_typed`, `C43_negation`, `C43_range_on_n`, `C47_succeeds_iff`, `C48_found`, `C49_no_rules`, `C49_other_default`, `C50_test_order`, `C51_entry`, `C51_injective`, `C51_subtag`, `C52_locale`, `C52_locale_integers`, `C52_table`, `C52_table_integers`, `C53_finite`, `C53_integral`, `C53_large_wrong`, `C53_succeeds`, `C54_reads_back`, `C54_shortest`, `C55_category`, `C55_fifteen_digits`, `C56_error`, `C56_json`, `C56_unique`, `C57_generate`, `C57_resource`, `C57_unique`, `C58_injective`, `C58_lexes_back`, `C59_file`, `C60_pipeline`, `C60_pipeline_integers`, `C61_regenerated`, `C63_error`, `C63_formatted`, `C63_ugly`, `C63_untouched`, `C64_generated_code`, `C65_select`, `C65_strings`, `C66_exactly`, `C66_integers`, `C66_strings`, `C67_incorrect`, `C67_not_integer`, `C67_too_big`, `C68_integer`, `C68_no_fraction`, `C68_point`, `C68_same_number`, `C69_category`, `C69_operands`, `C70_samples`, `C71_belarusian`, `C71_reached`, `C72_periodic`, `C72_small`, `C73_close`, `C73_texts`, `C73_thirteen_digits`, `C74_digits`, `C74_right`, `C75_fraction`, `C75_infinite`, `C75_integer`, `C76_fraction`, `C76_integer`, `C77_decimal`, `C77_exponent`, `C77_signed`, `C77_unique`, `C77_unsigned`, `C78_operands`, `C79_extra`, `C79_reads`, `C79_rejected`, `C79_respaced`, `C79_shipped`, `C79_truncated_line`, `C79_truncated_range`, `C79_unique`, `C81_ascii`, `C81_bom`, `C81_ok`, `C81_printable`, `C81_utf8`, `C82_meaning`, `C82_texts`, `C83_infinite`, `C83_infinite_text`, `C83_nan_text`, `C83_two_minus`, `C84_always`, `C84_function`, `C84_never`, `C84_panics_iff`, `C85_fraction`, `C85_integer`, `C86_call`, `C86_numbers`, `C86_reflexive`, `C86_select`, `C87_again`, `C87_data`, `C87_fixtures`, `C87_fixtures_within`, `C87_own_input`, `C88_literals`, `C89_accepted`, `C89_condition`, `C89_one`, `C89_refused`, `C90_lost`, `C91_create`, `C91_one_spelling`, `C91_texts`, `C92_found`, `C93_compiles`, `C93_create`, `C93_locales`, `C93_program`, `C93_variants`, `C94_library`, `C94_one`, `C94_program`, `C95_exists`, `C95_formatted`, `C95_layout`, `C95_shipped`, `C95_tokens`, `C95_ugly`, `C96_code`, `C96_compare`, `C96_library`, `C96_numbers`, `C96_shipped`, `C96_shipped_texts`, `C96_texts`, `C97_compiles`, `C97_shipped`, `C98_accepts`, `C98_accepts_signed`, `C98_conversion`, `C98_signed`, `C98_unsigned`, `C99_samples`.
<!-- end axioms -->
* The reading of /repo recorded in the comments, and the models of the dependencies named above.

## Mutation tests

`seeded/LOG.jsonl` has a line for each edit of the model that was tried in a scratch copy, with the theorems that failed.
`tools/mutate.py` applies an edit, builds what depends on it and lists the theorems that no longer build.
