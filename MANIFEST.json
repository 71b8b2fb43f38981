{
 "claims": [
  {
   "property": "C01",
   "status": "proved",
   "theorems": [
    "Verif.Props.C01_create_iff_listed"
   ],
   "note": "Binary search over a strictly sorted list finds exactly the members (general lemma); the tables are sorted (kernel evaluation over the whole table), lifted to every identifier."
  },
  {
   "property": "C02",
   "status": "proved",
   "theorems": [
    "Verif.Props.C02_create_own_rule",
    "Verif.Props.C02_select_own_rule"
   ],
   "note": "From the binary-search lemma: the index found is the index of the identifier, and create keeps both."
  },
  {
   "property": "C03",
   "status": "proved",
   "theorems": [
    "Verif.Props.C03_getLocales_sorted",
    "Verif.Props.C03_before_order",
    "Verif.Props.C03_getLocales_nodup"
   ],
   "note": "Before is a written-out order on identifiers, shown to be a strict total order; sortedness of both tables by kernel evaluation."
  },
  {
   "property": "C04",
   "status": "proved",
   "theorems": [
    "Verif.Props.C04_no_fallback",
    "Verif.Props.C04_region_not_dropped"
   ],
   "note": "Every listed identifier is checked for script, region and variants (kernel evaluation); then C01 excludes all others, for every identifier."
  },
  {
   "property": "C05",
   "status": "proved",
   "theorems": [
    "Verif.Props.C05_select_total",
    "Verif.Props.C05_tables_type_check"
   ],
   "note": "Evaluation of a well-typed expression without zero moduli cannot fail (structural induction); the type check of all shipped functions is evaluated in the kernel."
  },
  {
   "property": "C06",
   "status": "proved",
   "theorems": [
    "Verif.Props.C06_select_error_iff"
   ],
   "note": "Case analysis on the conversion, with C05 for totality."
  },
  {
   "property": "C07",
   "status": "proved",
   "theorems": [
    "Verif.Props.C07_select_declared"
   ],
   "note": "The categories a function can return are its arms and OTHER; that each is declared in the CLDR data is evaluated in the kernel over all entries."
  },
  {
   "property": "C08",
   "status": "proved",
   "theorems": [
    "Verif.Props.C08_unsigned",
    "Verif.Props.C08_operands"
   ],
   "note": "Rounding of integers to f64 is exact below 2^53; monotone above."
  },
  {
   "property": "C09",
   "status": "proved",
   "theorems": [
    "Verif.Props.C09_signed"
   ],
   "note": "Case analysis with the width fixed to 64."
  },
  {
   "property": "C10",
   "status": "proved",
   "theorems": [
    "Verif.Props.C10_signed",
    "Verif.Props.C10_fits",
    "Verif.Props.C10_wrong",
    "Verif.Props.C10_minimum"
   ],
   "note": "The width is a parameter; two's complement by integer arithmetic modulo 2^W."
  },
  {
   "property": "C11",
   "status": "proved",
   "theorems": [
    "Verif.Props.C11_decimal"
   ],
   "note": "Induction over digit lists: the text conversion is the UTS #35 operands of the decimal; n by the rounding function on rationals."
  },
  {
   "property": "C12",
   "status": "proved",
   "theorems": [
    "Verif.Props.C12_integer",
    "Verif.Props.C12_i_iff",
    "Verif.Props.C12_odd_wrong",
    "Verif.Props.C12_saturates"
   ],
   "note": "Integers up to 2^53 are exact; above, i is the rounded value, and the exact condition for i to be right is proved; odd integers above 2^53 are always wrong; saturation from 2^64."
  },
  {
   "property": "C13",
   "status": "proved",
   "theorems": [
    "Verif.Props.C13_minus",
    "Verif.Props.C13_select"
   ],
   "note": "The code strips one leading minus before anything else."
  },
  {
   "property": "C14",
   "status": "proved",
   "theorems": [
    "Verif.Props.C14_decimal",
    "Verif.Props.C14_integer"
   ],
   "note": "Digit-list induction."
  },
  {
   "property": "C15",
   "status": "proved",
   "theorems": [
    "Verif.Props.C15_trailing_zeros"
   ],
   "note": "Digit-list induction; failure exactly on u64 overflow."
  },
  {
   "property": "C16",
   "status": "proved",
   "theorems": [
    "Verif.Props.C16_consistent"
   ],
   "note": "From the characterisation of accepted strings (C17) and digit-list arithmetic."
  },
  {
   "property": "C17",
   "status": "proved",
   "theorems": [
    "Verif.Props.C17_accepted_iff"
   ],
   "note": "Both directions, against a separate grammar of float literals."
  },
  {
   "property": "C18",
   "status": "proved",
   "theorems": [
    "Verif.Props.C18_infinity",
    "Verif.Props.C18_nan",
    "Verif.Props.C18_two_minus",
    "Verif.Props.C18_minus_plus",
    "Verif.Props.C18_two_minus_point"
   ],
   "note": "Evaluation of the model on the written forms, for all digit strings after the signs."
  },
  {
   "property": "C19",
   "status": "proved",
   "theorems": [
    "Verif.Props.C19_equals_constant"
   ],
   "note": "Rounding of a quotient of integers below 2^53 hits an integer only if the quotient is that integer; the bound on fraction digits keeps the divisor in range."
  },
  {
   "property": "C20",
   "status": "proved",
   "theorems": [
    "Verif.Props.C20_special",
    "Verif.Props.C20_succeeds",
    "Verif.Props.C20_finite",
    "Verif.Props.C20_integral"
   ],
   "note": "Shortest-text display of floats is modelled; at most 17 digits are shown, so both parts fit in u64; trailing zeros never shown."
  },
  {
   "property": "C21",
   "status": "proved",
   "theorems": [
    "Verif.Props.C21_table_is_text",
    "Verif.Props.C21_table_is_generated",
    "Verif.Props.C21_locales_are_keys",
    "Verif.Props.C21_version"
   ],
   "note": "The text of rules.rs is read as Rust code and is the table of the model; the generator is evaluated on the whole CLDR data in the kernel and gives the same table."
  },
  {
   "property": "C22",
   "status": "proved",
   "theorems": [
    "Verif.Props.C22_integers",
    "Verif.Props.C22_signed",
    "Verif.Props.C22_exceptions_wrong"
   ],
   "note": "General theorem (code right on the supported fragment for integers) plus a static check of every locale in the kernel; the excluded locales are listed, each with a number that gets a wrong category."
  },
  {
   "property": "C23",
   "status": "proved",
   "theorems": [
    "Verif.Props.C23_decimals",
    "Verif.Props.C23_exceptions_wrong"
   ],
   "note": "The same for decimals of any length within the operand bounds."
  },
  {
   "property": "C24",
   "status": "proved",
   "theorems": [
    "Verif.Props.C24_digits",
    "Verif.Props.C24_zeros"
   ],
   "note": "The quantifier is finite (digits 0-9 times locales); C24_zeros extends it to any number of leading zeros and to fraction zeros."
  },
  {
   "property": "C25",
   "status": "proved",
   "theorems": [
    "Verif.Props.C25_exclusive",
    "Verif.Props.C25_unique"
   ],
   "note": "An interval argument on moduli: rules of two categories of a locale contradict each other on residues, checked for each pair and lifted to all numbers."
  },
  {
   "property": "C26",
   "status": "proved",
   "theorems": [
    "Verif.Props.C26_blind",
    "Verif.Props.C26_visible",
    "Verif.Props.C26_rules"
   ],
   "note": "Rules without v, w, f, t give the same value for d and d with zeros appended; the list of such locales is evaluated; witnesses for the others."
  },
  {
   "property": "C27",
   "status": "proved",
   "theorems": [
    "Verif.Props.C27_sound"
   ],
   "note": "Soundness of every parser function against the inductive grammar."
  },
  {
   "property": "C28",
   "status": "proved",
   "theorems": [
    "Verif.Props.C28_round_trip"
   ],
   "note": "The printed text is in the grammar, and C29 gives the rest."
  },
  {
   "property": "C29",
   "status": "proved",
   "theorems": [
    "Verif.Props.C29_complete",
    "Verif.Props.C29_relation",
    "Verif.Props.C29_same"
   ],
   "note": "Completeness of every parser function for every text of the grammar."
  },
  {
   "property": "C30",
   "status": "proved",
   "theorems": [
    "Verif.Props.C30_failed_iff",
    "Verif.Props.C30_leftover",
    "Verif.Props.C30_exact"
   ],
   "note": "Exact characterisation of both errors; the left text is the true suffix."
  },
  {
   "property": "C31",
   "status": "proved",
   "theorems": [
    "Verif.Props.C31_agree",
    "Verif.Props.C31_ignores"
   ],
   "note": "Both entry points in terms of the same prefix parser."
  },
  {
   "property": "C32",
   "status": "proved",
   "theorems": [
    "Verif.Props.C32_samples"
   ],
   "note": "From C27 and C29: the condition is read before the samples and does not depend on them."
  },
  {
   "property": "C33",
   "status": "proved",
   "theorems": [
    "Verif.Props.C33_empty",
    "Verif.Props.C33_only"
   ],
   "note": "Evaluation of the first branch for every text."
  },
  {
   "property": "C34",
   "status": "proved",
   "theorems": [
    "Verif.Props.C34_numbers",
    "Verif.Props.C34_too_large"
   ],
   "note": "The number parser returns the value of the digits read, or nothing from 2^64 on."
  },
  {
   "property": "C35",
   "status": "proved",
   "theorems": [
    "Verif.Props.C35_shape",
    "Verif.Props.C35_nonempty",
    "Verif.Props.C35_empty_list"
   ],
   "note": "By the shape of the parser results; the empty list is exhibited."
  },
  {
   "property": "C36",
   "status": "proved",
   "theorems": [
    "Verif.Props.C36_precedence"
   ],
   "note": "By C29 on the composed text and the semantics."
  },
  {
   "property": "C37",
   "status": "proved",
   "theorems": [
    "Verif.Props.C37_deterministic",
    "Verif.Props.C37_injective"
   ],
   "note": "From C27/C28: two readings of one text give the same AST."
  },
  {
   "property": "C38",
   "status": "proved",
   "theorems": [
    "Verif.Props.C38_condition_correct"
   ],
   "note": "Per relation: tokens, expression, value; lists by induction; against the semantics on exact rationals."
  },
  {
   "property": "C39",
   "status": "proved",
   "theorems": [
    "Verif.Props.C39_right_for_all",
    "Verif.Props.C39_right_for_integers",
    "Verif.Props.C39_range_with_modulus_wrong",
    "Verif.Props.C39_negated_range_wrong",
    "Verif.Props.C39_modulus_on_fractions_wrong"
   ],
   "note": "As C38 for n, with f64 equality by C19's argument; the three wrong forms are refuted for all lists, with witnesses."
  },
  {
   "property": "C40",
   "status": "proved",
   "theorems": [
    "Verif.Props.C40_panics_iff",
    "Verif.Props.C40_only_first_range",
    "Verif.Props.C40_modulus_uses_i",
    "Verif.Props.C40_not_within_false",
    "Verif.Props.C40_single_range_right"
   ],
   "note": "Case analysis on the within generator."
  },
  {
   "property": "C41",
   "status": "proved",
   "theorems": [
    "Verif.Props.C41_precedence"
   ],
   "note": "Precedence parser for the Rust fragment applied to the generated tokens of any condition."
  },
  {
   "property": "C42",
   "status": "proved",
   "theorems": [
    "Verif.Props.C42_well_typed",
    "Verif.Props.C42_empty_no_expression",
    "Verif.Props.C42_expression_iff"
   ],
   "note": "Typing rules of the fragment on the expression of C41; exactly which conditions give an expression."
  },
  {
   "property": "C43",
   "status": "proved",
   "theorems": [
    "Verif.Props.C43_negation",
    "Verif.Props.C43_range_on_n"
   ],
   "note": "Evaluation of both expressions on all operands."
  },
  {
   "property": "C44",
   "status": "proved",
   "theorems": [
    "Verif.Props.C44_spellings",
    "Verif.Props.C44_respelled"
   ],
   "note": "Equality of generated tokens."
  },
  {
   "property": "C45",
   "status": "proved",
   "theorems": [
    "Verif.Props.C45_file_order"
   ],
   "note": "The loop step commutes with itself; induction on permutations."
  },
  {
   "property": "C46",
   "status": "proved",
   "theorems": [
    "Verif.Props.C46_same_objects",
    "Verif.Props.C46_key_order"
   ],
   "note": "The sorted map of a list of members depends only on the last value of each key."
  },
  {
   "property": "C47",
   "status": "proved",
   "theorems": [
    "Verif.Props.C47_succeeds_iff"
   ],
   "note": "Exact condition, both directions."
  },
  {
   "property": "C48",
   "status": "proved",
   "theorems": [
    "Verif.Props.C48_listed",
    "Verif.Props.C48_sorted",
    "Verif.Props.C48_found"
   ],
   "note": "Sorting by insertion gives a sorted permutation of the parsed keys; C01's binary-search lemma finds each of them."
  },
  {
   "property": "C49",
   "status": "proved",
   "theorems": [
    "Verif.Props.C49_other_default",
    "Verif.Props.C49_no_rules"
   ],
   "note": "The arms of the generated function are exactly the conditions of the non-OTHER rules."
  },
  {
   "property": "C50",
   "status": "proved",
   "theorems": [
    "Verif.Props.C50_test_order"
   ],
   "note": "Keys of one prefix sort as the category names do."
  },
  {
   "property": "C51",
   "status": "proved",
   "theorems": [
    "Verif.Props.C51_subtag",
    "Verif.Props.C51_injective",
    "Verif.Props.C51_entry"
   ],
   "note": "Base-256 digits, little-endian."
  },
  {
   "property": "C52",
   "status": "proved",
   "theorems": [
    "Verif.Props.C52_locale",
    "Verif.Props.C52_locale_integers",
    "Verif.Props.C52_table",
    "Verif.Props.C52_table_integers"
   ],
   "note": "C29 (parsing), C38/C39 (code), C41 (precedence), C48 (table), C49/C50 (order) combined."
  },
  {
   "property": "C53",
   "status": "proved",
   "theorems": [
    "Verif.Props.C53_succeeds",
    "Verif.Props.C53_finite",
    "Verif.Props.C53_integral",
    "Verif.Props.C53_large_wrong"
   ],
   "note": "The f32 display and its reading as f64."
  },
  {
   "property": "C54",
   "status": "proved",
   "theorems": [
    "Verif.Props.C54_reads_back",
    "Verif.Props.C54_shortest"
   ],
   "note": "The digit search of the display model stops at the first exponent with a decimal in the rounding interval; both the interval and minimality are proved."
  },
  {
   "property": "C55",
   "status": "proved",
   "theorems": [
    "Verif.Props.C55_fifteen_digits",
    "Verif.Props.C55_category"
   ],
   "note": "A decimal of 15 digits is the only one of its length in the rounding interval of its nearest f64, so the shortest text is that decimal."
  },
  {
   "property": "C56",
   "status": "proved",
   "theorems": [
    "Verif.Props.C56_json",
    "Verif.Props.C56_unique",
    "Verif.Props.C56_error"
   ],
   "note": "Soundness and completeness of a recursive-descent reader against the grammar, by mutual induction; every depth of nesting."
  },
  {
   "property": "C57",
   "status": "proved",
   "theorems": [
    "Verif.Props.C57_resource",
    "Verif.Props.C57_unique",
    "Verif.Props.C57_generate"
   ],
   "note": "Field lookup characterised by exactly-once membership; both directions for each struct."
  },
  {
   "property": "C58",
   "status": "proved",
   "theorems": [
    "Verif.Props.C58_lexes_back",
    "Verif.Props.C58_injective"
   ],
   "note": "Every generated token can be told from its text (compositional over all generator functions), and the printer leaves a blank wherever two tokens could join."
  },
  {
   "property": "C59",
   "status": "proved",
   "theorems": [
    "Verif.Props.C59_file"
   ],
   "note": "Every generated stream has matching brackets, so the reader of items cuts the tables where the generator put them; iff, so unreadable entries are covered."
  },
  {
   "property": "C60",
   "status": "proved",
   "theorems": [
    "Verif.Props.C60_pipeline",
    "Verif.Props.C60_pipeline_integers"
   ],
   "note": "C57, C59 and C52 combined."
  },
  {
   "property": "C61",
   "status": "proved",
   "theorems": [
    "Verif.Props.C61_rules_file",
    "Verif.Props.C61_cldr_files",
    "Verif.Props.C61_regenerated"
   ],
   "note": "Kernel evaluation of the lexer, the file reader and the JSON reader on the whole shipped texts; regeneration through C57 and C59."
  },
  {
   "property": "C62",
   "status": "proved",
   "theorems": [
    "Verif.Props.C62_fixtures"
   ],
   "note": "Kernel evaluation on the whole texts (60 KB of output)."
  },
  {
   "property": "C63",
   "status": "proved",
   "theorems": [
    "Verif.Props.C63_untouched",
    "Verif.Props.C63_ugly",
    "Verif.Props.C63_formatted",
    "Verif.Props.C63_error"
   ],
   "note": "Case analysis on the model of main; file system (bytes), disk room and rustfmt are arbitrary parameters."
  },
  {
   "property": "C64",
   "status": "proved",
   "theorems": [
    "Verif.Props.C64_generated_code"
   ],
   "note": "Induction over the condition; the meaning is the separate specification Actual, in terms of the digits of the number. Constants compared with n must be below 2^53."
  },
  {
   "property": "C65",
   "status": "proved",
   "theorems": [
    "Verif.Props.C65_select",
    "Verif.Props.C65_strings"
   ],
   "note": "The conditions of every table entry are checked by kernel evaluation to be the code of its CLDR rules in this order; the rest is C64."
  },
  {
   "property": "C66",
   "status": "proved",
   "theorems": [
    "Verif.Props.C66_exactly",
    "Verif.Props.C66_integers",
    "Verif.Props.C66_strings"
   ],
   "note": "C65 and C22-C23, then one arithmetic equivalence for each exceptional locale; the sets are written out in wrongNumbers."
  },
  {
   "property": "C67",
   "status": "proved",
   "theorems": [
    "Verif.Props.C67_incorrect",
    "Verif.Props.C67_not_integer",
    "Verif.Props.C67_too_big"
   ],
   "note": "Case analysis on the conversion; the float literals are given by a grammar separate from the model, proved to be what the model of f64::from_str accepts."
  },
  {
   "property": "C68",
   "status": "proved",
   "theorems": [
    "Verif.Props.C68_same_number",
    "Verif.Props.C68_integer",
    "Verif.Props.C68_no_fraction",
    "Verif.Props.C68_point"
   ],
   "note": "The model of f64::from_str rounds the rational number written (lemma ofDec_rnd), so equal numbers give equal floats; then C12."
  },
  {
   "property": "C69",
   "status": "proved",
   "theorems": [
    "Verif.Props.C69_operands",
    "Verif.Props.C69_category"
   ],
   "note": "C10, C12, C20, C53 and C68 for the forms in the inductive type Given."
  },
  {
   "property": "C70",
   "status": "proved",
   "theorems": [
    "Verif.Props.C70_samples"
   ],
   "note": "Kernel evaluation over all samples of both files, lifted to the statement by the decision procedure for rules."
  },
  {
   "property": "C71",
   "status": "proved",
   "theorems": [
    "Verif.Props.C71_reached",
    "Verif.Props.C71_belarusian"
   ],
   "note": "Kernel evaluation finds a number for every category; C65 carries it to select."
  },
  {
   "property": "C72",
   "status": "proved",
   "theorems": [
    "Verif.Props.C72_periodic",
    "Verif.Props.C72_small"
   ],
   "note": "By C65 the category depends on comparisons with constants up to the bound and on remainders by divisors of the period; general lemma, side conditions checked by kernel evaluation for each locale."
  },
  {
   "property": "C73",
   "status": "proved",
   "theorems": [
    "Verif.Props.C73_texts",
    "Verif.Props.C73_thirteen_digits",
    "Verif.Props.C73_close"
   ],
   "note": "The shipped functions compare n only with integers up to 800 and only by == and !=, checked by kernel evaluation, so only these comparisons must agree with the exact number; rounding error bounds do the rest. Texts nearer than 10^-13 to an integer are not claimed."
  },
  {
   "property": "C74",
   "status": "proved",
   "theorems": [
    "Verif.Props.C74_digits",
    "Verif.Props.C74_right"
   ],
   "note": "The float of a digit text is an integer times a power of two nearest to the number; rest as C73. Which of two equally near ones is taken is not said."
  },
  {
   "property": "C75",
   "status": "proved",
   "theorems": [
    "Verif.Props.C75_fraction",
    "Verif.Props.C75_integer",
    "Verif.Props.C75_infinite"
   ],
   "note": "The shown text reads back as the float (C54), so n is the float itself; rest as C73. NaN is in C20."
  },
  {
   "property": "C76",
   "status": "proved",
   "theorems": [
    "Verif.Props.C76_fraction",
    "Verif.Props.C76_integer"
   ],
   "note": "The shown decimal cannot round to an integer up to 800 as f64, as it would then read back as that integer as f32; rest C73 and C74."
  },
  {
   "property": "C77",
   "status": "proved",
   "theorems": [
    "Verif.Props.C77_unique",
    "Verif.Props.C77_unsigned",
    "Verif.Props.C77_signed",
    "Verif.Props.C77_decimal",
    "Verif.Props.C77_exponent"
   ],
   "note": "Ieee is a separate specification; the arithmetic of the model (truncated division, remainder compared with half) is proved to meet it, and it is proved to determine the result."
  },
  {
   "property": "C78",
   "status": "proved",
   "theorems": [
    "Verif.Props.C78_operands"
   ],
   "note": "TextOps is a separate specification with Ieee for n; both directions by C17, C77 and the grammar lemmas of C67."
  },
  {
   "property": "C79",
   "status": "proved",
   "theorems": [
    "Verif.Props.C79_unique",
    "Verif.Props.C79_reads",
    "Verif.Props.C79_extra",
    "Verif.Props.C79_respaced",
    "Verif.Props.C79_rejected",
    "Verif.Props.C79_truncated_line",
    "Verif.Props.C79_truncated_range",
    "Verif.Props.C79_shipped"
   ],
   "note": "Published EBNF in UtsSyntax.lean, independent of Grammar.lean; unambiguity by a deterministic reader; relation to the parser by C27 and C29. The claim of full compliance in the README is false as stated: C79_rejected, C79_truncated_line, C79_truncated_range."
  },
  {
   "property": "C80",
   "status": "proved",
   "theorems": [
    "Verif.Props.C80_succeeds",
    "Verif.Props.C80_table",
    "Verif.Props.C80_text",
    "Verif.Props.C80_shipped",
    "Verif.Props.C80_spellings"
   ],
   "note": "The generator with the sorting algorithm as a parameter (AnySort.lean, with insertion the model of Generate.lean); a sorted permutation with distinct identifiers is unique."
  },
  {
   "property": "C81",
   "status": "proved",
   "theorems": [
    "Verif.Props.C81_encoding",
    "Verif.Props.C81_utf8",
    "Verif.Props.C81_printable",
    "Verif.Props.C81_ascii",
    "Verif.Props.C81_bom",
    "Verif.Props.C81_ok"
   ],
   "note": "The decoder accepts exactly the encodings of RFC 3629, by arithmetic on the bytes; every generated token is printable ASCII, by induction over the generator; then case analysis on main."
  },
  {
   "property": "C82",
   "status": "proved",
   "theorems": [
    "Verif.Props.C82_meaning",
    "Verif.Props.C82_texts"
   ],
   "note": "Rules enter the generator through their code only, and the code of a relation depends only on the class of its operator; the maps commute with this, and sorted lists with distinct identifiers and the same members are equal."
  },
  {
   "property": "C83",
   "status": "proved",
   "theorems": [
    "Verif.Props.C83_nan",
    "Verif.Props.C83_nan_text",
    "Verif.Props.C83_infinite",
    "Verif.Props.C83_infinite_text",
    "Verif.Props.C83_two_minus"
   ],
   "note": "The shipped functions only compare n with integers up to 800 (C73), so operands whose n equals none of them can be replaced by NaN; kernel evaluation over both tables."
  },
  {
   "property": "C84",
   "status": "proved",
   "theorems": [
    "Verif.Props.C84_panics_iff",
    "Verif.Props.C84_never",
    "Verif.Props.C84_always",
    "Verif.Props.C84_function"
   ],
   "note": "Chains of && and || are evaluated from the left until one decides, by induction; a relation with such a modulus panics at its first test, since values are tested before ranges; all other expressions have a value by their types."
  },
  {
   "property": "C85",
   "status": "proved",
   "theorems": [
    "Verif.Props.C85_integer",
    "Verif.Props.C85_fraction"
   ],
   "note": "The operands by C78; the shipped functions compare n only with listed integers (collected syntactically), all other operands being equal to those of the integer part; kernel evaluation at the listed integers."
  },
  {
   "property": "C86",
   "status": "proved",
   "theorems": [
    "Verif.Props.C86_symmetric_transitive",
    "Verif.Props.C86_reflexive",
    "Verif.Props.C86_call",
    "Verif.Props.C86_select",
    "Verif.Props.C86_numbers"
   ],
   "note": "peq models #[derive(PartialEq)] field by field with IEEE equality on n; numbers via OperandsOf (C08, C11), select via every Closure; NaN excluded exactly."
  },
  {
   "property": "C87",
   "status": "proved",
   "theorems": [
    "Verif.Props.C87_fixtures",
    "Verif.Props.C87_fixtures_within",
    "Verif.Props.C87_data",
    "Verif.Props.C87_again",
    "Verif.Props.C87_own_input"
   ],
   "note": "C62 and C61 for the texts, C63/C81 for the program; the generated text starts with #, which is no JSON."
  },
  {
   "property": "C88",
   "status": "proved",
   "theorems": [
    "Verif.Props.C88_literals"
   ],
   "note": "All numbers of a condition are below 2^64 (grammar, C34), subtags have at most 8 or 4 ASCII letters, the version is an isize; every token of the file is followed through the generator, and lexing gives these tokens back (C58)."
  },
  {
   "property": "C89",
   "status": "proved",
   "theorems": [
    "Verif.Props.C89_condition",
    "Verif.Props.C89_one",
    "Verif.Props.C89_accepted",
    "Verif.Props.C89_refused"
   ],
   "note": "ConditionOf (Verif.Conditions) says it with the grammar alone. The parser reads at least every condition at the front (induction over the grammar with arbitrary continuation), and stops at the end of a number; a text is one condition only. The statements about the generator use ConditionOf, not the parser."
  },
  {
   "property": "C90",
   "status": "proved",
   "theorems": [
    "Verif.Props.C90_parse",
    "Verif.Props.C90_same",
    "Verif.Props.C90_lost",
    "Verif.Props.C90_version",
    "Verif.Props.C90_shipped",
    "Verif.Props.C90_differs"
   ],
   "note": "HostWidth is the generator with the width as parameter, equal to the other model at 64 (generateTextOn_64). Two parsers of different widths agree on every end of a text whose numbers fit both, combinator by combinator; the shipped texts are scanned by kernel evaluation."
  },
  {
   "property": "C91",
   "status": "proved",
   "theorems": [
    "Verif.Props.C91_texts",
    "Verif.Props.C91_fold",
    "Verif.Props.C91_one_spelling",
    "Verif.Props.C91_create"
   ],
   "note": "IdText and SameSpelling (Verif.IdSpec) are stated without the parser. The parser ignores foldChar subtag by subtag; the parts of an identifier without variants give the text back up to case; with C01, C04 and C21. The parser of unic_langid is a dependency: its model is trusted."
  },
  {
   "property": "C92",
   "status": "proved",
   "theorems": [
    "Verif.Props.C92_std",
    "Verif.Props.C92_create",
    "Verif.Props.C92_found"
   ],
   "note": "Searches (Verif.AnySearch) is the promise of std. Loop invariants for the two algorithms; the table is strictly sorted (C03), so the match is unique; C80 and C48 for generated tables."
  },
  {
   "property": "C93",
   "status": "proved",
   "theorems": [
    "Verif.Props.C93_compiles",
    "Verif.Props.C93_locales",
    "Verif.Props.C93_create",
    "Verif.Props.C93_variants",
    "Verif.Props.C93_shipped",
    "Verif.Props.C93_program"
   ],
   "note": "build (Verif.Library) is what rustc asks of the text: that it is the fragment of Rust that FileRead reads, no number torn at its point, one table of each name, literals in range, types, and no remainder by the literal 0 (a lint that is an error). Formatted is what rustfmt is trusted for in C93_program and C94_program; C95 shows it of the shipped file. C60's pipeline for the table, C84 for panics, C88 for literals, C92 for the search; C61 for the shipped file."
  },
  {
   "property": "C94",
   "status": "proved",
   "theorems": [
    "Verif.Props.C94_one",
    "Verif.Props.C94_library",
    "Verif.Props.C94_program"
   ],
   "note": "FirstTrue is stated with LastOf, ThirdPart (InputSpec), ConditionOf (Conditions) and Actual.Holds. The arms of a function are the rules in key order (C50's lemma); C64's lemma for each, a modulus zero that is lost being replaced by one; C93 for the library. Literals from 2^53 on n are excluded by ExactRules."
  },
  {
   "property": "C95",
   "status": "proved",
   "theorems": [
    "Verif.Props.C95_tokens",
    "Verif.Props.C95_layout",
    "Verif.Props.C95_exists",
    "Verif.Props.C95_formatted",
    "Verif.Props.C95_ugly",
    "Verif.Props.C95_shipped"
   ],
   "note": "Layout.Of (Verif.Layout) is a small specification of texts with given tokens. Lexing by induction on the layout; the points of generated tokens are followed through the generator; render (C58) is one layout."
  },
  {
   "property": "C96",
   "status": "proved",
   "theorems": [
    "Verif.Props.C96_compare",
    "Verif.Props.C96_code",
    "Verif.Props.C96_numbers",
    "Verif.Props.C96_library",
    "Verif.Props.C96_texts",
    "Verif.Props.C96_shipped",
    "Verif.Props.C96_shipped_texts"
   ],
   "note": "`OnOperands` says what the code tests as statements about the fields (`number` of a float in the rationals with infinities, IEEE rounding of the numbers in rules). `C96_code` for conditions, `C96_library`, `C96_texts` for libraries with any generated file, `C96_shipped`, `C96_shipped_texts` for the shipped one; `C96_numbers` is the agreement with C64. No bound on numbers, digits or operands; the texts and their operands are those of C78."
  },
  {
   "property": "C97",
   "status": "proved",
   "theorems": [
    "Verif.Props.C97_64",
    "Verif.Props.C97_compiles",
    "Verif.Props.C97_shipped"
   ],
   "note": "TargetWidth is Library with the width of usize as a parameter; the literals of a comparison have the type of its operand. C97_64: at 64 bits it is Library.build. C97_compiles says in terms of the input files when it compiles; C97_shipped uses the reading of the shipped file in C61 and an evaluation over its tables."
  },
  {
   "property": "C98",
   "status": "proved",
   "theorems": [
    "Verif.Props.C98_unsigned",
    "Verif.Props.C98_signed",
    "Verif.Props.C98_accepts",
    "Verif.Props.C98_accepts_signed",
    "Verif.Props.C98_conversion"
   ],
   "note": "ByteText is operands.rs:73-122 on bytes: is_char_boundary, slices (a panic inside a character), find, trim_end_matches, len, and from_str of integers with checked_mul and checked_add. C98_conversion is equality with the model on characters for the UTF-8 bytes of every text, C98_unsigned and C98_signed for the integers. f64::from_str is taken on the characters of the slice."
  },
  {
   "property": "C99",
   "status": "proved",
   "theorems": [
    "Verif.Props.C99_samples",
    "Verif.Props.C99_listed"
   ],
   "note": "C99_samples: for each locale the samples split into right ones and wrong ones, with the length of the second list given; C99_listed says where it is not 0. The samples are parsed from the verbatim rules (C61) as in C70, which says that all of them can be read; the evaluation is of rules on decimals, and C65 carries it to select on texts."
  },
  {
   "property": "C100",
   "status": "proved",
   "theorems": [
    "Verif.Props.C100_tests",
    "Verif.Props.C100_code"
   ],
   "note": "C100_tests and C100_code. The fifty-seven closures of the tables have different values on the texts, except those of fr and pt, by evaluation; these two are equal on all operands by proof."
  },
  {
   "property": "C101",
   "status": "proved",
   "theorems": [
    "Verif.Props.C101_refusing",
    "Verif.Props.C101_point",
    "Verif.Props.C101_decimal"
   ],
   "note": "AnyRead is operands.rs:73-122 with the reading of floats as a parameter; with the one of the model it is the conversion of the model (by rfl). C101_decimal uses the exact description of C66, without its limits on digits."
  },
  {
   "property": "C102",
   "status": "proved",
   "theorems": [
    "Verif.Props.C102_matters",
    "Verif.Props.C102_w"
   ],
   "note": "C102_matters and C102_w. Code that does not name an operand does not depend on it, by induction on expressions; that named operands matter is shown by pairs of operands found by evaluation, for each function of the tables, and the names are compared with the rules of every locale by evaluation. The exception is proved by an equivalence of Boolean conditions."
  },
  {
   "property": "C103",
   "status": "proved",
   "theorems": [
    "Verif.Props.C103_search",
    "Verif.Props.C103_create"
   ],
   "note": "SearchTrace is the search with the list of compared indices. By induction on the loops, for any comparison; an example shows that the bounds are reached."
  },
  {
   "property": "C104",
   "status": "proved",
   "theorems": [
    "Verif.Props.C104_local",
    "Verif.Props.C104_found",
    "Verif.Props.C104_cldr33"
   ],
   "note": "From C96 (what a function computes is said by the tested rules) and C93. For the fixtures the tables are computed from the input texts by kernel evaluation and compared with the shipped ones; C62 for the output text; the code for mo and ro is written out and compared for all decimals. That CLDR's rules differ at 101 is an observation on the two files, shown in an example."
  },
  {
   "property": "C105",
   "status": "proved",
   "theorems": [
    "Verif.Props.C105_same",
    "Verif.Props.C105_linear"
   ],
   "note": "ParserSteps is the parser of Parser with a count beside each result. C105_same by induction on the combinators. C105_linear: an element of a list takes steps for its text and for what it has looked ahead at; when a separator follows, this lookahead was over spaces only, and otherwise the list ends, and with it all lists around it (ListSteps, used for ranges, relations, conjunctions and samples)."
  },
  {
   "property": "C106",
   "status": "proved",
   "theorems": [
    "Verif.Props.C106_old_codes",
    "Verif.Props.C106_norwegian",
    "Verif.Props.C106_ordinal"
   ],
   "note": "The codes found in the tables by kernel evaluation for each pair are the same, which gives the same answers for all inputs; C01 for the missing ones."
  },
  {
   "property": "C107",
   "status": "proved",
   "theorems": [
    "Verif.Props.C107_texts",
    "Verif.Props.C107_only_i",
    "Verif.Props.C107_f64",
    "Verif.Props.C107_f32"
   ],
   "note": "AnyCast is the conversion with a function in the place of the cast. If the cast value is out of range, two casts with the promise differ there. From C78 (the operands of every text), and where rounding reaches 2^64 and 1; for floats from the decimal that is shown, which for the f32 2^64 is 18446744000000000000."
  },
  {
   "property": "C108",
   "status": "proved",
   "theorems": [
    "Verif.Props.C108_integers",
    "Verif.Props.C108_decimals"
   ],
   "note": "Integers: what select answers is the category by the conditions as the code reads them (C65); the conditions without integer samples repeat with period 100 from 21 on, so 0..120 are all cases. Decimals: in the shipped functions such a condition has v == 0 in every alternative, or for OTHER an earlier one has v != 0 as an alternative, which is checked on the functions and proved to be enough for all operands."
  },
  {
   "property": "C109",
   "status": "proved",
   "theorems": [
    "Verif.Props.C109_probes",
    "Verif.Props.C109_same"
   ],
   "note": "There are 36 cardinal and 23 ordinal functions, each with its CLDR rules; their categories of these numbers, by the function and by the rules, are evaluated in the kernel and differ for each two but French and Portuguese, for which both are proved the same for all operands and all numbers."
  },
  {
   "property": "C110",
   "status": "proved",
   "theorems": [
    "Verif.Props.C110_calls",
    "Verif.Props.C110_unsafe",
    "Verif.Props.C110_read",
    "Verif.Props.C110_shipped"
   ],
   "note": "On the tokens of the written text: every occurrence of the name is preceded by the path of its kind and followed by one integer literal in parentheses. The integers are related to the subtags byte by byte, and the keys are parsed by the model of unic-langid (C91). The shipped file is read as Rust code in C61; the reader accepts an identifier with well-formed subtags only from such calls."
  },
  {
   "property": "C111",
   "status": "proved",
   "theorems": [
    "Verif.Props.C111_equal",
    "Verif.Props.C111_category",
    "Verif.Props.C111_without_n",
    "Verif.Props.C111_where"
   ],
   "note": "Finer than C73: the interval of each integer is exact, its ends included (round half to even). The locales are settled with a witness for each kind of rules (kernel evaluation) on the one side, and on the other side by the argument for all texts for locales without n and for the six exceptions."
  },
  {
   "property": "C112",
   "status": "proved",
   "theorems": [
    "Verif.Props.C112_soon",
    "Verif.Props.C112_where",
    "Verif.Props.C112_rules"
   ],
   "note": "The witness within thirty integers is found in the kernel for each kind of rules; the other functions test i and n against small integers only, which is proved to give one answer for all operands of integers from 2^53 on. The link with the rules as printed in CLDR is checked for each kind."
  },
  {
   "property": "C113",
   "status": "proved",
   "theorems": [
    "Verif.Props.C113_library",
    "Verif.Props.C113_program"
   ],
   "note": "Extends C94 from numbers that f64 tells apart from all integers to the numbers that it tells apart from those which the rules use: comparisons of n with such an integer give what those of the number give (through C111), and the code of a condition uses n in no other way."
  },
  {
   "property": "C114",
   "status": "proved",
   "theorems": [
    "Verif.Props.C114_order",
    "Verif.Props.C114_numbers",
    "Verif.Props.C114_written_out",
    "Verif.Props.C114_library"
   ],
   "note": "From what the code tests on operands (C96) and on numbers (C64): the tests of a list say whether it has the integer that the code looks at. The exceptions have a witness for every range and modulus: 0.5 for the negated range, and for a modulus an integer above the range whose remainder is in it, or the first of the range if its remainder is not."
  },
  {
   "property": "C115",
   "status": "proved",
   "theorems": [
    "Verif.Props.C115_meaning",
    "Verif.Props.C115_without",
    "Verif.Props.C115_code",
    "Verif.Props.C115_texts",
    "Verif.Props.C115_library",
    "Verif.Props.C115_shipped",
    "Verif.Props.C115_files",
    "Verif.Props.C115_exists"
   ],
   "note": "The rewriting is a function on conditions and on texts, independent of the model of the generator; its meaning is by UTS #35 over the rationals. The code is right by C38, the library by C93 and C95. The CLDR data are checked in the kernel to consist of such rules. The repository has no such rewriting: it is what can be done in the data while the generator is as it is."
  },
  {
   "property": "C116",
   "status": "proved",
   "theorems": [
    "Verif.Props.C116_meaning",
    "Verif.Props.C116_code",
    "Verif.Props.C116_small",
    "Verif.Props.C116_numbers",
    "Verif.Props.C116_finite",
    "Verif.Props.C116_library"
   ],
   "note": "Alike is defined on the operands of the decimal, not on the code. The number of fraction digits is bounded by cutting out a block between two prefixes with alike operands (there are at most (K + M + 1)^4 classes). For libraries the numbers are those whose operands the code is given exactly (as in C94)."
  },
  {
   "property": "C117",
   "status": "proved",
   "theorems": [
    "Verif.Props.C117_needless",
    "Verif.Props.C117_inputs",
    "Verif.Props.C117_tests",
    "Verif.Props.C117_texts"
   ],
   "note": "The replacement is done on the model of the functions of rules.rs (tied to its text by C61). The list is complete by a text for each of the other 686 replacements, evaluated in the kernel; the 24 of the list are proved for all operands with f = 0 if v = 0 and n != 0 if i != 0, which all inputs have."
  },
  {
   "property": "C118",
   "status": "proved",
   "theorems": [
    "Verif.Props.C118_overlap",
    "Verif.Props.C118_order",
    "Verif.Props.C118_integers"
   ],
   "note": "Two conditions of a function are shown to exclude each other from what all texts have: if n equals an integer below 1000, i is it, or one less with a fraction. The overlaps are shown by texts, evaluated in the kernel."
  },
  {
   "property": "C119",
   "status": "proved",
   "theorems": [
    "Verif.Props.C119_texts",
    "Verif.Props.C119_loose",
    "Verif.Props.C119_numbers",
    "Verif.Props.C119_count"
   ],
   "note": "changeIn puts another number in a test. If the changed test has the value b on some operands, the function is there like the one with the test replaced by b (C117), so a text on which the operand is the number itself, or is just outside of the range, and where the test matters, shows all other numbers, or all on one side; 360 such pairs of texts are checked by the kernel. For the first v == 0 of ceb the text depends on the number. For a modulus m in a % m == c the first text has a dividend with the remainder c, which only the divisors of the difference leave; these are finitely many and shown one by one; in a range the first text has a dividend above the range, which is its own remainder by all larger moduli; 129 such rows. The 70 others are shown by case analysis for all operands with what all inputs have (InputFacts; two fraction digits are below 100)."
  },
  {
   "property": "C120",
   "status": "proved",
   "theorems": [
    "Verif.Props.C120_harmless",
    "Verif.Props.C120_texts",
    "Verif.Props.C120_slips",
    "Verif.Props.C120_logic",
    "Verif.Props.C120_count"
   ],
   "note": "Slip has the six kinds, Slip.in the function with the slip (by tree, as if all parentheses were written), Slip.Fits that there is such a place and something else is put there; the slips are finitely many, and the kernel checks for each its text. The harmless ones are shown by case analysis for all operands with what all inputs have (InputFacts, FractionFacts). Slips in numbers are C119, other orders of the conditions C118."
  },
  {
   "property": "C121",
   "status": "proved",
   "theorems": [
    "Verif.Props.C121_texts",
    "Verif.Props.C121_unsigned",
    "Verif.Props.C121_integers",
    "Verif.Props.C121_determined",
    "Verif.Props.C121_same",
    "Verif.Props.C121_float_n",
    "Verif.Props.C121_floats",
    "Verif.Props.C121_float_texts"
   ],
   "note": "OnlyN and WithFraction say it on the operands alone, with Ieee and IsFloat of IeeeSpec. One direction is C78 and C16; for the other a text is given: the shortest decimal of n with its exponent, after two minus signs if n is negative, or i, a point and the last v digits of f; w and t are unique. C121_determined: when two texts have the same operands. C121_floats is from C20 and the text of a float without its sign; C121_float_texts is C121_same for the text of a float."
  }
 ]
}
