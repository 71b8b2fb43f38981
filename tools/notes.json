{
"C01": "Binary search over a strictly sorted list finds exactly the members (general lemma); the tables are sorted (kernel evaluation over the whole table), lifted to every identifier.",
"C02": "From the binary-search lemma: the index found is the index of the identifier, and create keeps both.",
"C03": "Before is a written-out order on identifiers, shown to be a strict total order; sortedness of both tables by kernel evaluation.",
"C04": "Every listed identifier is checked for script, region and variants (kernel evaluation); then C01 excludes all others, for every identifier.",
"C05": "Evaluation of a well-typed expression without zero moduli cannot fail (structural induction); the type check of all shipped functions is evaluated in the kernel.",
"C06": "Case analysis on the conversion, with C05 for totality.",
"C07": "The categories a function can return are its arms and OTHER; that each is declared in the CLDR data is evaluated in the kernel over all entries.",
"C08": "Rounding of integers to f64 is exact below 2^53; monotone above.",
"C09": "Case analysis with the width fixed to 64.",
"C10": "The width is a parameter; two's complement by integer arithmetic modulo 2^W.",
"C11": "Induction over digit lists: the text conversion is the UTS #35 operands of the decimal; n by the rounding function on rationals.",
"C12": "Integers up to 2^53 are exact; above, i is the rounded value, and the exact condition for i to be right is proved; odd integers above 2^53 are always wrong; saturation from 2^64.",
"C13": "The code strips one leading minus before anything else.",
"C14": "Digit-list induction.",
"C15": "Digit-list induction; failure exactly on u64 overflow.",
"C16": "From the characterisation of accepted strings (C17) and digit-list arithmetic.",
"C17": "Both directions, against a separate grammar of float literals.",
"C18": "Evaluation of the model on the written forms, for all digit strings after the signs.",
"C19": "Rounding of a quotient of integers below 2^53 hits an integer only if the quotient is that integer; the bound on fraction digits keeps the divisor in range.",
"C20": "Shortest-text display of floats is modelled; at most 17 digits are shown, so both parts fit in u64; trailing zeros never shown.",
"C21": "The text of rules.rs is read as Rust code and is the table of the model; the generator is evaluated on the whole CLDR data in the kernel and gives the same table.",
"C22": "General theorem (code right on the supported fragment for integers) plus a static check of every locale in the kernel; the excluded locales are listed, each with a number that gets a wrong category.",
"C23": "The same for decimals of any length within the operand bounds.",
"C24": "The quantifier is finite (digits 0-9 times locales); C24_zeros extends it to any number of leading zeros and to fraction zeros.",
"C25": "An interval argument on moduli: rules of two categories of a locale contradict each other on residues, checked for each pair and lifted to all numbers.",
"C26": "Rules without v, w, f, t give the same value for d and d with zeros appended; the list of such locales is evaluated; witnesses for the others.",
"C27": "Soundness of every parser function against the inductive grammar.",
"C28": "The printed text is in the grammar, and C29 gives the rest.",
"C29": "Completeness of every parser function for every text of the grammar.",
"C30": "Exact characterisation of both errors; the left text is the true suffix.",
"C31": "Both entry points in terms of the same prefix parser.",
"C32": "From C27 and C29: the condition is read before the samples and does not depend on them.",
"C33": "Evaluation of the first branch for every text.",
"C34": "The number parser returns the value of the digits read, or nothing from 2^64 on.",
"C35": "By the shape of the parser results; the empty list is exhibited.",
"C36": "By C29 on the composed text and the semantics.",
"C37": "From C27/C28: two readings of one text give the same AST.",
"C38": "Per relation: tokens, expression, value; lists by induction; against the semantics on exact rationals.",
"C39": "As C38 for n, with f64 equality by C19's argument; the three wrong forms are refuted for all lists, with witnesses.",
"C40": "Case analysis on the within generator.",
"C41": "Precedence parser for the Rust fragment applied to the generated tokens of any condition.",
"C42": "Typing rules of the fragment on the expression of C41; exactly which conditions give an expression.",
"C43": "Evaluation of both expressions on all operands.",
"C44": "Equality of generated tokens.",
"C45": "The loop step commutes with itself; induction on permutations.",
"C46": "The sorted map of a list of members depends only on the last value of each key.",
"C47": "Exact condition, both directions.",
"C48": "Sorting by insertion gives a sorted permutation of the parsed keys; C01's binary-search lemma finds each of them.",
"C49": "The arms of the generated function are exactly the conditions of the non-OTHER rules.",
"C50": "Keys of one prefix sort as the category names do.",
"C51": "Base-256 digits, little-endian.",
"C52": "C29 (parsing), C38/C39 (code), C41 (precedence), C48 (table), C49/C50 (order) combined.",
"C53": "The f32 display and its reading as f64.",
"C54": "The digit search of the display model stops at the first exponent with a decimal in the rounding interval; both the interval and minimality are proved.",
"C55": "A decimal of 15 digits is the only one of its length in the rounding interval of its nearest f64, so the shortest text is that decimal.",
"C56": "Soundness and completeness of a recursive-descent reader against the grammar, by mutual induction; every depth of nesting.",
"C57": "Field lookup characterised by exactly-once membership; both directions for each struct.",
"C58": "Every generated token can be told from its text (compositional over all generator functions), and the printer leaves a blank wherever two tokens could join.",
"C59": "Every generated stream has matching brackets, so the reader of items cuts the tables where the generator put them; iff, so unreadable entries are covered.",
"C60": "C57, C59 and C52 combined.",
"C61": "Kernel evaluation of the lexer, the file reader and the JSON reader on the whole shipped texts; regeneration through C57 and C59.",
"C62": "Kernel evaluation on the whole texts (60 KB of output).",
"C63": "Case analysis on the model of main; file system (bytes), disk room and rustfmt are arbitrary parameters.",
"C64": "Induction over the condition; the meaning is the separate specification Actual, in terms of the digits of the number. Constants compared with n must be below 2^53.",
"C65": "The conditions of every table entry are checked by kernel evaluation to be the code of its CLDR rules in this order; the rest is C64.",
"C66": "C65 and C22-C23, then one arithmetic equivalence for each exceptional locale; the sets are written out in wrongNumbers.",
"C67": "Case analysis on the conversion; the float literals are given by a grammar separate from the model, proved to be what the model of f64::from_str accepts.",
"C68": "The model of f64::from_str rounds the rational number written (lemma ofDec_rnd), so equal numbers give equal floats; then C12.",
"C69": "C10, C12, C20, C53 and C68 for the forms in the inductive type Given.",
"C70": "Kernel evaluation over all samples of both files, lifted to the statement by the decision procedure for rules.",
"C71": "Kernel evaluation finds a number for every category; C65 carries it to select.",
"C72": "By C65 the category depends on comparisons with constants up to the bound and on remainders by divisors of the period; general lemma, side conditions checked by kernel evaluation for each locale.",
"C73": "The shipped functions compare n only with integers up to 800 and only by == and !=, checked by kernel evaluation, so only these comparisons must agree with the exact number; rounding error bounds do the rest. Texts nearer than 10^-13 to an integer are not claimed.",
"C74": "The float of a digit text is an integer times a power of two nearest to the number; rest as C73. Which of two equally near ones is taken is not said.",
"C75": "The shown text reads back as the float (C54), so n is the float itself; rest as C73. NaN is in C20.",
"C76": "The shown decimal cannot round to an integer up to 800 as f64, as it would then read back as that integer as f32; rest C73 and C74.",
"C77": "Ieee is a separate specification; the arithmetic of the model (truncated division, remainder compared with half) is proved to meet it, and it is proved to determine the result.",
"C78": "TextOps is a separate specification with Ieee for n; both directions by C17, C77 and the grammar lemmas of C67.",
"C79": "Published EBNF in UtsSyntax.lean, independent of Grammar.lean; unambiguity by a deterministic reader; relation to the parser by C27 and C29. The claim of full compliance in the README is false as stated: C79_rejected, C79_truncated_line, C79_truncated_range.",
"C80": "The generator with the sorting algorithm as a parameter (AnySort.lean, with insertion the model of Generate.lean); a sorted permutation with distinct identifiers is unique.",
"C81": "The decoder accepts exactly the encodings of RFC 3629, by arithmetic on the bytes; every generated token is printable ASCII, by induction over the generator; then case analysis on main.",
"C82": "Rules enter the generator through their code only, and the code of a relation depends only on the class of its operator; the maps commute with this, and sorted lists with distinct identifiers and the same members are equal.",
"C83": "The shipped functions only compare n with integers up to 800 (C73), so operands whose n equals none of them can be replaced by NaN; kernel evaluation over both tables.",
"C84": "Chains of && and || are evaluated from the left until one decides, by induction; a relation with such a modulus panics at its first test, since values are tested before ranges; all other expressions have a value by their types.",
"C85": "The operands by C78; the shipped functions compare n only with listed integers (collected syntactically), all other operands being equal to those of the integer part; kernel evaluation at the listed integers.",
"C86": "peq models #[derive(PartialEq)] field by field with IEEE equality on n; numbers via OperandsOf (C08, C11), select via every Closure; NaN excluded exactly.",
"C87": "C62 and C61 for the texts, C63/C81 for the program; the generated text starts with #, which is no JSON.",
"C88": "All numbers of a condition are below 2^64 (grammar, C34), subtags have at most 8 or 4 ASCII letters, the version is an isize; every token of the file is followed through the generator, and lexing gives these tokens back (C58).",
"C89": "ConditionOf (Verif.Conditions) says it with the grammar alone. The parser reads at least every condition at the front (induction over the grammar with arbitrary continuation), and stops at the end of a number; a text is one condition only. The statements about the generator use ConditionOf, not the parser.",
"C90": "HostWidth is the generator with the width as parameter, equal to the other model at 64 (generateTextOn_64). Two parsers of different widths agree on every end of a text whose numbers fit both, combinator by combinator; the shipped texts are scanned by kernel evaluation.",
"C91": "IdText and SameSpelling (Verif.IdSpec) are stated without the parser. The parser ignores foldChar subtag by subtag; the parts of an identifier without variants give the text back up to case; with C01, C04 and C21. The parser of unic_langid is a dependency: its model is trusted.",
"C92": "Searches (Verif.AnySearch) is the promise of std. Loop invariants for the two algorithms; the table is strictly sorted (C03), so the match is unique; C80 and C48 for generated tables.",
"C93": "build (Verif.Library) is what rustc asks of the text: that it is the fragment of Rust that FileRead reads, no number torn at its point, one table of each name, literals in range, types, and no remainder by the literal 0 (a lint that is an error). Formatted is what rustfmt is trusted for in C93_program and C94_program; C95 shows it of the shipped file. C60's pipeline for the table, C84 for panics, C88 for literals, C92 for the search; C61 for the shipped file.",
"C94": "FirstTrue is stated with LastOf, ThirdPart (InputSpec), ConditionOf (Conditions) and Actual.Holds. The arms of a function are the rules in key order (C50's lemma); C64's lemma for each, a modulus zero that is lost being replaced by one; C93 for the library. Literals from 2^53 on n are excluded by ExactRules.",
"C95": "Layout.Of (Verif.Layout) is a small specification of texts with given tokens. Lexing by induction on the layout; the points of generated tokens are followed through the generator; render (C58) is one layout.",
"C96": "`OnOperands` says what the code tests as statements about the fields (`number` of a float in the rationals with infinities, IEEE rounding of the numbers in rules). `C96_code` for conditions, `C96_library`, `C96_texts` for libraries with any generated file, `C96_shipped`, `C96_shipped_texts` for the shipped one; `C96_numbers` is the agreement with C64. No bound on numbers, digits or operands; the texts and their operands are those of C78.",
"C97": "TargetWidth is Library with the width of usize as a parameter; the literals of a comparison have the type of its operand. C97_64: at 64 bits it is Library.build. C97_compiles says in terms of the input files when it compiles; C97_shipped uses the reading of the shipped file in C61 and an evaluation over its tables.",
"C98": "ByteText is operands.rs:73-122 on bytes: is_char_boundary, slices (a panic inside a character), find, trim_end_matches, len, and from_str of integers with checked_mul and checked_add. C98_conversion is equality with the model on characters for the UTF-8 bytes of every text, C98_unsigned and C98_signed for the integers. f64::from_str is taken on the characters of the slice.",
"C99": "C99_samples: for each locale the samples split into right ones and wrong ones, with the length of the second list given; C99_listed says where it is not 0. The samples are parsed from the verbatim rules (C61) as in C70, which says that all of them can be read; the evaluation is of rules on decimals, and C65 carries it to select on texts.",
"C100": "C100_tests and C100_code. The fifty-seven closures of the tables have different values on the texts, except those of fr and pt, by evaluation; these two are equal on all operands by proof.",
"C101": "AnyRead is operands.rs:73-122 with the reading of floats as a parameter; with the one of the model it is the conversion of the model (by rfl). C101_decimal uses the exact description of C66, without its limits on digits.",
"C102": "C102_matters and C102_w. Code that does not name an operand does not depend on it, by induction on expressions; that named operands matter is shown by pairs of operands found by evaluation, for each function of the tables, and the names are compared with the rules of every locale by evaluation. The exception is proved by an equivalence of Boolean conditions.",
"C103": "SearchTrace is the search with the list of compared indices. By induction on the loops, for any comparison; an example shows that the bounds are reached.",
"C104": "From C96 (what a function computes is said by the tested rules) and C93. For the fixtures the tables are computed from the input texts by kernel evaluation and compared with the shipped ones; C62 for the output text; the code for mo and ro is written out and compared for all decimals. That CLDR's rules differ at 101 is an observation on the two files, shown in an example.",
"C105": "ParserSteps is the parser of Parser with a count beside each result. C105_same by induction on the combinators. C105_linear: an element of a list takes steps for its text and for what it has looked ahead at; when a separator follows, this lookahead was over spaces only, and otherwise the list ends, and with it all lists around it (ListSteps, used for ranges, relations, conjunctions and samples).",
"C106": "The codes found in the tables by kernel evaluation for each pair are the same, which gives the same answers for all inputs; C01 for the missing ones.",
"C107": "AnyCast is the conversion with a function in the place of the cast. If the cast value is out of range, two casts with the promise differ there. From C78 (the operands of every text), and where rounding reaches 2^64 and 1; for floats from the decimal that is shown, which for the f32 2^64 is 18446744000000000000.",
"C108": "Integers: what select answers is the category by the conditions as the code reads them (C65); the conditions without integer samples repeat with period 100 from 21 on, so 0..120 are all cases. Decimals: in the shipped functions such a condition has v == 0 in every alternative, or for OTHER an earlier one has v != 0 as an alternative, which is checked on the functions and proved to be enough for all operands.",
"C109": "There are 36 cardinal and 23 ordinal functions, each with its CLDR rules; their categories of these numbers, by the function and by the rules, are evaluated in the kernel and differ for each two but French and Portuguese, for which both are proved the same for all operands and all numbers.",
"C110": "On the tokens of the written text: every occurrence of the name is preceded by the path of its kind and followed by one integer literal in parentheses. The integers are related to the subtags byte by byte, and the keys are parsed by the model of unic-langid (C91). The shipped file is read as Rust code in C61; the reader accepts an identifier with well-formed subtags only from such calls.",
"C111": "Finer than C73: the interval of each integer is exact, its ends included (round half to even). The locales are settled with a witness for each kind of rules (kernel evaluation) on the one side, and on the other side by the argument for all texts for locales without n and for the six exceptions.",
"C112": "The witness within thirty integers is found in the kernel for each kind of rules; the other functions test i and n against small integers only, which is proved to give one answer for all operands of integers from 2^53 on. The link with the rules as printed in CLDR is checked for each kind.",
"C113": "Extends C94 from numbers that f64 tells apart from all integers to the numbers that it tells apart from those which the rules use: comparisons of n with such an integer give what those of the number give (through C111), and the code of a condition uses n in no other way.",
"C114": "From what the code tests on operands (C96) and on numbers (C64): the tests of a list say whether it has the integer that the code looks at. The exceptions have a witness for every range and modulus: 0.5 for the negated range, and for a modulus an integer above the range whose remainder is in it, or the first of the range if its remainder is not.",
"C115": "The rewriting is a function on conditions and on texts, independent of the model of the generator; its meaning is by UTS #35 over the rationals. The code is right by C38, the library by C93 and C95. The CLDR data are checked in the kernel to consist of such rules. The repository has no such rewriting: it is what can be done in the data while the generator is as it is.",
"C116": "Alike is defined on the operands of the decimal, not on the code. The number of fraction digits is bounded by cutting out a block between two prefixes with alike operands (there are at most (K + M + 1)^4 classes). For libraries the numbers are those whose operands the code is given exactly (as in C94).",
"C117": "The replacement is done on the model of the functions of rules.rs (tied to its text by C61). The list is complete by a text for each of the other 686 replacements, evaluated in the kernel; the 24 of the list are proved for all operands with f = 0 if v = 0 and n != 0 if i != 0, which all inputs have.",
"C118": "Two conditions of a function are shown to exclude each other from what all texts have: if n equals an integer below 1000, i is it, or one less with a fraction. The overlaps are shown by texts, evaluated in the kernel.",
"C119": "changeIn puts another number in a test. If the changed test has the value b on some operands, the function is there like the one with the test replaced by b (C117), so a text on which the operand is the number itself, or is just outside of the range, and where the test matters, shows all other numbers, or all on one side; 360 such pairs of texts are checked by the kernel. For the first v == 0 of ceb the text depends on the number. For a modulus m in a % m == c the first text has a dividend with the remainder c, which only the divisors of the difference leave; these are finitely many and shown one by one; in a range the first text has a dividend above the range, which is its own remainder by all larger moduli; 129 such rows. The 70 others are shown by case analysis for all operands with what all inputs have (InputFacts; two fraction digits are below 100).",
"C120": "Slip has the six kinds, Slip.in the function with the slip (by tree, as if all parentheses were written), Slip.Fits that there is such a place and something else is put there; the slips are finitely many, and the kernel checks for each its text. The harmless ones are shown by case analysis for all operands with what all inputs have (InputFacts, FractionFacts). Slips in numbers are C119, other orders of the conditions C118.",
"C121": "OnlyN and WithFraction say it on the operands alone, with Ieee and IsFloat of IeeeSpec. One direction is C78 and C16; for the other a text is given: the shortest decimal of n with its exponent, after two minus signs if n is negative, or i, a point and the last v digits of f; w and t are unique. C121_determined: when two texts have the same operands. C121_floats is from C20 and the text of a float without its sign; C121_float_texts is C121_same for the text of a float."
}