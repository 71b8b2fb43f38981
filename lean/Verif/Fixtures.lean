import Verif.Chars

/-!
# `make_pluralrules/tests/fixtures`: inputs and expected outputs of the tests, trimmed as test.rs:11 does

Written by tools/gen_tables.py, in parts of 800 characters.
-/

namespace Verif.Fixtures
open Verif

/-- make_pluralrules/tests/fixtures/cldr_pluralrules_cardinals_33.json, part 0. -/
def cardinals33_0 : Str := c!"{\n  \"supplemental\": {\n    \"version\": {\n      \"_number\": \"$Revision: 13898 $\",\n      \"_unicodeVersion\": \"10.0.0\",\n      \"_cldrVersion\": \"33\"\n    },\n    \"plurals-type-cardinal\": {\n      \"af\": {\n        \"pluralRule-count-one\": \"n = 1 @integer 1 @decimal 1.0, 1.00, 1.000, 1.0000\",\n        \"pluralRule-count-other\": \" @integer 0, 2~16, 100, 1000, 10000, 100000, 1000000, … @decimal 0.0~0.9, 1.1~1.6, 10.0, 100.0, 1000.0, 10000.0, 100000.0, 1000000.0, …\"\n      },\n      \"ak\": {\n        \"pluralRule-count-one\": \"n = 0..1 @integer 0, 1 @decimal 0.0, 1.0, 0.00, 1.00, 0.000, 1.000, 0.0000, 1.0000\",\n        \"pluralRule-count-other\": \" @integer 2~17, 100, 1000, 10000, 100000, 1000000, … @decimal 0.1~0.9, 1.1~1.7, 10.0, 100.0, 1000.0, 10000.0, 100000.0, 1000000.0, …\"\n      },\n      \"am\": {\n"

/-- make_pluralrules/tests/fixtures/cldr_pluralrules_cardinals_33.json, part 1. -/
def cardinals33_1 : Str := c!"        \"pluralRule-count-one\": \"i = 0 or n = 1 @integer 0, 1 @decimal 0.0~1.0, 0.00~0.04\",\n        \"pluralRule-count-other\": \" @integer 2~17, 100, 1000, 10000, 100000, 1000000, … @decimal 1.1~2.6, 10.0, 100.0, 1000.0, 10000.0, 100000.0, 1000000.0, …\"\n      },\n      \"ar\": {\n        \"pluralRule-count-zero\": \"n = 0 @integer 0 @decimal 0.0, 0.00, 0.000, 0.0000\",\n        \"pluralRule-count-one\": \"n = 1 @integer 1 @decimal 1.0, 1.00, 1.000, 1.0000\",\n        \"pluralRule-count-two\": \"n = 2 @integer 2 @decimal 2.0, 2.00, 2.000, 2.0000\",\n        \"pluralRule-count-few\": \"n % 100 = 3..10 @integer 3~10, 103~110, 1003, … @decimal 3.0, 4.0, 5.0, 6.0, 7.0, 8.0, 9.0, 10.0, 103.0, 1003.0, …\",\n        \"pluralRule-count-many\": \"n % 100 = 11..99 @integer 11~26, 111, 1011, … @decimal 11.0, 12.0, 13.0, 1"

/-- make_pluralrules/tests/fixtures/cldr_pluralrules_cardinals_33.json, part 2. -/
def cardinals33_2 : Str := c!"4.0, 15.0, 16.0, 17.0, 18.0, 111.0, 1011.0, …\",\n        \"pluralRule-count-other\": \" @integer 100~102, 200~202, 300~302, 400~402, 500~502, 600, 1000, 10000, 100000, 1000000, … @decimal 0.1~0.9, 1.1~1.7, 10.1, 100.0, 1000.0, 10000.0, 100000.0, 1000000.0, …\"\n      },\n      \"ars\": {\n        \"pluralRule-count-zero\": \"n = 0 @integer 0 @decimal 0.0, 0.00, 0.000, 0.0000\",\n        \"pluralRule-count-one\": \"n = 1 @integer 1 @decimal 1.0, 1.00, 1.000, 1.0000\",\n        \"pluralRule-count-two\": \"n = 2 @integer 2 @decimal 2.0, 2.00, 2.000, 2.0000\",\n        \"pluralRule-count-few\": \"n % 100 = 3..10 @integer 3~10, 103~110, 1003, … @decimal 3.0, 4.0, 5.0, 6.0, 7.0, 8.0, 9.0, 10.0, 103.0, 1003.0, …\",\n        \"pluralRule-count-many\": \"n % 100 = 11..99 @integer 11~26, 111, 1011, … @decimal 11.0, 12.0, 13"

/-- make_pluralrules/tests/fixtures/cldr_pluralrules_cardinals_33.json, part 3. -/
def cardinals33_3 : Str := c!".0, 14.0, 15.0, 16.0, 17.0, 18.0, 111.0, 1011.0, …\",\n        \"pluralRule-count-other\": \" @integer 100~102, 200~202, 300~302, 400~402, 500~502, 600, 1000, 10000, 100000, 1000000, … @decimal 0.1~0.9, 1.1~1.7, 10.1, 100.0, 1000.0, 10000.0, 100000.0, 1000000.0, …\"\n      },\n      \"as\": {\n        \"pluralRule-count-one\": \"i = 0 or n = 1 @integer 0, 1 @decimal 0.0~1.0, 0.00~0.04\",\n        \"pluralRule-count-other\": \" @integer 2~17, 100, 1000, 10000, 100000, 1000000, … @decimal 1.1~2.6, 10.0, 100.0, 1000.0, 10000.0, 100000.0, 1000000.0, …\"\n      },\n      \"asa\": {\n        \"pluralRule-count-one\": \"n = 1 @integer 1 @decimal 1.0, 1.00, 1.000, 1.0000\",\n        \"pluralRule-count-other\": \" @integer 0, 2~16, 100, 1000, 10000, 100000, 1000000, … @decimal 0.0~0.9, 1.1~1.6, 10.0, 100.0, 1000.0, 10000."

/-- make_pluralrules/tests/fixtures/cldr_pluralrules_cardinals_33.json, part 4. -/
def cardinals33_4 : Str := c!"0, 100000.0, 1000000.0, …\"\n      },\n      \"ast\": {\n        \"pluralRule-count-one\": \"i = 1 and v = 0 @integer 1\",\n        \"pluralRule-count-other\": \" @integer 0, 2~16, 100, 1000, 10000, 100000, 1000000, … @decimal 0.0~1.5, 10.0, 100.0, 1000.0, 10000.0, 100000.0, 1000000.0, …\"\n      },\n      \"az\": {\n        \"pluralRule-count-one\": \"n = 1 @integer 1 @decimal 1.0, 1.00, 1.000, 1.0000\",\n        \"pluralRule-count-other\": \" @integer 0, 2~16, 100, 1000, 10000, 100000, 1000000, … @decimal 0.0~0.9, 1.1~1.6, 10.0, 100.0, 1000.0, 10000.0, 100000.0, 1000000.0, …\"\n      },\n      \"be\": {\n        \"pluralRule-count-one\": \"n % 10 = 1 and n % 100 != 11 @integer 1, 21, 31, 41, 51, 61, 71, 81, 101, 1001, … @decimal 1.0, 21.0, 31.0, 41.0, 51.0, 61.0, 71.0, 81.0, 101.0, 1001.0, …\",\n        \"pluralRul"

/-- make_pluralrules/tests/fixtures/cldr_pluralrules_cardinals_33.json, part 5. -/
def cardinals33_5 : Str := c!"e-count-few\": \"n % 10 = 2..4 and n % 100 != 12..14 @integer 2~4, 22~24, 32~34, 42~44, 52~54, 62, 102, 1002, … @decimal 2.0, 3.0, 4.0, 22.0, 23.0, 24.0, 32.0, 33.0, 102.0, 1002.0, …\",\n        \"pluralRule-count-many\": \"n % 10 = 0 or n % 10 = 5..9 or n % 100 = 11..14 @integer 0, 5~19, 100, 1000, 10000, 100000, 1000000, … @decimal 0.0, 5.0, 6.0, 7.0, 8.0, 9.0, 10.0, 11.0, 100.0, 1000.0, 10000.0, 100000.0, 1000000.0, …\",\n        \"pluralRule-count-other\": \"   @decimal 0.1~0.9, 1.1~1.7, 10.1, 100.1, 1000.1, …\"\n      },\n      \"bem\": {\n        \"pluralRule-count-one\": \"n = 1 @integer 1 @decimal 1.0, 1.00, 1.000, 1.0000\",\n        \"pluralRule-count-other\": \" @integer 0, 2~16, 100, 1000, 10000, 100000, 1000000, … @decimal 0.0~0.9, 1.1~1.6, 10.0, 100.0, 1000.0, 10000.0, 100000.0, 1000000.0, …\"\n  "

/-- make_pluralrules/tests/fixtures/cldr_pluralrules_cardinals_33.json, part 6. -/
def cardinals33_6 : Str := c!"    },\n      \"bez\": {\n        \"pluralRule-count-one\": \"n = 1 @integer 1 @decimal 1.0, 1.00, 1.000, 1.0000\",\n        \"pluralRule-count-other\": \" @integer 0, 2~16, 100, 1000, 10000, 100000, 1000000, … @decimal 0.0~0.9, 1.1~1.6, 10.0, 100.0, 1000.0, 10000.0, 100000.0, 1000000.0, …\"\n      },\n      \"bg\": {\n        \"pluralRule-count-one\": \"n = 1 @integer 1 @decimal 1.0, 1.00, 1.000, 1.0000\",\n        \"pluralRule-count-other\": \" @integer 0, 2~16, 100, 1000, 10000, 100000, 1000000, … @decimal 0.0~0.9, 1.1~1.6, 10.0, 100.0, 1000.0, 10000.0, 100000.0, 1000000.0, …\"\n      },\n      \"bh\": {\n        \"pluralRule-count-one\": \"n = 0..1 @integer 0, 1 @decimal 0.0, 1.0, 0.00, 1.00, 0.000, 1.000, 0.0000, 1.0000\",\n        \"pluralRule-count-other\": \" @integer 2~17, 100, 1000, 10000, 100000, 1000000, …"

/-- make_pluralrules/tests/fixtures/cldr_pluralrules_cardinals_33.json, part 7. -/
def cardinals33_7 : Str := c!" @decimal 0.1~0.9, 1.1~1.7, 10.0, 100.0, 1000.0, 10000.0, 100000.0, 1000000.0, …\"\n      },\n      \"bm\": {\n        \"pluralRule-count-other\": \" @integer 0~15, 100, 1000, 10000, 100000, 1000000, … @decimal 0.0~1.5, 10.0, 100.0, 1000.0, 10000.0, 100000.0, 1000000.0, …\"\n      },\n      \"bn\": {\n        \"pluralRule-count-one\": \"i = 0 or n = 1 @integer 0, 1 @decimal 0.0~1.0, 0.00~0.04\",\n        \"pluralRule-count-other\": \" @integer 2~17, 100, 1000, 10000, 100000, 1000000, … @decimal 1.1~2.6, 10.0, 100.0, 1000.0, 10000.0, 100000.0, 1000000.0, …\"\n      },\n      \"bo\": {\n        \"pluralRule-count-other\": \" @integer 0~15, 100, 1000, 10000, 100000, 1000000, … @decimal 0.0~1.5, 10.0, 100.0, 1000.0, 10000.0, 100000.0, 1000000.0, …\"\n      },\n      \"br\": {\n        \"pluralRule-count-one\": \"n % 10 ="

/-- make_pluralrules/tests/fixtures/cldr_pluralrules_cardinals_33.json, part 8. -/
def cardinals33_8 : Str := c!" 1 and n % 100 != 11,71,91 @integer 1, 21, 31, 41, 51, 61, 81, 101, 1001, … @decimal 1.0, 21.0, 31.0, 41.0, 51.0, 61.0, 81.0, 101.0, 1001.0, …\",\n        \"pluralRule-count-two\": \"n % 10 = 2 and n % 100 != 12,72,92 @integer 2, 22, 32, 42, 52, 62, 82, 102, 1002, … @decimal 2.0, 22.0, 32.0, 42.0, 52.0, 62.0, 82.0, 102.0, 1002.0, …\",\n        \"pluralRule-count-few\": \"n % 10 = 3..4,9 and n % 100 != 10..19,70..79,90..99 @integer 3, 4, 9, 23, 24, 29, 33, 34, 39, 43, 44, 49, 103, 1003, … @decimal 3.0, 4.0, 9.0, 23.0, 24.0, 29.0, 33.0, 34.0, 103.0, 1003.0, …\",\n        \"pluralRule-count-many\": \"n != 0 and n % 1000000 = 0 @integer 1000000, … @decimal 1000000.0, 1000000.00, 1000000.000, …\",\n        \"pluralRule-count-other\": \" @integer 0, 5~8, 10~20, 100, 1000, 10000, 100000, … @decimal 0.0~0.9, 1.1~"

/-- make_pluralrules/tests/fixtures/cldr_pluralrules_cardinals_33.json, part 9. -/
def cardinals33_9 : Str := c!"1.6, 10.0, 100.0, 1000.0, 10000.0, 100000.0, …\"\n      },\n      \"brx\": {\n        \"pluralRule-count-one\": \"n = 1 @integer 1 @decimal 1.0, 1.00, 1.000, 1.0000\",\n        \"pluralRule-count-other\": \" @integer 0, 2~16, 100, 1000, 10000, 100000, 1000000, … @decimal 0.0~0.9, 1.1~1.6, 10.0, 100.0, 1000.0, 10000.0, 100000.0, 1000000.0, …\"\n      },\n      \"bs\": {\n        \"pluralRule-count-one\": \"v = 0 and i % 10 = 1 and i % 100 != 11 or f % 10 = 1 and f % 100 != 11 @integer 1, 21, 31, 41, 51, 61, 71, 81, 101, 1001, … @decimal 0.1, 1.1, 2.1, 3.1, 4.1, 5.1, 6.1, 7.1, 10.1, 100.1, 1000.1, …\",\n        \"pluralRule-count-few\": \"v = 0 and i % 10 = 2..4 and i % 100 != 12..14 or f % 10 = 2..4 and f % 100 != 12..14 @integer 2~4, 22~24, 32~34, 42~44, 52~54, 62, 102, 1002, … @decimal 0.2~0.4, 1.2~1.4, 2.2~"

/-- make_pluralrules/tests/fixtures/cldr_pluralrules_cardinals_33.json, part 10. -/
def cardinals33_10 : Str := c!"2.4, 3.2~3.4, 4.2~4.4, 5.2, 10.2, 100.2, 1000.2, …\",\n        \"pluralRule-count-other\": \" @integer 0, 5~19, 100, 1000, 10000, 100000, 1000000, … @decimal 0.0, 0.5~1.0, 1.5~2.0, 2.5~2.7, 10.0, 100.0, 1000.0, 10000.0, 100000.0, 1000000.0, …\"\n      },\n      \"ca\": {\n        \"pluralRule-count-one\": \"i = 1 and v = 0 @integer 1\",\n        \"pluralRule-count-other\": \" @integer 0, 2~16, 100, 1000, 10000, 100000, 1000000, … @decimal 0.0~1.5, 10.0, 100.0, 1000.0, 10000.0, 100000.0, 1000000.0, …\"\n      },\n      \"ce\": {\n        \"pluralRule-count-one\": \"n = 1 @integer 1 @decimal 1.0, 1.00, 1.000, 1.0000\",\n        \"pluralRule-count-other\": \" @integer 0, 2~16, 100, 1000, 10000, 100000, 1000000, … @decimal 0.0~0.9, 1.1~1.6, 10.0, 100.0, 1000.0, 10000.0, 100000.0, 1000000.0, …\"\n      },\n      \"cgg\":"

/-- make_pluralrules/tests/fixtures/cldr_pluralrules_cardinals_33.json, part 11. -/
def cardinals33_11 : Str := c!" {\n        \"pluralRule-count-one\": \"n = 1 @integer 1 @decimal 1.0, 1.00, 1.000, 1.0000\",\n        \"pluralRule-count-other\": \" @integer 0, 2~16, 100, 1000, 10000, 100000, 1000000, … @decimal 0.0~0.9, 1.1~1.6, 10.0, 100.0, 1000.0, 10000.0, 100000.0, 1000000.0, …\"\n      },\n      \"chr\": {\n        \"pluralRule-count-one\": \"n = 1 @integer 1 @decimal 1.0, 1.00, 1.000, 1.0000\",\n        \"pluralRule-count-other\": \" @integer 0, 2~16, 100, 1000, 10000, 100000, 1000000, … @decimal 0.0~0.9, 1.1~1.6, 10.0, 100.0, 1000.0, 10000.0, 100000.0, 1000000.0, …\"\n      },\n      \"ckb\": {\n        \"pluralRule-count-one\": \"n = 1 @integer 1 @decimal 1.0, 1.00, 1.000, 1.0000\",\n        \"pluralRule-count-other\": \" @integer 0, 2~16, 100, 1000, 10000, 100000, 1000000, … @decimal 0.0~0.9, 1.1~1.6, 10.0, 100.0, 1000.0"

/-- make_pluralrules/tests/fixtures/cldr_pluralrules_cardinals_33.json, part 12. -/
def cardinals33_12 : Str := c!", 10000.0, 100000.0, 1000000.0, …\"\n      },\n      \"cs\": {\n        \"pluralRule-count-one\": \"i = 1 and v = 0 @integer 1\",\n        \"pluralRule-count-few\": \"i = 2..4 and v = 0 @integer 2~4\",\n        \"pluralRule-count-many\": \"v != 0   @decimal 0.0~1.5, 10.0, 100.0, 1000.0, 10000.0, 100000.0, 1000000.0, …\",\n        \"pluralRule-count-other\": \" @integer 0, 5~19, 100, 1000, 10000, 100000, 1000000, …\"\n      },\n      \"cy\": {\n        \"pluralRule-count-zero\": \"n = 0 @integer 0 @decimal 0.0, 0.00, 0.000, 0.0000\",\n        \"pluralRule-count-one\": \"n = 1 @integer 1 @decimal 1.0, 1.00, 1.000, 1.0000\",\n        \"pluralRule-count-two\": \"n = 2 @integer 2 @decimal 2.0, 2.00, 2.000, 2.0000\",\n        \"pluralRule-count-few\": \"n = 3 @integer 3 @decimal 3.0, 3.00, 3.000, 3.0000\",\n        \"pluralRule-coun"

/-- make_pluralrules/tests/fixtures/cldr_pluralrules_cardinals_33.json, part 13. -/
def cardinals33_13 : Str := c!"t-many\": \"n = 6 @integer 6 @decimal 6.0, 6.00, 6.000, 6.0000\",\n        \"pluralRule-count-other\": \" @integer 4, 5, 7~20, 100, 1000, 10000, 100000, 1000000, … @decimal 0.1~0.9, 1.1~1.7, 10.0, 100.0, 1000.0, 10000.0, 100000.0, 1000000.0, …\"\n      },\n      \"da\": {\n        \"pluralRule-count-one\": \"n = 1 or t != 0 and i = 0,1 @integer 1 @decimal 0.1~1.6\",\n        \"pluralRule-count-other\": \" @integer 0, 2~16, 100, 1000, 10000, 100000, 1000000, … @decimal 0.0, 2.0~3.4, 10.0, 100.0, 1000.0, 10000.0, 100000.0, 1000000.0, …\"\n      },\n      \"de\": {\n        \"pluralRule-count-one\": \"i = 1 and v = 0 @integer 1\",\n        \"pluralRule-count-other\": \" @integer 0, 2~16, 100, 1000, 10000, 100000, 1000000, … @decimal 0.0~1.5, 10.0, 100.0, 1000.0, 10000.0, 100000.0, 1000000.0, …\"\n      },\n      \"dsb\":"

/-- make_pluralrules/tests/fixtures/cldr_pluralrules_cardinals_33.json, part 14. -/
def cardinals33_14 : Str := c!" {\n        \"pluralRule-count-one\": \"v = 0 and i % 100 = 1 or f % 100 = 1 @integer 1, 101, 201, 301, 401, 501, 601, 701, 1001, … @decimal 0.1, 1.1, 2.1, 3.1, 4.1, 5.1, 6.1, 7.1, 10.1, 100.1, 1000.1, …\",\n        \"pluralRule-count-two\": \"v = 0 and i % 100 = 2 or f % 100 = 2 @integer 2, 102, 202, 302, 402, 502, 602, 702, 1002, … @decimal 0.2, 1.2, 2.2, 3.2, 4.2, 5.2, 6.2, 7.2, 10.2, 100.2, 1000.2, …\",\n        \"pluralRule-count-few\": \"v = 0 and i % 100 = 3..4 or f % 100 = 3..4 @integer 3, 4, 103, 104, 203, 204, 303, 304, 403, 404, 503, 504, 603, 604, 703, 704, 1003, … @decimal 0.3, 0.4, 1.3, 1.4, 2.3, 2.4, 3.3, 3.4, 4.3, 4.4, 5.3, 5.4, 6.3, 6.4, 7.3, 7.4, 10.3, 100.3, 1000.3, …\",\n        \"pluralRule-count-other\": \" @integer 0, 5~19, 100, 1000, 10000, 100000, 1000000, … @decimal 0.0, 0.5~1.0"

/-- make_pluralrules/tests/fixtures/cldr_pluralrules_cardinals_33.json, part 15. -/
def cardinals33_15 : Str := c!", 1.5~2.0, 2.5~2.7, 10.0, 100.0, 1000.0, 10000.0, 100000.0, 1000000.0, …\"\n      },\n      \"dv\": {\n        \"pluralRule-count-one\": \"n = 1 @integer 1 @decimal 1.0, 1.00, 1.000, 1.0000\",\n        \"pluralRule-count-other\": \" @integer 0, 2~16, 100, 1000, 10000, 100000, 1000000, … @decimal 0.0~0.9, 1.1~1.6, 10.0, 100.0, 1000.0, 10000.0, 100000.0, 1000000.0, …\"\n      },\n      \"dz\": {\n        \"pluralRule-count-other\": \" @integer 0~15, 100, 1000, 10000, 100000, 1000000, … @decimal 0.0~1.5, 10.0, 100.0, 1000.0, 10000.0, 100000.0, 1000000.0, …\"\n      },\n      \"ee\": {\n        \"pluralRule-count-one\": \"n = 1 @integer 1 @decimal 1.0, 1.00, 1.000, 1.0000\",\n        \"pluralRule-count-other\": \" @integer 0, 2~16, 100, 1000, 10000, 100000, 1000000, … @decimal 0.0~0.9, 1.1~1.6, 10.0, 100.0, 1000.0, 100"

/-- make_pluralrules/tests/fixtures/cldr_pluralrules_cardinals_33.json, part 16. -/
def cardinals33_16 : Str := c!"00.0, 100000.0, 1000000.0, …\"\n      },\n      \"el\": {\n        \"pluralRule-count-one\": \"n = 1 @integer 1 @decimal 1.0, 1.00, 1.000, 1.0000\",\n        \"pluralRule-count-other\": \" @integer 0, 2~16, 100, 1000, 10000, 100000, 1000000, … @decimal 0.0~0.9, 1.1~1.6, 10.0, 100.0, 1000.0, 10000.0, 100000.0, 1000000.0, …\"\n      },\n      \"en\": {\n        \"pluralRule-count-one\": \"i = 1 and v = 0 @integer 1\",\n        \"pluralRule-count-other\": \" @integer 0, 2~16, 100, 1000, 10000, 100000, 1000000, … @decimal 0.0~1.5, 10.0, 100.0, 1000.0, 10000.0, 100000.0, 1000000.0, …\"\n      },\n      \"eo\": {\n        \"pluralRule-count-one\": \"n = 1 @integer 1 @decimal 1.0, 1.00, 1.000, 1.0000\",\n        \"pluralRule-count-other\": \" @integer 0, 2~16, 100, 1000, 10000, 100000, 1000000, … @decimal 0.0~0.9, 1.1~1.6, 10"

/-- make_pluralrules/tests/fixtures/cldr_pluralrules_cardinals_33.json, part 17. -/
def cardinals33_17 : Str := c!".0, 100.0, 1000.0, 10000.0, 100000.0, 1000000.0, …\"\n      },\n      \"es\": {\n        \"pluralRule-count-one\": \"n = 1 @integer 1 @decimal 1.0, 1.00, 1.000, 1.0000\",\n        \"pluralRule-count-other\": \" @integer 0, 2~16, 100, 1000, 10000, 100000, 1000000, … @decimal 0.0~0.9, 1.1~1.6, 10.0, 100.0, 1000.0, 10000.0, 100000.0, 1000000.0, …\"\n      },\n      \"et\": {\n        \"pluralRule-count-one\": \"i = 1 and v = 0 @integer 1\",\n        \"pluralRule-count-other\": \" @integer 0, 2~16, 100, 1000, 10000, 100000, 1000000, … @decimal 0.0~1.5, 10.0, 100.0, 1000.0, 10000.0, 100000.0, 1000000.0, …\"\n      },\n      \"eu\": {\n        \"pluralRule-count-one\": \"n = 1 @integer 1 @decimal 1.0, 1.00, 1.000, 1.0000\",\n        \"pluralRule-count-other\": \" @integer 0, 2~16, 100, 1000, 10000, 100000, 1000000, … @decima"

/-- make_pluralrules/tests/fixtures/cldr_pluralrules_cardinals_33.json, part 18. -/
def cardinals33_18 : Str := c!"l 0.0~0.9, 1.1~1.6, 10.0, 100.0, 1000.0, 10000.0, 100000.0, 1000000.0, …\"\n      },\n      \"fa\": {\n        \"pluralRule-count-one\": \"i = 0 or n = 1 @integer 0, 1 @decimal 0.0~1.0, 0.00~0.04\",\n        \"pluralRule-count-other\": \" @integer 2~17, 100, 1000, 10000, 100000, 1000000, … @decimal 1.1~2.6, 10.0, 100.0, 1000.0, 10000.0, 100000.0, 1000000.0, …\"\n      },\n      \"ff\": {\n        \"pluralRule-count-one\": \"i = 0,1 @integer 0, 1 @decimal 0.0~1.5\",\n        \"pluralRule-count-other\": \" @integer 2~17, 100, 1000, 10000, 100000, 1000000, … @decimal 2.0~3.5, 10.0, 100.0, 1000.0, 10000.0, 100000.0, 1000000.0, …\"\n      },\n      \"fi\": {\n        \"pluralRule-count-one\": \"i = 1 and v = 0 @integer 1\",\n        \"pluralRule-count-other\": \" @integer 0, 2~16, 100, 1000, 10000, 100000, 1000000, … @decim"

/-- make_pluralrules/tests/fixtures/cldr_pluralrules_cardinals_33.json, part 19. -/
def cardinals33_19 : Str := c!"al 0.0~1.5, 10.0, 100.0, 1000.0, 10000.0, 100000.0, 1000000.0, …\"\n      },\n      \"fil\": {\n        \"pluralRule-count-one\": \"v = 0 and i = 1,2,3 or v = 0 and i % 10 != 4,6,9 or v != 0 and f % 10 != 4,6,9 @integer 0~3, 5, 7, 8, 10~13, 15, 17, 18, 20, 21, 100, 1000, 10000, 100000, 1000000, … @decimal 0.0~0.3, 0.5, 0.7, 0.8, 1.0~1.3, 1.5, 1.7, 1.8, 2.0, 2.1, 10.0, 100.0, 1000.0, 10000.0, 100000.0, 1000000.0, …\",\n        \"pluralRule-count-other\": \" @integer 4, 6, 9, 14, 16, 19, 24, 26, 104, 1004, … @decimal 0.4, 0.6, 0.9, 1.4, 1.6, 1.9, 2.4, 2.6, 10.4, 100.4, 1000.4, …\"\n      },\n      \"fo\": {\n        \"pluralRule-count-one\": \"n = 1 @integer 1 @decimal 1.0, 1.00, 1.000, 1.0000\",\n        \"pluralRule-count-other\": \" @integer 0, 2~16, 100, 1000, 10000, 100000, 1000000, … @decimal 0.0~0.9, 1.1"

/-- make_pluralrules/tests/fixtures/cldr_pluralrules_cardinals_33.json, part 20. -/
def cardinals33_20 : Str := c!"~1.6, 10.0, 100.0, 1000.0, 10000.0, 100000.0, 1000000.0, …\"\n      },\n      \"fr\": {\n        \"pluralRule-count-one\": \"i = 0,1 @integer 0, 1 @decimal 0.0~1.5\",\n        \"pluralRule-count-other\": \" @integer 2~17, 100, 1000, 10000, 100000, 1000000, … @decimal 2.0~3.5, 10.0, 100.0, 1000.0, 10000.0, 100000.0, 1000000.0, …\"\n      },\n      \"fur\": {\n        \"pluralRule-count-one\": \"n = 1 @integer 1 @decimal 1.0, 1.00, 1.000, 1.0000\",\n        \"pluralRule-count-other\": \" @integer 0, 2~16, 100, 1000, 10000, 100000, 1000000, … @decimal 0.0~0.9, 1.1~1.6, 10.0, 100.0, 1000.0, 10000.0, 100000.0, 1000000.0, …\"\n      },\n      \"fy\": {\n        \"pluralRule-count-one\": \"i = 1 and v = 0 @integer 1\",\n        \"pluralRule-count-other\": \" @integer 0, 2~16, 100, 1000, 10000, 100000, 1000000, … @decimal 0.0~"

/-- make_pluralrules/tests/fixtures/cldr_pluralrules_cardinals_33.json, part 21. -/
def cardinals33_21 : Str := c!"1.5, 10.0, 100.0, 1000.0, 10000.0, 100000.0, 1000000.0, …\"\n      },\n      \"ga\": {\n        \"pluralRule-count-one\": \"n = 1 @integer 1 @decimal 1.0, 1.00, 1.000, 1.0000\",\n        \"pluralRule-count-two\": \"n = 2 @integer 2 @decimal 2.0, 2.00, 2.000, 2.0000\",\n        \"pluralRule-count-few\": \"n = 3..6 @integer 3~6 @decimal 3.0, 4.0, 5.0, 6.0, 3.00, 4.00, 5.00, 6.00, 3.000, 4.000, 5.000, 6.000, 3.0000, 4.0000, 5.0000, 6.0000\",\n        \"pluralRule-count-many\": \"n = 7..10 @integer 7~10 @decimal 7.0, 8.0, 9.0, 10.0, 7.00, 8.00, 9.00, 10.00, 7.000, 8.000, 9.000, 10.000, 7.0000, 8.0000, 9.0000, 10.0000\",\n        \"pluralRule-count-other\": \" @integer 0, 11~25, 100, 1000, 10000, 100000, 1000000, … @decimal 0.0~0.9, 1.1~1.6, 10.1, 100.0, 1000.0, 10000.0, 100000.0, 1000000.0, …\"\n      },\n      \"gd\""

/-- make_pluralrules/tests/fixtures/cldr_pluralrules_cardinals_33.json, part 22. -/
def cardinals33_22 : Str := c!": {\n        \"pluralRule-count-one\": \"n = 1,11 @integer 1, 11 @decimal 1.0, 11.0, 1.00, 11.00, 1.000, 11.000, 1.0000\",\n        \"pluralRule-count-two\": \"n = 2,12 @integer 2, 12 @decimal 2.0, 12.0, 2.00, 12.00, 2.000, 12.000, 2.0000\",\n        \"pluralRule-count-few\": \"n = 3..10,13..19 @integer 3~10, 13~19 @decimal 3.0, 4.0, 5.0, 6.0, 7.0, 8.0, 9.0, 10.0, 13.0, 14.0, 15.0, 16.0, 17.0, 18.0, 19.0, 3.00\",\n        \"pluralRule-count-other\": \" @integer 0, 20~34, 100, 1000, 10000, 100000, 1000000, … @decimal 0.0~0.9, 1.1~1.6, 10.1, 100.0, 1000.0, 10000.0, 100000.0, 1000000.0, …\"\n      },\n      \"gl\": {\n        \"pluralRule-count-one\": \"i = 1 and v = 0 @integer 1\",\n        \"pluralRule-count-other\": \" @integer 0, 2~16, 100, 1000, 10000, 100000, 1000000, … @decimal 0.0~1.5, 10.0, 100.0, 1000.0, 10"

/-- make_pluralrules/tests/fixtures/cldr_pluralrules_cardinals_33.json, part 23. -/
def cardinals33_23 : Str := c!"000.0, 100000.0, 1000000.0, …\"\n      },\n      \"gsw\": {\n        \"pluralRule-count-one\": \"n = 1 @integer 1 @decimal 1.0, 1.00, 1.000, 1.0000\",\n        \"pluralRule-count-other\": \" @integer 0, 2~16, 100, 1000, 10000, 100000, 1000000, … @decimal 0.0~0.9, 1.1~1.6, 10.0, 100.0, 1000.0, 10000.0, 100000.0, 1000000.0, …\"\n      },\n      \"gu\": {\n        \"pluralRule-count-one\": \"i = 0 or n = 1 @integer 0, 1 @decimal 0.0~1.0, 0.00~0.04\",\n        \"pluralRule-count-other\": \" @integer 2~17, 100, 1000, 10000, 100000, 1000000, … @decimal 1.1~2.6, 10.0, 100.0, 1000.0, 10000.0, 100000.0, 1000000.0, …\"\n      },\n      \"guw\": {\n        \"pluralRule-count-one\": \"n = 0..1 @integer 0, 1 @decimal 0.0, 1.0, 0.00, 1.00, 0.000, 1.000, 0.0000, 1.0000\",\n        \"pluralRule-count-other\": \" @integer 2~17, 100, 10"

/-- make_pluralrules/tests/fixtures/cldr_pluralrules_cardinals_33.json, part 24. -/
def cardinals33_24 : Str := c!"00, 10000, 100000, 1000000, … @decimal 0.1~0.9, 1.1~1.7, 10.0, 100.0, 1000.0, 10000.0, 100000.0, 1000000.0, …\"\n      },\n      \"gv\": {\n        \"pluralRule-count-one\": \"v = 0 and i % 10 = 1 @integer 1, 11, 21, 31, 41, 51, 61, 71, 101, 1001, …\",\n        \"pluralRule-count-two\": \"v = 0 and i % 10 = 2 @integer 2, 12, 22, 32, 42, 52, 62, 72, 102, 1002, …\",\n        \"pluralRule-count-few\": \"v = 0 and i % 100 = 0,20,40,60,80 @integer 0, 20, 40, 60, 80, 100, 120, 140, 1000, 10000, 100000, 1000000, …\",\n        \"pluralRule-count-many\": \"v != 0   @decimal 0.0~1.5, 10.0, 100.0, 1000.0, 10000.0, 100000.0, 1000000.0, …\",\n        \"pluralRule-count-other\": \" @integer 3~10, 13~19, 23, 103, 1003, …\"\n      },\n      \"ha\": {\n        \"pluralRule-count-one\": \"n = 1 @integer 1 @decimal 1.0, 1.00, 1.000, 1."

/-- make_pluralrules/tests/fixtures/cldr_pluralrules_cardinals_33.json, part 25. -/
def cardinals33_25 : Str := c!"0000\",\n        \"pluralRule-count-other\": \" @integer 0, 2~16, 100, 1000, 10000, 100000, 1000000, … @decimal 0.0~0.9, 1.1~1.6, 10.0, 100.0, 1000.0, 10000.0, 100000.0, 1000000.0, …\"\n      },\n      \"haw\": {\n        \"pluralRule-count-one\": \"n = 1 @integer 1 @decimal 1.0, 1.00, 1.000, 1.0000\",\n        \"pluralRule-count-other\": \" @integer 0, 2~16, 100, 1000, 10000, 100000, 1000000, … @decimal 0.0~0.9, 1.1~1.6, 10.0, 100.0, 1000.0, 10000.0, 100000.0, 1000000.0, …\"\n      },\n      \"he\": {\n        \"pluralRule-count-one\": \"i = 1 and v = 0 @integer 1\",\n        \"pluralRule-count-two\": \"i = 2 and v = 0 @integer 2\",\n        \"pluralRule-count-many\": \"v = 0 and n != 0..10 and n % 10 = 0 @integer 20, 30, 40, 50, 60, 70, 80, 90, 100, 1000, 10000, 100000, 1000000, …\",\n        \"pluralRule-count-other"

/-- make_pluralrules/tests/fixtures/cldr_pluralrules_cardinals_33.json, part 26. -/
def cardinals33_26 : Str := c!"\": \" @integer 0, 3~17, 101, 1001, … @decimal 0.0~1.5, 10.0, 100.0, 1000.0, 10000.0, 100000.0, 1000000.0, …\"\n      },\n      \"hi\": {\n        \"pluralRule-count-one\": \"i = 0 or n = 1 @integer 0, 1 @decimal 0.0~1.0, 0.00~0.04\",\n        \"pluralRule-count-other\": \" @integer 2~17, 100, 1000, 10000, 100000, 1000000, … @decimal 1.1~2.6, 10.0, 100.0, 1000.0, 10000.0, 100000.0, 1000000.0, …\"\n      },\n      \"hr\": {\n        \"pluralRule-count-one\": \"v = 0 and i % 10 = 1 and i % 100 != 11 or f % 10 = 1 and f % 100 != 11 @integer 1, 21, 31, 41, 51, 61, 71, 81, 101, 1001, … @decimal 0.1, 1.1, 2.1, 3.1, 4.1, 5.1, 6.1, 7.1, 10.1, 100.1, 1000.1, …\",\n        \"pluralRule-count-few\": \"v = 0 and i % 10 = 2..4 and i % 100 != 12..14 or f % 10 = 2..4 and f % 100 != 12..14 @integer 2~4, 22~24, 32~34, 42~44, 52"

/-- make_pluralrules/tests/fixtures/cldr_pluralrules_cardinals_33.json, part 27. -/
def cardinals33_27 : Str := c!"~54, 62, 102, 1002, … @decimal 0.2~0.4, 1.2~1.4, 2.2~2.4, 3.2~3.4, 4.2~4.4, 5.2, 10.2, 100.2, 1000.2, …\",\n        \"pluralRule-count-other\": \" @integer 0, 5~19, 100, 1000, 10000, 100000, 1000000, … @decimal 0.0, 0.5~1.0, 1.5~2.0, 2.5~2.7, 10.0, 100.0, 1000.0, 10000.0, 100000.0, 1000000.0, …\"\n      },\n      \"hsb\": {\n        \"pluralRule-count-one\": \"v = 0 and i % 100 = 1 or f % 100 = 1 @integer 1, 101, 201, 301, 401, 501, 601, 701, 1001, … @decimal 0.1, 1.1, 2.1, 3.1, 4.1, 5.1, 6.1, 7.1, 10.1, 100.1, 1000.1, …\",\n        \"pluralRule-count-two\": \"v = 0 and i % 100 = 2 or f % 100 = 2 @integer 2, 102, 202, 302, 402, 502, 602, 702, 1002, … @decimal 0.2, 1.2, 2.2, 3.2, 4.2, 5.2, 6.2, 7.2, 10.2, 100.2, 1000.2, …\",\n        \"pluralRule-count-few\": \"v = 0 and i % 100 = 3..4 or f % 100 = 3..4 @int"

/-- make_pluralrules/tests/fixtures/cldr_pluralrules_cardinals_33.json, part 28. -/
def cardinals33_28 : Str := c!"eger 3, 4, 103, 104, 203, 204, 303, 304, 403, 404, 503, 504, 603, 604, 703, 704, 1003, … @decimal 0.3, 0.4, 1.3, 1.4, 2.3, 2.4, 3.3, 3.4, 4.3, 4.4, 5.3, 5.4, 6.3, 6.4, 7.3, 7.4, 10.3, 100.3, 1000.3, …\",\n        \"pluralRule-count-other\": \" @integer 0, 5~19, 100, 1000, 10000, 100000, 1000000, … @decimal 0.0, 0.5~1.0, 1.5~2.0, 2.5~2.7, 10.0, 100.0, 1000.0, 10000.0, 100000.0, 1000000.0, …\"\n      },\n      \"hu\": {\n        \"pluralRule-count-one\": \"n = 1 @integer 1 @decimal 1.0, 1.00, 1.000, 1.0000\",\n        \"pluralRule-count-other\": \" @integer 0, 2~16, 100, 1000, 10000, 100000, 1000000, … @decimal 0.0~0.9, 1.1~1.6, 10.0, 100.0, 1000.0, 10000.0, 100000.0, 1000000.0, …\"\n      },\n      \"hy\": {\n        \"pluralRule-count-one\": \"i = 0,1 @integer 0, 1 @decimal 0.0~1.5\",\n        \"pluralRule-coun"

/-- make_pluralrules/tests/fixtures/cldr_pluralrules_cardinals_33.json, part 29. -/
def cardinals33_29 : Str := c!"t-other\": \" @integer 2~17, 100, 1000, 10000, 100000, 1000000, … @decimal 2.0~3.5, 10.0, 100.0, 1000.0, 10000.0, 100000.0, 1000000.0, …\"\n      },\n      \"id\": {\n        \"pluralRule-count-other\": \" @integer 0~15, 100, 1000, 10000, 100000, 1000000, … @decimal 0.0~1.5, 10.0, 100.0, 1000.0, 10000.0, 100000.0, 1000000.0, …\"\n      },\n      \"ig\": {\n        \"pluralRule-count-other\": \" @integer 0~15, 100, 1000, 10000, 100000, 1000000, … @decimal 0.0~1.5, 10.0, 100.0, 1000.0, 10000.0, 100000.0, 1000000.0, …\"\n      },\n      \"ii\": {\n        \"pluralRule-count-other\": \" @integer 0~15, 100, 1000, 10000, 100000, 1000000, … @decimal 0.0~1.5, 10.0, 100.0, 1000.0, 10000.0, 100000.0, 1000000.0, …\"\n      },\n      \"in\": {\n        \"pluralRule-count-other\": \" @integer 0~15, 100, 1000, 10000, 100000, 100"

/-- make_pluralrules/tests/fixtures/cldr_pluralrules_cardinals_33.json, part 30. -/
def cardinals33_30 : Str := c!"0000, … @decimal 0.0~1.5, 10.0, 100.0, 1000.0, 10000.0, 100000.0, 1000000.0, …\"\n      },\n      \"io\": {\n        \"pluralRule-count-one\": \"i = 1 and v = 0 @integer 1\",\n        \"pluralRule-count-other\": \" @integer 0, 2~16, 100, 1000, 10000, 100000, 1000000, … @decimal 0.0~1.5, 10.0, 100.0, 1000.0, 10000.0, 100000.0, 1000000.0, …\"\n      },\n      \"is\": {\n        \"pluralRule-count-one\": \"t = 0 and i % 10 = 1 and i % 100 != 11 or t != 0 @integer 1, 21, 31, 41, 51, 61, 71, 81, 101, 1001, … @decimal 0.1~1.6, 10.1, 100.1, 1000.1, …\",\n        \"pluralRule-count-other\": \" @integer 0, 2~16, 100, 1000, 10000, 100000, 1000000, … @decimal 0.0, 2.0, 3.0, 4.0, 5.0, 6.0, 7.0, 8.0, 10.0, 100.0, 1000.0, 10000.0, 100000.0, 1000000.0, …\"\n      },\n      \"it\": {\n        \"pluralRule-count-one\": \"i = 1 and "

/-- make_pluralrules/tests/fixtures/cldr_pluralrules_cardinals_33.json, part 31. -/
def cardinals33_31 : Str := c!"v = 0 @integer 1\",\n        \"pluralRule-count-other\": \" @integer 0, 2~16, 100, 1000, 10000, 100000, 1000000, … @decimal 0.0~1.5, 10.0, 100.0, 1000.0, 10000.0, 100000.0, 1000000.0, …\"\n      },\n      \"iu\": {\n        \"pluralRule-count-one\": \"n = 1 @integer 1 @decimal 1.0, 1.00, 1.000, 1.0000\",\n        \"pluralRule-count-two\": \"n = 2 @integer 2 @decimal 2.0, 2.00, 2.000, 2.0000\",\n        \"pluralRule-count-other\": \" @integer 0, 3~17, 100, 1000, 10000, 100000, 1000000, … @decimal 0.0~0.9, 1.1~1.6, 10.0, 100.0, 1000.0, 10000.0, 100000.0, 1000000.0, …\"\n      },\n      \"iw\": {\n        \"pluralRule-count-one\": \"i = 1 and v = 0 @integer 1\",\n        \"pluralRule-count-two\": \"i = 2 and v = 0 @integer 2\",\n        \"pluralRule-count-many\": \"v = 0 and n != 0..10 and n % 10 = 0 @integer 20, 30, 40, 50"

/-- make_pluralrules/tests/fixtures/cldr_pluralrules_cardinals_33.json, part 32. -/
def cardinals33_32 : Str := c!", 60, 70, 80, 90, 100, 1000, 10000, 100000, 1000000, …\",\n        \"pluralRule-count-other\": \" @integer 0, 3~17, 101, 1001, … @decimal 0.0~1.5, 10.0, 100.0, 1000.0, 10000.0, 100000.0, 1000000.0, …\"\n      },\n      \"ja\": {\n        \"pluralRule-count-other\": \" @integer 0~15, 100, 1000, 10000, 100000, 1000000, … @decimal 0.0~1.5, 10.0, 100.0, 1000.0, 10000.0, 100000.0, 1000000.0, …\"\n      },\n      \"jbo\": {\n        \"pluralRule-count-other\": \" @integer 0~15, 100, 1000, 10000, 100000, 1000000, … @decimal 0.0~1.5, 10.0, 100.0, 1000.0, 10000.0, 100000.0, 1000000.0, …\"\n      },\n      \"jgo\": {\n        \"pluralRule-count-one\": \"n = 1 @integer 1 @decimal 1.0, 1.00, 1.000, 1.0000\",\n        \"pluralRule-count-other\": \" @integer 0, 2~16, 100, 1000, 10000, 100000, 1000000, … @decimal 0.0~0.9, 1.1~1.6"

/-- make_pluralrules/tests/fixtures/cldr_pluralrules_cardinals_33.json, part 33. -/
def cardinals33_33 : Str := c!", 10.0, 100.0, 1000.0, 10000.0, 100000.0, 1000000.0, …\"\n      },\n      \"ji\": {\n        \"pluralRule-count-one\": \"i = 1 and v = 0 @integer 1\",\n        \"pluralRule-count-other\": \" @integer 0, 2~16, 100, 1000, 10000, 100000, 1000000, … @decimal 0.0~1.5, 10.0, 100.0, 1000.0, 10000.0, 100000.0, 1000000.0, …\"\n      },\n      \"jmc\": {\n        \"pluralRule-count-one\": \"n = 1 @integer 1 @decimal 1.0, 1.00, 1.000, 1.0000\",\n        \"pluralRule-count-other\": \" @integer 0, 2~16, 100, 1000, 10000, 100000, 1000000, … @decimal 0.0~0.9, 1.1~1.6, 10.0, 100.0, 1000.0, 10000.0, 100000.0, 1000000.0, …\"\n      },\n      \"jv\": {\n        \"pluralRule-count-other\": \" @integer 0~15, 100, 1000, 10000, 100000, 1000000, … @decimal 0.0~1.5, 10.0, 100.0, 1000.0, 10000.0, 100000.0, 1000000.0, …\"\n      },\n      \"jw"

/-- make_pluralrules/tests/fixtures/cldr_pluralrules_cardinals_33.json, part 34. -/
def cardinals33_34 : Str := c!"\": {\n        \"pluralRule-count-other\": \" @integer 0~15, 100, 1000, 10000, 100000, 1000000, … @decimal 0.0~1.5, 10.0, 100.0, 1000.0, 10000.0, 100000.0, 1000000.0, …\"\n      },\n      \"ka\": {\n        \"pluralRule-count-one\": \"n = 1 @integer 1 @decimal 1.0, 1.00, 1.000, 1.0000\",\n        \"pluralRule-count-other\": \" @integer 0, 2~16, 100, 1000, 10000, 100000, 1000000, … @decimal 0.0~0.9, 1.1~1.6, 10.0, 100.0, 1000.0, 10000.0, 100000.0, 1000000.0, …\"\n      },\n      \"kab\": {\n        \"pluralRule-count-one\": \"i = 0,1 @integer 0, 1 @decimal 0.0~1.5\",\n        \"pluralRule-count-other\": \" @integer 2~17, 100, 1000, 10000, 100000, 1000000, … @decimal 2.0~3.5, 10.0, 100.0, 1000.0, 10000.0, 100000.0, 1000000.0, …\"\n      },\n      \"kaj\": {\n        \"pluralRule-count-one\": \"n = 1 @integer 1 @decimal 1"

/-- make_pluralrules/tests/fixtures/cldr_pluralrules_cardinals_33.json, part 35. -/
def cardinals33_35 : Str := c!".0, 1.00, 1.000, 1.0000\",\n        \"pluralRule-count-other\": \" @integer 0, 2~16, 100, 1000, 10000, 100000, 1000000, … @decimal 0.0~0.9, 1.1~1.6, 10.0, 100.0, 1000.0, 10000.0, 100000.0, 1000000.0, …\"\n      },\n      \"kcg\": {\n        \"pluralRule-count-one\": \"n = 1 @integer 1 @decimal 1.0, 1.00, 1.000, 1.0000\",\n        \"pluralRule-count-other\": \" @integer 0, 2~16, 100, 1000, 10000, 100000, 1000000, … @decimal 0.0~0.9, 1.1~1.6, 10.0, 100.0, 1000.0, 10000.0, 100000.0, 1000000.0, …\"\n      },\n      \"kde\": {\n        \"pluralRule-count-other\": \" @integer 0~15, 100, 1000, 10000, 100000, 1000000, … @decimal 0.0~1.5, 10.0, 100.0, 1000.0, 10000.0, 100000.0, 1000000.0, …\"\n      },\n      \"kea\": {\n        \"pluralRule-count-other\": \" @integer 0~15, 100, 1000, 10000, 100000, 1000000, … @decimal 0.0~"

/-- make_pluralrules/tests/fixtures/cldr_pluralrules_cardinals_33.json, part 36. -/
def cardinals33_36 : Str := c!"1.5, 10.0, 100.0, 1000.0, 10000.0, 100000.0, 1000000.0, …\"\n      },\n      \"kk\": {\n        \"pluralRule-count-one\": \"n = 1 @integer 1 @decimal 1.0, 1.00, 1.000, 1.0000\",\n        \"pluralRule-count-other\": \" @integer 0, 2~16, 100, 1000, 10000, 100000, 1000000, … @decimal 0.0~0.9, 1.1~1.6, 10.0, 100.0, 1000.0, 10000.0, 100000.0, 1000000.0, …\"\n      },\n      \"kkj\": {\n        \"pluralRule-count-one\": \"n = 1 @integer 1 @decimal 1.0, 1.00, 1.000, 1.0000\",\n        \"pluralRule-count-other\": \" @integer 0, 2~16, 100, 1000, 10000, 100000, 1000000, … @decimal 0.0~0.9, 1.1~1.6, 10.0, 100.0, 1000.0, 10000.0, 100000.0, 1000000.0, …\"\n      },\n      \"kl\": {\n        \"pluralRule-count-one\": \"n = 1 @integer 1 @decimal 1.0, 1.00, 1.000, 1.0000\",\n        \"pluralRule-count-other\": \" @integer 0, 2~16, 100"

/-- make_pluralrules/tests/fixtures/cldr_pluralrules_cardinals_33.json, part 37. -/
def cardinals33_37 : Str := c!", 1000, 10000, 100000, 1000000, … @decimal 0.0~0.9, 1.1~1.6, 10.0, 100.0, 1000.0, 10000.0, 100000.0, 1000000.0, …\"\n      },\n      \"km\": {\n        \"pluralRule-count-other\": \" @integer 0~15, 100, 1000, 10000, 100000, 1000000, … @decimal 0.0~1.5, 10.0, 100.0, 1000.0, 10000.0, 100000.0, 1000000.0, …\"\n      },\n      \"kn\": {\n        \"pluralRule-count-one\": \"i = 0 or n = 1 @integer 0, 1 @decimal 0.0~1.0, 0.00~0.04\",\n        \"pluralRule-count-other\": \" @integer 2~17, 100, 1000, 10000, 100000, 1000000, … @decimal 1.1~2.6, 10.0, 100.0, 1000.0, 10000.0, 100000.0, 1000000.0, …\"\n      },\n      \"ko\": {\n        \"pluralRule-count-other\": \" @integer 0~15, 100, 1000, 10000, 100000, 1000000, … @decimal 0.0~1.5, 10.0, 100.0, 1000.0, 10000.0, 100000.0, 1000000.0, …\"\n      },\n      \"ks\": {\n        "

/-- make_pluralrules/tests/fixtures/cldr_pluralrules_cardinals_33.json, part 38. -/
def cardinals33_38 : Str := c!"\"pluralRule-count-one\": \"n = 1 @integer 1 @decimal 1.0, 1.00, 1.000, 1.0000\",\n        \"pluralRule-count-other\": \" @integer 0, 2~16, 100, 1000, 10000, 100000, 1000000, … @decimal 0.0~0.9, 1.1~1.6, 10.0, 100.0, 1000.0, 10000.0, 100000.0, 1000000.0, …\"\n      },\n      \"ksb\": {\n        \"pluralRule-count-one\": \"n = 1 @integer 1 @decimal 1.0, 1.00, 1.000, 1.0000\",\n        \"pluralRule-count-other\": \" @integer 0, 2~16, 100, 1000, 10000, 100000, 1000000, … @decimal 0.0~0.9, 1.1~1.6, 10.0, 100.0, 1000.0, 10000.0, 100000.0, 1000000.0, …\"\n      },\n      \"ksh\": {\n        \"pluralRule-count-zero\": \"n = 0 @integer 0 @decimal 0.0, 0.00, 0.000, 0.0000\",\n        \"pluralRule-count-one\": \"n = 1 @integer 1 @decimal 1.0, 1.00, 1.000, 1.0000\",\n        \"pluralRule-count-other\": \" @integer 2~17, 100, 1000,"

/-- make_pluralrules/tests/fixtures/cldr_pluralrules_cardinals_33.json, part 39. -/
def cardinals33_39 : Str := c!" 10000, 100000, 1000000, … @decimal 0.1~0.9, 1.1~1.7, 10.0, 100.0, 1000.0, 10000.0, 100000.0, 1000000.0, …\"\n      },\n      \"ku\": {\n        \"pluralRule-count-one\": \"n = 1 @integer 1 @decimal 1.0, 1.00, 1.000, 1.0000\",\n        \"pluralRule-count-other\": \" @integer 0, 2~16, 100, 1000, 10000, 100000, 1000000, … @decimal 0.0~0.9, 1.1~1.6, 10.0, 100.0, 1000.0, 10000.0, 100000.0, 1000000.0, …\"\n      },\n      \"kw\": {\n        \"pluralRule-count-one\": \"n = 1 @integer 1 @decimal 1.0, 1.00, 1.000, 1.0000\",\n        \"pluralRule-count-two\": \"n = 2 @integer 2 @decimal 2.0, 2.00, 2.000, 2.0000\",\n        \"pluralRule-count-other\": \" @integer 0, 3~17, 100, 1000, 10000, 100000, 1000000, … @decimal 0.0~0.9, 1.1~1.6, 10.0, 100.0, 1000.0, 10000.0, 100000.0, 1000000.0, …\"\n      },\n      \"ky\": {\n        \""

/-- make_pluralrules/tests/fixtures/cldr_pluralrules_cardinals_33.json, part 40. -/
def cardinals33_40 : Str := c!"pluralRule-count-one\": \"n = 1 @integer 1 @decimal 1.0, 1.00, 1.000, 1.0000\",\n        \"pluralRule-count-other\": \" @integer 0, 2~16, 100, 1000, 10000, 100000, 1000000, … @decimal 0.0~0.9, 1.1~1.6, 10.0, 100.0, 1000.0, 10000.0, 100000.0, 1000000.0, …\"\n      },\n      \"lag\": {\n        \"pluralRule-count-zero\": \"n = 0 @integer 0 @decimal 0.0, 0.00, 0.000, 0.0000\",\n        \"pluralRule-count-one\": \"i = 0,1 and n != 0 @integer 1 @decimal 0.1~1.6\",\n        \"pluralRule-count-other\": \" @integer 2~17, 100, 1000, 10000, 100000, 1000000, … @decimal 2.0~3.5, 10.0, 100.0, 1000.0, 10000.0, 100000.0, 1000000.0, …\"\n      },\n      \"lb\": {\n        \"pluralRule-count-one\": \"n = 1 @integer 1 @decimal 1.0, 1.00, 1.000, 1.0000\",\n        \"pluralRule-count-other\": \" @integer 0, 2~16, 100, 1000, 10000, 100000,"

/-- make_pluralrules/tests/fixtures/cldr_pluralrules_cardinals_33.json, part 41. -/
def cardinals33_41 : Str := c!" 1000000, … @decimal 0.0~0.9, 1.1~1.6, 10.0, 100.0, 1000.0, 10000.0, 100000.0, 1000000.0, …\"\n      },\n      \"lg\": {\n        \"pluralRule-count-one\": \"n = 1 @integer 1 @decimal 1.0, 1.00, 1.000, 1.0000\",\n        \"pluralRule-count-other\": \" @integer 0, 2~16, 100, 1000, 10000, 100000, 1000000, … @decimal 0.0~0.9, 1.1~1.6, 10.0, 100.0, 1000.0, 10000.0, 100000.0, 1000000.0, …\"\n      },\n      \"lkt\": {\n        \"pluralRule-count-other\": \" @integer 0~15, 100, 1000, 10000, 100000, 1000000, … @decimal 0.0~1.5, 10.0, 100.0, 1000.0, 10000.0, 100000.0, 1000000.0, …\"\n      },\n      \"ln\": {\n        \"pluralRule-count-one\": \"n = 0..1 @integer 0, 1 @decimal 0.0, 1.0, 0.00, 1.00, 0.000, 1.000, 0.0000, 1.0000\",\n        \"pluralRule-count-other\": \" @integer 2~17, 100, 1000, 10000, 100000, 1000000, … @d"

/-- make_pluralrules/tests/fixtures/cldr_pluralrules_cardinals_33.json, part 42. -/
def cardinals33_42 : Str := c!"ecimal 0.1~0.9, 1.1~1.7, 10.0, 100.0, 1000.0, 10000.0, 100000.0, 1000000.0, …\"\n      },\n      \"lo\": {\n        \"pluralRule-count-other\": \" @integer 0~15, 100, 1000, 10000, 100000, 1000000, … @decimal 0.0~1.5, 10.0, 100.0, 1000.0, 10000.0, 100000.0, 1000000.0, …\"\n      },\n      \"lt\": {\n        \"pluralRule-count-one\": \"n % 10 = 1 and n % 100 != 11..19 @integer 1, 21, 31, 41, 51, 61, 71, 81, 101, 1001, … @decimal 1.0, 21.0, 31.0, 41.0, 51.0, 61.0, 71.0, 81.0, 101.0, 1001.0, …\",\n        \"pluralRule-count-few\": \"n % 10 = 2..9 and n % 100 != 11..19 @integer 2~9, 22~29, 102, 1002, … @decimal 2.0, 3.0, 4.0, 5.0, 6.0, 7.0, 8.0, 9.0, 22.0, 102.0, 1002.0, …\",\n        \"pluralRule-count-many\": \"f != 0   @decimal 0.1~0.9, 1.1~1.7, 10.1, 100.1, 1000.1, …\",\n        \"pluralRule-count-other\": \" @int"

/-- make_pluralrules/tests/fixtures/cldr_pluralrules_cardinals_33.json, part 43. -/
def cardinals33_43 : Str := c!"eger 0, 10~20, 30, 40, 50, 60, 100, 1000, 10000, 100000, 1000000, … @decimal 0.0, 10.0, 11.0, 12.0, 13.0, 14.0, 15.0, 16.0, 100.0, 1000.0, 10000.0, 100000.0, 1000000.0, …\"\n      },\n      \"lv\": {\n        \"pluralRule-count-zero\": \"n % 10 = 0 or n % 100 = 11..19 or v = 2 and f % 100 = 11..19 @integer 0, 10~20, 30, 40, 50, 60, 100, 1000, 10000, 100000, 1000000, … @decimal 0.0, 10.0, 11.0, 12.0, 13.0, 14.0, 15.0, 16.0, 100.0, 1000.0, 10000.0, 100000.0, 1000000.0, …\",\n        \"pluralRule-count-one\": \"n % 10 = 1 and n % 100 != 11 or v = 2 and f % 10 = 1 and f % 100 != 11 or v != 2 and f % 10 = 1 @integer 1, 21, 31, 41, 51, 61, 71, 81, 101, 1001, … @decimal 0.1, 1.0, 1.1, 2.1, 3.1, 4.1, 5.1, 6.1, 7.1, 10.1, 100.1, 1000.1, …\",\n        \"pluralRule-count-other\": \" @integer 2~9, 22~29, 102, 1002,"

/-- make_pluralrules/tests/fixtures/cldr_pluralrules_cardinals_33.json, part 44. -/
def cardinals33_44 : Str := c!" … @decimal 0.2~0.9, 1.2~1.9, 10.2, 100.2, 1000.2, …\"\n      },\n      \"mas\": {\n        \"pluralRule-count-one\": \"n = 1 @integer 1 @decimal 1.0, 1.00, 1.000, 1.0000\",\n        \"pluralRule-count-other\": \" @integer 0, 2~16, 100, 1000, 10000, 100000, 1000000, … @decimal 0.0~0.9, 1.1~1.6, 10.0, 100.0, 1000.0, 10000.0, 100000.0, 1000000.0, …\"\n      },\n      \"mg\": {\n        \"pluralRule-count-one\": \"n = 0..1 @integer 0, 1 @decimal 0.0, 1.0, 0.00, 1.00, 0.000, 1.000, 0.0000, 1.0000\",\n        \"pluralRule-count-other\": \" @integer 2~17, 100, 1000, 10000, 100000, 1000000, … @decimal 0.1~0.9, 1.1~1.7, 10.0, 100.0, 1000.0, 10000.0, 100000.0, 1000000.0, …\"\n      },\n      \"mgo\": {\n        \"pluralRule-count-one\": \"n = 1 @integer 1 @decimal 1.0, 1.00, 1.000, 1.0000\",\n        \"pluralRule-count-other\""

/-- make_pluralrules/tests/fixtures/cldr_pluralrules_cardinals_33.json, part 45. -/
def cardinals33_45 : Str := c!": \" @integer 0, 2~16, 100, 1000, 10000, 100000, 1000000, … @decimal 0.0~0.9, 1.1~1.6, 10.0, 100.0, 1000.0, 10000.0, 100000.0, 1000000.0, …\"\n      },\n      \"mk\": {\n        \"pluralRule-count-one\": \"v = 0 and i % 10 = 1 and i % 100 != 11 or f % 10 = 1 and f % 100 != 11 @integer 1, 21, 31, 41, 51, 61, 71, 81, 101, 1001, … @decimal 0.1, 1.1, 2.1, 3.1, 4.1, 5.1, 6.1, 7.1, 10.1, 100.1, 1000.1, …\",\n        \"pluralRule-count-other\": \" @integer 0, 2~16, 100, 1000, 10000, 100000, 1000000, … @decimal 0.0, 0.2~1.0, 1.2~1.7, 10.0, 100.0, 1000.0, 10000.0, 100000.0, 1000000.0, …\"\n      },\n      \"ml\": {\n        \"pluralRule-count-one\": \"n = 1 @integer 1 @decimal 1.0, 1.00, 1.000, 1.0000\",\n        \"pluralRule-count-other\": \" @integer 0, 2~16, 100, 1000, 10000, 100000, 1000000, … @decimal 0.0~0.9, 1.1"

/-- make_pluralrules/tests/fixtures/cldr_pluralrules_cardinals_33.json, part 46. -/
def cardinals33_46 : Str := c!"~1.6, 10.0, 100.0, 1000.0, 10000.0, 100000.0, 1000000.0, …\"\n      },\n      \"mn\": {\n        \"pluralRule-count-one\": \"n = 1 @integer 1 @decimal 1.0, 1.00, 1.000, 1.0000\",\n        \"pluralRule-count-other\": \" @integer 0, 2~16, 100, 1000, 10000, 100000, 1000000, … @decimal 0.0~0.9, 1.1~1.6, 10.0, 100.0, 1000.0, 10000.0, 100000.0, 1000000.0, …\"\n      },\n      \"mo\": {\n        \"pluralRule-count-one\": \"i = 1 and v = 0 @integer 1\",\n        \"pluralRule-count-few\": \"v != 0 or n = 0 or n != 1 and n % 100 = 1..19 @integer 0, 2~16, 101, 1001, … @decimal 0.0~1.5, 10.0, 100.0, 1000.0, 10000.0, 100000.0, 1000000.0, …\",\n        \"pluralRule-count-other\": \" @integer 20~35, 100, 1000, 10000, 100000, 1000000, …\"\n      },\n      \"mr\": {\n        \"pluralRule-count-one\": \"i = 0 or n = 1 @integer 0, 1 @dec"

/-- make_pluralrules/tests/fixtures/cldr_pluralrules_cardinals_33.json, part 47. -/
def cardinals33_47 : Str := c!"imal 0.0~1.0, 0.00~0.04\",\n        \"pluralRule-count-other\": \" @integer 2~17, 100, 1000, 10000, 100000, 1000000, … @decimal 1.1~2.6, 10.0, 100.0, 1000.0, 10000.0, 100000.0, 1000000.0, …\"\n      },\n      \"ms\": {\n        \"pluralRule-count-other\": \" @integer 0~15, 100, 1000, 10000, 100000, 1000000, … @decimal 0.0~1.5, 10.0, 100.0, 1000.0, 10000.0, 100000.0, 1000000.0, …\"\n      },\n      \"mt\": {\n        \"pluralRule-count-one\": \"n = 1 @integer 1 @decimal 1.0, 1.00, 1.000, 1.0000\",\n        \"pluralRule-count-few\": \"n = 0 or n % 100 = 2..10 @integer 0, 2~10, 102~107, 1002, … @decimal 0.0, 2.0, 3.0, 4.0, 5.0, 6.0, 7.0, 8.0, 10.0, 102.0, 1002.0, …\",\n        \"pluralRule-count-many\": \"n % 100 = 11..19 @integer 11~19, 111~117, 1011, … @decimal 11.0, 12.0, 13.0, 14.0, 15.0, 16.0, 17.0, 18.0, 111.0"

/-- make_pluralrules/tests/fixtures/cldr_pluralrules_cardinals_33.json, part 48. -/
def cardinals33_48 : Str := c!", 1011.0, …\",\n        \"pluralRule-count-other\": \" @integer 20~35, 100, 1000, 10000, 100000, 1000000, … @decimal 0.1~0.9, 1.1~1.7, 10.1, 100.0, 1000.0, 10000.0, 100000.0, 1000000.0, …\"\n      },\n      \"my\": {\n        \"pluralRule-count-other\": \" @integer 0~15, 100, 1000, 10000, 100000, 1000000, … @decimal 0.0~1.5, 10.0, 100.0, 1000.0, 10000.0, 100000.0, 1000000.0, …\"\n      },\n      \"nah\": {\n        \"pluralRule-count-one\": \"n = 1 @integer 1 @decimal 1.0, 1.00, 1.000, 1.0000\",\n        \"pluralRule-count-other\": \" @integer 0, 2~16, 100, 1000, 10000, 100000, 1000000, … @decimal 0.0~0.9, 1.1~1.6, 10.0, 100.0, 1000.0, 10000.0, 100000.0, 1000000.0, …\"\n      },\n      \"naq\": {\n        \"pluralRule-count-one\": \"n = 1 @integer 1 @decimal 1.0, 1.00, 1.000, 1.0000\",\n        \"pluralRule-count-two"

/-- make_pluralrules/tests/fixtures/cldr_pluralrules_cardinals_33.json, part 49. -/
def cardinals33_49 : Str := c!"\": \"n = 2 @integer 2 @decimal 2.0, 2.00, 2.000, 2.0000\",\n        \"pluralRule-count-other\": \" @integer 0, 3~17, 100, 1000, 10000, 100000, 1000000, … @decimal 0.0~0.9, 1.1~1.6, 10.0, 100.0, 1000.0, 10000.0, 100000.0, 1000000.0, …\"\n      },\n      \"nb\": {\n        \"pluralRule-count-one\": \"n = 1 @integer 1 @decimal 1.0, 1.00, 1.000, 1.0000\",\n        \"pluralRule-count-other\": \" @integer 0, 2~16, 100, 1000, 10000, 100000, 1000000, … @decimal 0.0~0.9, 1.1~1.6, 10.0, 100.0, 1000.0, 10000.0, 100000.0, 1000000.0, …\"\n      },\n      \"nd\": {\n        \"pluralRule-count-one\": \"n = 1 @integer 1 @decimal 1.0, 1.00, 1.000, 1.0000\",\n        \"pluralRule-count-other\": \" @integer 0, 2~16, 100, 1000, 10000, 100000, 1000000, … @decimal 0.0~0.9, 1.1~1.6, 10.0, 100.0, 1000.0, 10000.0, 100000.0, 1000000.0, …\""

/-- make_pluralrules/tests/fixtures/cldr_pluralrules_cardinals_33.json, part 50. -/
def cardinals33_50 : Str := c!"\n      },\n      \"ne\": {\n        \"pluralRule-count-one\": \"n = 1 @integer 1 @decimal 1.0, 1.00, 1.000, 1.0000\",\n        \"pluralRule-count-other\": \" @integer 0, 2~16, 100, 1000, 10000, 100000, 1000000, … @decimal 0.0~0.9, 1.1~1.6, 10.0, 100.0, 1000.0, 10000.0, 100000.0, 1000000.0, …\"\n      },\n      \"nl\": {\n        \"pluralRule-count-one\": \"i = 1 and v = 0 @integer 1\",\n        \"pluralRule-count-other\": \" @integer 0, 2~16, 100, 1000, 10000, 100000, 1000000, … @decimal 0.0~1.5, 10.0, 100.0, 1000.0, 10000.0, 100000.0, 1000000.0, …\"\n      },\n      \"nn\": {\n        \"pluralRule-count-one\": \"n = 1 @integer 1 @decimal 1.0, 1.00, 1.000, 1.0000\",\n        \"pluralRule-count-other\": \" @integer 0, 2~16, 100, 1000, 10000, 100000, 1000000, … @decimal 0.0~0.9, 1.1~1.6, 10.0, 100.0, 1000.0, 10000.0, 10"

/-- make_pluralrules/tests/fixtures/cldr_pluralrules_cardinals_33.json, part 51. -/
def cardinals33_51 : Str := c!"0000.0, 1000000.0, …\"\n      },\n      \"nnh\": {\n        \"pluralRule-count-one\": \"n = 1 @integer 1 @decimal 1.0, 1.00, 1.000, 1.0000\",\n        \"pluralRule-count-other\": \" @integer 0, 2~16, 100, 1000, 10000, 100000, 1000000, … @decimal 0.0~0.9, 1.1~1.6, 10.0, 100.0, 1000.0, 10000.0, 100000.0, 1000000.0, …\"\n      },\n      \"no\": {\n        \"pluralRule-count-one\": \"n = 1 @integer 1 @decimal 1.0, 1.00, 1.000, 1.0000\",\n        \"pluralRule-count-other\": \" @integer 0, 2~16, 100, 1000, 10000, 100000, 1000000, … @decimal 0.0~0.9, 1.1~1.6, 10.0, 100.0, 1000.0, 10000.0, 100000.0, 1000000.0, …\"\n      },\n      \"nqo\": {\n        \"pluralRule-count-other\": \" @integer 0~15, 100, 1000, 10000, 100000, 1000000, … @decimal 0.0~1.5, 10.0, 100.0, 1000.0, 10000.0, 100000.0, 1000000.0, …\"\n      },\n      \"nr"

/-- make_pluralrules/tests/fixtures/cldr_pluralrules_cardinals_33.json, part 52. -/
def cardinals33_52 : Str := c!"\": {\n        \"pluralRule-count-one\": \"n = 1 @integer 1 @decimal 1.0, 1.00, 1.000, 1.0000\",\n        \"pluralRule-count-other\": \" @integer 0, 2~16, 100, 1000, 10000, 100000, 1000000, … @decimal 0.0~0.9, 1.1~1.6, 10.0, 100.0, 1000.0, 10000.0, 100000.0, 1000000.0, …\"\n      },\n      \"nso\": {\n        \"pluralRule-count-one\": \"n = 0..1 @integer 0, 1 @decimal 0.0, 1.0, 0.00, 1.00, 0.000, 1.000, 0.0000, 1.0000\",\n        \"pluralRule-count-other\": \" @integer 2~17, 100, 1000, 10000, 100000, 1000000, … @decimal 0.1~0.9, 1.1~1.7, 10.0, 100.0, 1000.0, 10000.0, 100000.0, 1000000.0, …\"\n      },\n      \"ny\": {\n        \"pluralRule-count-one\": \"n = 1 @integer 1 @decimal 1.0, 1.00, 1.000, 1.0000\",\n        \"pluralRule-count-other\": \" @integer 0, 2~16, 100, 1000, 10000, 100000, 1000000, … @decimal 0.0~0.9"

/-- make_pluralrules/tests/fixtures/cldr_pluralrules_cardinals_33.json, part 53. -/
def cardinals33_53 : Str := c!", 1.1~1.6, 10.0, 100.0, 1000.0, 10000.0, 100000.0, 1000000.0, …\"\n      },\n      \"nyn\": {\n        \"pluralRule-count-one\": \"n = 1 @integer 1 @decimal 1.0, 1.00, 1.000, 1.0000\",\n        \"pluralRule-count-other\": \" @integer 0, 2~16, 100, 1000, 10000, 100000, 1000000, … @decimal 0.0~0.9, 1.1~1.6, 10.0, 100.0, 1000.0, 10000.0, 100000.0, 1000000.0, …\"\n      },\n      \"om\": {\n        \"pluralRule-count-one\": \"n = 1 @integer 1 @decimal 1.0, 1.00, 1.000, 1.0000\",\n        \"pluralRule-count-other\": \" @integer 0, 2~16, 100, 1000, 10000, 100000, 1000000, … @decimal 0.0~0.9, 1.1~1.6, 10.0, 100.0, 1000.0, 10000.0, 100000.0, 1000000.0, …\"\n      },\n      \"or\": {\n        \"pluralRule-count-one\": \"n = 1 @integer 1 @decimal 1.0, 1.00, 1.000, 1.0000\",\n        \"pluralRule-count-other\": \" @integer 0, 2~1"

/-- make_pluralrules/tests/fixtures/cldr_pluralrules_cardinals_33.json, part 54. -/
def cardinals33_54 : Str := c!"6, 100, 1000, 10000, 100000, 1000000, … @decimal 0.0~0.9, 1.1~1.6, 10.0, 100.0, 1000.0, 10000.0, 100000.0, 1000000.0, …\"\n      },\n      \"os\": {\n        \"pluralRule-count-one\": \"n = 1 @integer 1 @decimal 1.0, 1.00, 1.000, 1.0000\",\n        \"pluralRule-count-other\": \" @integer 0, 2~16, 100, 1000, 10000, 100000, 1000000, … @decimal 0.0~0.9, 1.1~1.6, 10.0, 100.0, 1000.0, 10000.0, 100000.0, 1000000.0, …\"\n      },\n      \"pa\": {\n        \"pluralRule-count-one\": \"n = 0..1 @integer 0, 1 @decimal 0.0, 1.0, 0.00, 1.00, 0.000, 1.000, 0.0000, 1.0000\",\n        \"pluralRule-count-other\": \" @integer 2~17, 100, 1000, 10000, 100000, 1000000, … @decimal 0.1~0.9, 1.1~1.7, 10.0, 100.0, 1000.0, 10000.0, 100000.0, 1000000.0, …\"\n      },\n      \"pap\": {\n        \"pluralRule-count-one\": \"n = 1 @integer 1 @de"

/-- make_pluralrules/tests/fixtures/cldr_pluralrules_cardinals_33.json, part 55. -/
def cardinals33_55 : Str := c!"cimal 1.0, 1.00, 1.000, 1.0000\",\n        \"pluralRule-count-other\": \" @integer 0, 2~16, 100, 1000, 10000, 100000, 1000000, … @decimal 0.0~0.9, 1.1~1.6, 10.0, 100.0, 1000.0, 10000.0, 100000.0, 1000000.0, …\"\n      },\n      \"pl\": {\n        \"pluralRule-count-one\": \"i = 1 and v = 0 @integer 1\",\n        \"pluralRule-count-few\": \"v = 0 and i % 10 = 2..4 and i % 100 != 12..14 @integer 2~4, 22~24, 32~34, 42~44, 52~54, 62, 102, 1002, …\",\n        \"pluralRule-count-many\": \"v = 0 and i != 1 and i % 10 = 0..1 or v = 0 and i % 10 = 5..9 or v = 0 and i % 100 = 12..14 @integer 0, 5~19, 100, 1000, 10000, 100000, 1000000, …\",\n        \"pluralRule-count-other\": \"   @decimal 0.0~1.5, 10.0, 100.0, 1000.0, 10000.0, 100000.0, 1000000.0, …\"\n      },\n      \"prg\": {\n        \"pluralRule-count-zero\": \"n % 10 = "

/-- make_pluralrules/tests/fixtures/cldr_pluralrules_cardinals_33.json, part 56. -/
def cardinals33_56 : Str := c!"0 or n % 100 = 11..19 or v = 2 and f % 100 = 11..19 @integer 0, 10~20, 30, 40, 50, 60, 100, 1000, 10000, 100000, 1000000, … @decimal 0.0, 10.0, 11.0, 12.0, 13.0, 14.0, 15.0, 16.0, 100.0, 1000.0, 10000.0, 100000.0, 1000000.0, …\",\n        \"pluralRule-count-one\": \"n % 10 = 1 and n % 100 != 11 or v = 2 and f % 10 = 1 and f % 100 != 11 or v != 2 and f % 10 = 1 @integer 1, 21, 31, 41, 51, 61, 71, 81, 101, 1001, … @decimal 0.1, 1.0, 1.1, 2.1, 3.1, 4.1, 5.1, 6.1, 7.1, 10.1, 100.1, 1000.1, …\",\n        \"pluralRule-count-other\": \" @integer 2~9, 22~29, 102, 1002, … @decimal 0.2~0.9, 1.2~1.9, 10.2, 100.2, 1000.2, …\"\n      },\n      \"ps\": {\n        \"pluralRule-count-one\": \"n = 1 @integer 1 @decimal 1.0, 1.00, 1.000, 1.0000\",\n        \"pluralRule-count-other\": \" @integer 0, 2~16, 100, 1000, 10000, 10"

/-- make_pluralrules/tests/fixtures/cldr_pluralrules_cardinals_33.json, part 57. -/
def cardinals33_57 : Str := c!"0000, 1000000, … @decimal 0.0~0.9, 1.1~1.6, 10.0, 100.0, 1000.0, 10000.0, 100000.0, 1000000.0, …\"\n      },\n      \"pt\": {\n        \"pluralRule-count-one\": \"i = 0..1 @integer 0, 1 @decimal 0.0~1.5\",\n        \"pluralRule-count-other\": \" @integer 2~17, 100, 1000, 10000, 100000, 1000000, … @decimal 2.0~3.5, 10.0, 100.0, 1000.0, 10000.0, 100000.0, 1000000.0, …\"\n      },\n      \"pt-PT\": {\n        \"pluralRule-count-one\": \"i = 1 and v = 0 @integer 1\",\n        \"pluralRule-count-other\": \" @integer 0, 2~16, 100, 1000, 10000, 100000, 1000000, … @decimal 0.0~1.5, 10.0, 100.0, 1000.0, 10000.0, 100000.0, 1000000.0, …\"\n      },\n      \"rm\": {\n        \"pluralRule-count-one\": \"n = 1 @integer 1 @decimal 1.0, 1.00, 1.000, 1.0000\",\n        \"pluralRule-count-other\": \" @integer 0, 2~16, 100, 1000, 10000, "

/-- make_pluralrules/tests/fixtures/cldr_pluralrules_cardinals_33.json, part 58. -/
def cardinals33_58 : Str := c!"100000, 1000000, … @decimal 0.0~0.9, 1.1~1.6, 10.0, 100.0, 1000.0, 10000.0, 100000.0, 1000000.0, …\"\n      },\n      \"ro\": {\n        \"pluralRule-count-one\": \"i = 1 and v = 0 @integer 1\",\n        \"pluralRule-count-few\": \"v != 0 or n = 0 or n != 1 and n % 100 = 1..19 @integer 0, 2~16, 101, 1001, … @decimal 0.0~1.5, 10.0, 100.0, 1000.0, 10000.0, 100000.0, 1000000.0, …\",\n        \"pluralRule-count-other\": \" @integer 20~35, 100, 1000, 10000, 100000, 1000000, …\"\n      },\n      \"rof\": {\n        \"pluralRule-count-one\": \"n = 1 @integer 1 @decimal 1.0, 1.00, 1.000, 1.0000\",\n        \"pluralRule-count-other\": \" @integer 0, 2~16, 100, 1000, 10000, 100000, 1000000, … @decimal 0.0~0.9, 1.1~1.6, 10.0, 100.0, 1000.0, 10000.0, 100000.0, 1000000.0, …\"\n      },\n      \"root\": {\n        \"pluralRule-cou"

/-- make_pluralrules/tests/fixtures/cldr_pluralrules_cardinals_33.json, part 59. -/
def cardinals33_59 : Str := c!"nt-other\": \" @integer 0~15, 100, 1000, 10000, 100000, 1000000, … @decimal 0.0~1.5, 10.0, 100.0, 1000.0, 10000.0, 100000.0, 1000000.0, …\"\n      },\n      \"ru\": {\n        \"pluralRule-count-one\": \"v = 0 and i % 10 = 1 and i % 100 != 11 @integer 1, 21, 31, 41, 51, 61, 71, 81, 101, 1001, …\",\n        \"pluralRule-count-few\": \"v = 0 and i % 10 = 2..4 and i % 100 != 12..14 @integer 2~4, 22~24, 32~34, 42~44, 52~54, 62, 102, 1002, …\",\n        \"pluralRule-count-many\": \"v = 0 and i % 10 = 0 or v = 0 and i % 10 = 5..9 or v = 0 and i % 100 = 11..14 @integer 0, 5~19, 100, 1000, 10000, 100000, 1000000, …\",\n        \"pluralRule-count-other\": \"   @decimal 0.0~1.5, 10.0, 100.0, 1000.0, 10000.0, 100000.0, 1000000.0, …\"\n      },\n      \"rwk\": {\n        \"pluralRule-count-one\": \"n = 1 @integer 1 @decimal 1."

/-- make_pluralrules/tests/fixtures/cldr_pluralrules_cardinals_33.json, part 60. -/
def cardinals33_60 : Str := c!"0, 1.00, 1.000, 1.0000\",\n        \"pluralRule-count-other\": \" @integer 0, 2~16, 100, 1000, 10000, 100000, 1000000, … @decimal 0.0~0.9, 1.1~1.6, 10.0, 100.0, 1000.0, 10000.0, 100000.0, 1000000.0, …\"\n      },\n      \"sah\": {\n        \"pluralRule-count-other\": \" @integer 0~15, 100, 1000, 10000, 100000, 1000000, … @decimal 0.0~1.5, 10.0, 100.0, 1000.0, 10000.0, 100000.0, 1000000.0, …\"\n      },\n      \"saq\": {\n        \"pluralRule-count-one\": \"n = 1 @integer 1 @decimal 1.0, 1.00, 1.000, 1.0000\",\n        \"pluralRule-count-other\": \" @integer 0, 2~16, 100, 1000, 10000, 100000, 1000000, … @decimal 0.0~0.9, 1.1~1.6, 10.0, 100.0, 1000.0, 10000.0, 100000.0, 1000000.0, …\"\n      },\n      \"scn\": {\n        \"pluralRule-count-one\": \"i = 1 and v = 0 @integer 1\",\n        \"pluralRule-count-other\": \" @in"

/-- make_pluralrules/tests/fixtures/cldr_pluralrules_cardinals_33.json, part 61. -/
def cardinals33_61 : Str := c!"teger 0, 2~16, 100, 1000, 10000, 100000, 1000000, … @decimal 0.0~1.5, 10.0, 100.0, 1000.0, 10000.0, 100000.0, 1000000.0, …\"\n      },\n      \"sd\": {\n        \"pluralRule-count-one\": \"n = 1 @integer 1 @decimal 1.0, 1.00, 1.000, 1.0000\",\n        \"pluralRule-count-other\": \" @integer 0, 2~16, 100, 1000, 10000, 100000, 1000000, … @decimal 0.0~0.9, 1.1~1.6, 10.0, 100.0, 1000.0, 10000.0, 100000.0, 1000000.0, …\"\n      },\n      \"sdh\": {\n        \"pluralRule-count-one\": \"n = 1 @integer 1 @decimal 1.0, 1.00, 1.000, 1.0000\",\n        \"pluralRule-count-other\": \" @integer 0, 2~16, 100, 1000, 10000, 100000, 1000000, … @decimal 0.0~0.9, 1.1~1.6, 10.0, 100.0, 1000.0, 10000.0, 100000.0, 1000000.0, …\"\n      },\n      \"se\": {\n        \"pluralRule-count-one\": \"n = 1 @integer 1 @decimal 1.0, 1.00, 1.000, 1."

/-- make_pluralrules/tests/fixtures/cldr_pluralrules_cardinals_33.json, part 62. -/
def cardinals33_62 : Str := c!"0000\",\n        \"pluralRule-count-two\": \"n = 2 @integer 2 @decimal 2.0, 2.00, 2.000, 2.0000\",\n        \"pluralRule-count-other\": \" @integer 0, 3~17, 100, 1000, 10000, 100000, 1000000, … @decimal 0.0~0.9, 1.1~1.6, 10.0, 100.0, 1000.0, 10000.0, 100000.0, 1000000.0, …\"\n      },\n      \"seh\": {\n        \"pluralRule-count-one\": \"n = 1 @integer 1 @decimal 1.0, 1.00, 1.000, 1.0000\",\n        \"pluralRule-count-other\": \" @integer 0, 2~16, 100, 1000, 10000, 100000, 1000000, … @decimal 0.0~0.9, 1.1~1.6, 10.0, 100.0, 1000.0, 10000.0, 100000.0, 1000000.0, …\"\n      },\n      \"ses\": {\n        \"pluralRule-count-other\": \" @integer 0~15, 100, 1000, 10000, 100000, 1000000, … @decimal 0.0~1.5, 10.0, 100.0, 1000.0, 10000.0, 100000.0, 1000000.0, …\"\n      },\n      \"sg\": {\n        \"pluralRule-count-other\": "

/-- make_pluralrules/tests/fixtures/cldr_pluralrules_cardinals_33.json, part 63. -/
def cardinals33_63 : Str := c!"\" @integer 0~15, 100, 1000, 10000, 100000, 1000000, … @decimal 0.0~1.5, 10.0, 100.0, 1000.0, 10000.0, 100000.0, 1000000.0, …\"\n      },\n      \"sh\": {\n        \"pluralRule-count-one\": \"v = 0 and i % 10 = 1 and i % 100 != 11 or f % 10 = 1 and f % 100 != 11 @integer 1, 21, 31, 41, 51, 61, 71, 81, 101, 1001, … @decimal 0.1, 1.1, 2.1, 3.1, 4.1, 5.1, 6.1, 7.1, 10.1, 100.1, 1000.1, …\",\n        \"pluralRule-count-few\": \"v = 0 and i % 10 = 2..4 and i % 100 != 12..14 or f % 10 = 2..4 and f % 100 != 12..14 @integer 2~4, 22~24, 32~34, 42~44, 52~54, 62, 102, 1002, … @decimal 0.2~0.4, 1.2~1.4, 2.2~2.4, 3.2~3.4, 4.2~4.4, 5.2, 10.2, 100.2, 1000.2, …\",\n        \"pluralRule-count-other\": \" @integer 0, 5~19, 100, 1000, 10000, 100000, 1000000, … @decimal 0.0, 0.5~1.0, 1.5~2.0, 2.5~2.7, 10.0, 100.0, 1000.0, 1"

/-- make_pluralrules/tests/fixtures/cldr_pluralrules_cardinals_33.json, part 64. -/
def cardinals33_64 : Str := c!"0000.0, 100000.0, 1000000.0, …\"\n      },\n      \"shi\": {\n        \"pluralRule-count-one\": \"i = 0 or n = 1 @integer 0, 1 @decimal 0.0~1.0, 0.00~0.04\",\n        \"pluralRule-count-few\": \"n = 2..10 @integer 2~10 @decimal 2.0, 3.0, 4.0, 5.0, 6.0, 7.0, 8.0, 9.0, 10.0, 2.00, 3.00, 4.00, 5.00, 6.00, 7.00, 8.00\",\n        \"pluralRule-count-other\": \" @integer 11~26, 100, 1000, 10000, 100000, 1000000, … @decimal 1.1~1.9, 2.1~2.7, 10.1, 100.0, 1000.0, 10000.0, 100000.0, 1000000.0, …\"\n      },\n      \"si\": {\n        \"pluralRule-count-one\": \"n = 0,1 or i = 0 and f = 1 @integer 0, 1 @decimal 0.0, 0.1, 1.0, 0.00, 0.01, 1.00, 0.000, 0.001, 1.000, 0.0000, 0.0001, 1.0000\",\n        \"pluralRule-count-other\": \" @integer 2~17, 100, 1000, 10000, 100000, 1000000, … @decimal 0.2~0.9, 1.1~1.8, 10.0, 100.0, 1000."

/-- make_pluralrules/tests/fixtures/cldr_pluralrules_cardinals_33.json, part 65. -/
def cardinals33_65 : Str := c!"0, 10000.0, 100000.0, 1000000.0, …\"\n      },\n      \"sk\": {\n        \"pluralRule-count-one\": \"i = 1 and v = 0 @integer 1\",\n        \"pluralRule-count-few\": \"i = 2..4 and v = 0 @integer 2~4\",\n        \"pluralRule-count-many\": \"v != 0   @decimal 0.0~1.5, 10.0, 100.0, 1000.0, 10000.0, 100000.0, 1000000.0, …\",\n        \"pluralRule-count-other\": \" @integer 0, 5~19, 100, 1000, 10000, 100000, 1000000, …\"\n      },\n      \"sl\": {\n        \"pluralRule-count-one\": \"v = 0 and i % 100 = 1 @integer 1, 101, 201, 301, 401, 501, 601, 701, 1001, …\",\n        \"pluralRule-count-two\": \"v = 0 and i % 100 = 2 @integer 2, 102, 202, 302, 402, 502, 602, 702, 1002, …\",\n        \"pluralRule-count-few\": \"v = 0 and i % 100 = 3..4 or v != 0 @integer 3, 4, 103, 104, 203, 204, 303, 304, 403, 404, 503, 504, 603, 604, 703"

/-- make_pluralrules/tests/fixtures/cldr_pluralrules_cardinals_33.json, part 66. -/
def cardinals33_66 : Str := c!", 704, 1003, … @decimal 0.0~1.5, 10.0, 100.0, 1000.0, 10000.0, 100000.0, 1000000.0, …\",\n        \"pluralRule-count-other\": \" @integer 0, 5~19, 100, 1000, 10000, 100000, 1000000, …\"\n      },\n      \"sma\": {\n        \"pluralRule-count-one\": \"n = 1 @integer 1 @decimal 1.0, 1.00, 1.000, 1.0000\",\n        \"pluralRule-count-two\": \"n = 2 @integer 2 @decimal 2.0, 2.00, 2.000, 2.0000\",\n        \"pluralRule-count-other\": \" @integer 0, 3~17, 100, 1000, 10000, 100000, 1000000, … @decimal 0.0~0.9, 1.1~1.6, 10.0, 100.0, 1000.0, 10000.0, 100000.0, 1000000.0, …\"\n      },\n      \"smi\": {\n        \"pluralRule-count-one\": \"n = 1 @integer 1 @decimal 1.0, 1.00, 1.000, 1.0000\",\n        \"pluralRule-count-two\": \"n = 2 @integer 2 @decimal 2.0, 2.00, 2.000, 2.0000\",\n        \"pluralRule-count-other\": \" @integer "

/-- make_pluralrules/tests/fixtures/cldr_pluralrules_cardinals_33.json, part 67. -/
def cardinals33_67 : Str := c!"0, 3~17, 100, 1000, 10000, 100000, 1000000, … @decimal 0.0~0.9, 1.1~1.6, 10.0, 100.0, 1000.0, 10000.0, 100000.0, 1000000.0, …\"\n      },\n      \"smj\": {\n        \"pluralRule-count-one\": \"n = 1 @integer 1 @decimal 1.0, 1.00, 1.000, 1.0000\",\n        \"pluralRule-count-two\": \"n = 2 @integer 2 @decimal 2.0, 2.00, 2.000, 2.0000\",\n        \"pluralRule-count-other\": \" @integer 0, 3~17, 100, 1000, 10000, 100000, 1000000, … @decimal 0.0~0.9, 1.1~1.6, 10.0, 100.0, 1000.0, 10000.0, 100000.0, 1000000.0, …\"\n      },\n      \"smn\": {\n        \"pluralRule-count-one\": \"n = 1 @integer 1 @decimal 1.0, 1.00, 1.000, 1.0000\",\n        \"pluralRule-count-two\": \"n = 2 @integer 2 @decimal 2.0, 2.00, 2.000, 2.0000\",\n        \"pluralRule-count-other\": \" @integer 0, 3~17, 100, 1000, 10000, 100000, 1000000, … @decimal"

/-- make_pluralrules/tests/fixtures/cldr_pluralrules_cardinals_33.json, part 68. -/
def cardinals33_68 : Str := c!" 0.0~0.9, 1.1~1.6, 10.0, 100.0, 1000.0, 10000.0, 100000.0, 1000000.0, …\"\n      },\n      \"sms\": {\n        \"pluralRule-count-one\": \"n = 1 @integer 1 @decimal 1.0, 1.00, 1.000, 1.0000\",\n        \"pluralRule-count-two\": \"n = 2 @integer 2 @decimal 2.0, 2.00, 2.000, 2.0000\",\n        \"pluralRule-count-other\": \" @integer 0, 3~17, 100, 1000, 10000, 100000, 1000000, … @decimal 0.0~0.9, 1.1~1.6, 10.0, 100.0, 1000.0, 10000.0, 100000.0, 1000000.0, …\"\n      },\n      \"sn\": {\n        \"pluralRule-count-one\": \"n = 1 @integer 1 @decimal 1.0, 1.00, 1.000, 1.0000\",\n        \"pluralRule-count-other\": \" @integer 0, 2~16, 100, 1000, 10000, 100000, 1000000, … @decimal 0.0~0.9, 1.1~1.6, 10.0, 100.0, 1000.0, 10000.0, 100000.0, 1000000.0, …\"\n      },\n      \"so\": {\n        \"pluralRule-count-one\": \"n = 1 @int"

/-- make_pluralrules/tests/fixtures/cldr_pluralrules_cardinals_33.json, part 69. -/
def cardinals33_69 : Str := c!"eger 1 @decimal 1.0, 1.00, 1.000, 1.0000\",\n        \"pluralRule-count-other\": \" @integer 0, 2~16, 100, 1000, 10000, 100000, 1000000, … @decimal 0.0~0.9, 1.1~1.6, 10.0, 100.0, 1000.0, 10000.0, 100000.0, 1000000.0, …\"\n      },\n      \"sq\": {\n        \"pluralRule-count-one\": \"n = 1 @integer 1 @decimal 1.0, 1.00, 1.000, 1.0000\",\n        \"pluralRule-count-other\": \" @integer 0, 2~16, 100, 1000, 10000, 100000, 1000000, … @decimal 0.0~0.9, 1.1~1.6, 10.0, 100.0, 1000.0, 10000.0, 100000.0, 1000000.0, …\"\n      },\n      \"sr\": {\n        \"pluralRule-count-one\": \"v = 0 and i % 10 = 1 and i % 100 != 11 or f % 10 = 1 and f % 100 != 11 @integer 1, 21, 31, 41, 51, 61, 71, 81, 101, 1001, … @decimal 0.1, 1.1, 2.1, 3.1, 4.1, 5.1, 6.1, 7.1, 10.1, 100.1, 1000.1, …\",\n        \"pluralRule-count-few\": \"v = 0 an"

/-- make_pluralrules/tests/fixtures/cldr_pluralrules_cardinals_33.json, part 70. -/
def cardinals33_70 : Str := c!"d i % 10 = 2..4 and i % 100 != 12..14 or f % 10 = 2..4 and f % 100 != 12..14 @integer 2~4, 22~24, 32~34, 42~44, 52~54, 62, 102, 1002, … @decimal 0.2~0.4, 1.2~1.4, 2.2~2.4, 3.2~3.4, 4.2~4.4, 5.2, 10.2, 100.2, 1000.2, …\",\n        \"pluralRule-count-other\": \" @integer 0, 5~19, 100, 1000, 10000, 100000, 1000000, … @decimal 0.0, 0.5~1.0, 1.5~2.0, 2.5~2.7, 10.0, 100.0, 1000.0, 10000.0, 100000.0, 1000000.0, …\"\n      },\n      \"ss\": {\n        \"pluralRule-count-one\": \"n = 1 @integer 1 @decimal 1.0, 1.00, 1.000, 1.0000\",\n        \"pluralRule-count-other\": \" @integer 0, 2~16, 100, 1000, 10000, 100000, 1000000, … @decimal 0.0~0.9, 1.1~1.6, 10.0, 100.0, 1000.0, 10000.0, 100000.0, 1000000.0, …\"\n      },\n      \"ssy\": {\n        \"pluralRule-count-one\": \"n = 1 @integer 1 @decimal 1.0, 1.00, 1.000, 1.00"

/-- make_pluralrules/tests/fixtures/cldr_pluralrules_cardinals_33.json, part 71. -/
def cardinals33_71 : Str := c!"00\",\n        \"pluralRule-count-other\": \" @integer 0, 2~16, 100, 1000, 10000, 100000, 1000000, … @decimal 0.0~0.9, 1.1~1.6, 10.0, 100.0, 1000.0, 10000.0, 100000.0, 1000000.0, …\"\n      },\n      \"st\": {\n        \"pluralRule-count-one\": \"n = 1 @integer 1 @decimal 1.0, 1.00, 1.000, 1.0000\",\n        \"pluralRule-count-other\": \" @integer 0, 2~16, 100, 1000, 10000, 100000, 1000000, … @decimal 0.0~0.9, 1.1~1.6, 10.0, 100.0, 1000.0, 10000.0, 100000.0, 1000000.0, …\"\n      },\n      \"sv\": {\n        \"pluralRule-count-one\": \"i = 1 and v = 0 @integer 1\",\n        \"pluralRule-count-other\": \" @integer 0, 2~16, 100, 1000, 10000, 100000, 1000000, … @decimal 0.0~1.5, 10.0, 100.0, 1000.0, 10000.0, 100000.0, 1000000.0, …\"\n      },\n      \"sw\": {\n        \"pluralRule-count-one\": \"i = 1 and v = 0 @integer 1"

/-- make_pluralrules/tests/fixtures/cldr_pluralrules_cardinals_33.json, part 72. -/
def cardinals33_72 : Str := c!"\",\n        \"pluralRule-count-other\": \" @integer 0, 2~16, 100, 1000, 10000, 100000, 1000000, … @decimal 0.0~1.5, 10.0, 100.0, 1000.0, 10000.0, 100000.0, 1000000.0, …\"\n      },\n      \"syr\": {\n        \"pluralRule-count-one\": \"n = 1 @integer 1 @decimal 1.0, 1.00, 1.000, 1.0000\",\n        \"pluralRule-count-other\": \" @integer 0, 2~16, 100, 1000, 10000, 100000, 1000000, … @decimal 0.0~0.9, 1.1~1.6, 10.0, 100.0, 1000.0, 10000.0, 100000.0, 1000000.0, …\"\n      },\n      \"ta\": {\n        \"pluralRule-count-one\": \"n = 1 @integer 1 @decimal 1.0, 1.00, 1.000, 1.0000\",\n        \"pluralRule-count-other\": \" @integer 0, 2~16, 100, 1000, 10000, 100000, 1000000, … @decimal 0.0~0.9, 1.1~1.6, 10.0, 100.0, 1000.0, 10000.0, 100000.0, 1000000.0, …\"\n      },\n      \"te\": {\n        \"pluralRule-count-one\": \"n ="

/-- make_pluralrules/tests/fixtures/cldr_pluralrules_cardinals_33.json, part 73. -/
def cardinals33_73 : Str := c!" 1 @integer 1 @decimal 1.0, 1.00, 1.000, 1.0000\",\n        \"pluralRule-count-other\": \" @integer 0, 2~16, 100, 1000, 10000, 100000, 1000000, … @decimal 0.0~0.9, 1.1~1.6, 10.0, 100.0, 1000.0, 10000.0, 100000.0, 1000000.0, …\"\n      },\n      \"teo\": {\n        \"pluralRule-count-one\": \"n = 1 @integer 1 @decimal 1.0, 1.00, 1.000, 1.0000\",\n        \"pluralRule-count-other\": \" @integer 0, 2~16, 100, 1000, 10000, 100000, 1000000, … @decimal 0.0~0.9, 1.1~1.6, 10.0, 100.0, 1000.0, 10000.0, 100000.0, 1000000.0, …\"\n      },\n      \"th\": {\n        \"pluralRule-count-other\": \" @integer 0~15, 100, 1000, 10000, 100000, 1000000, … @decimal 0.0~1.5, 10.0, 100.0, 1000.0, 10000.0, 100000.0, 1000000.0, …\"\n      },\n      \"ti\": {\n        \"pluralRule-count-one\": \"n = 0..1 @integer 0, 1 @decimal 0.0, 1.0, 0.00"

/-- make_pluralrules/tests/fixtures/cldr_pluralrules_cardinals_33.json, part 74. -/
def cardinals33_74 : Str := c!", 1.00, 0.000, 1.000, 0.0000, 1.0000\",\n        \"pluralRule-count-other\": \" @integer 2~17, 100, 1000, 10000, 100000, 1000000, … @decimal 0.1~0.9, 1.1~1.7, 10.0, 100.0, 1000.0, 10000.0, 100000.0, 1000000.0, …\"\n      },\n      \"tig\": {\n        \"pluralRule-count-one\": \"n = 1 @integer 1 @decimal 1.0, 1.00, 1.000, 1.0000\",\n        \"pluralRule-count-other\": \" @integer 0, 2~16, 100, 1000, 10000, 100000, 1000000, … @decimal 0.0~0.9, 1.1~1.6, 10.0, 100.0, 1000.0, 10000.0, 100000.0, 1000000.0, …\"\n      },\n      \"tk\": {\n        \"pluralRule-count-one\": \"n = 1 @integer 1 @decimal 1.0, 1.00, 1.000, 1.0000\",\n        \"pluralRule-count-other\": \" @integer 0, 2~16, 100, 1000, 10000, 100000, 1000000, … @decimal 0.0~0.9, 1.1~1.6, 10.0, 100.0, 1000.0, 10000.0, 100000.0, 1000000.0, …\"\n      },\n      \"tl"

/-- make_pluralrules/tests/fixtures/cldr_pluralrules_cardinals_33.json, part 75. -/
def cardinals33_75 : Str := c!"\": {\n        \"pluralRule-count-one\": \"v = 0 and i = 1,2,3 or v = 0 and i % 10 != 4,6,9 or v != 0 and f % 10 != 4,6,9 @integer 0~3, 5, 7, 8, 10~13, 15, 17, 18, 20, 21, 100, 1000, 10000, 100000, 1000000, … @decimal 0.0~0.3, 0.5, 0.7, 0.8, 1.0~1.3, 1.5, 1.7, 1.8, 2.0, 2.1, 10.0, 100.0, 1000.0, 10000.0, 100000.0, 1000000.0, …\",\n        \"pluralRule-count-other\": \" @integer 4, 6, 9, 14, 16, 19, 24, 26, 104, 1004, … @decimal 0.4, 0.6, 0.9, 1.4, 1.6, 1.9, 2.4, 2.6, 10.4, 100.4, 1000.4, …\"\n      },\n      \"tn\": {\n        \"pluralRule-count-one\": \"n = 1 @integer 1 @decimal 1.0, 1.00, 1.000, 1.0000\",\n        \"pluralRule-count-other\": \" @integer 0, 2~16, 100, 1000, 10000, 100000, 1000000, … @decimal 0.0~0.9, 1.1~1.6, 10.0, 100.0, 1000.0, 10000.0, 100000.0, 1000000.0, …\"\n      },\n      \"to\": {\n "

/-- make_pluralrules/tests/fixtures/cldr_pluralrules_cardinals_33.json, part 76. -/
def cardinals33_76 : Str := c!"       \"pluralRule-count-other\": \" @integer 0~15, 100, 1000, 10000, 100000, 1000000, … @decimal 0.0~1.5, 10.0, 100.0, 1000.0, 10000.0, 100000.0, 1000000.0, …\"\n      },\n      \"tr\": {\n        \"pluralRule-count-one\": \"n = 1 @integer 1 @decimal 1.0, 1.00, 1.000, 1.0000\",\n        \"pluralRule-count-other\": \" @integer 0, 2~16, 100, 1000, 10000, 100000, 1000000, … @decimal 0.0~0.9, 1.1~1.6, 10.0, 100.0, 1000.0, 10000.0, 100000.0, 1000000.0, …\"\n      },\n      \"ts\": {\n        \"pluralRule-count-one\": \"n = 1 @integer 1 @decimal 1.0, 1.00, 1.000, 1.0000\",\n        \"pluralRule-count-other\": \" @integer 0, 2~16, 100, 1000, 10000, 100000, 1000000, … @decimal 0.0~0.9, 1.1~1.6, 10.0, 100.0, 1000.0, 10000.0, 100000.0, 1000000.0, …\"\n      },\n      \"tzm\": {\n        \"pluralRule-count-one\": \"n = 0..1 or"

/-- make_pluralrules/tests/fixtures/cldr_pluralrules_cardinals_33.json, part 77. -/
def cardinals33_77 : Str := c!" n = 11..99 @integer 0, 1, 11~24 @decimal 0.0, 1.0, 11.0, 12.0, 13.0, 14.0, 15.0, 16.0, 17.0, 18.0, 19.0, 20.0, 21.0, 22.0, 23.0, 24.0\",\n        \"pluralRule-count-other\": \" @integer 2~10, 100~106, 1000, 10000, 100000, 1000000, … @decimal 0.1~0.9, 1.1~1.7, 10.0, 100.0, 1000.0, 10000.0, 100000.0, 1000000.0, …\"\n      },\n      \"ug\": {\n        \"pluralRule-count-one\": \"n = 1 @integer 1 @decimal 1.0, 1.00, 1.000, 1.0000\",\n        \"pluralRule-count-other\": \" @integer 0, 2~16, 100, 1000, 10000, 100000, 1000000, … @decimal 0.0~0.9, 1.1~1.6, 10.0, 100.0, 1000.0, 10000.0, 100000.0, 1000000.0, …\"\n      },\n      \"uk\": {\n        \"pluralRule-count-one\": \"v = 0 and i % 10 = 1 and i % 100 != 11 @integer 1, 21, 31, 41, 51, 61, 71, 81, 101, 1001, …\",\n        \"pluralRule-count-few\": \"v = 0 and i % 10 "

/-- make_pluralrules/tests/fixtures/cldr_pluralrules_cardinals_33.json, part 78. -/
def cardinals33_78 : Str := c!"= 2..4 and i % 100 != 12..14 @integer 2~4, 22~24, 32~34, 42~44, 52~54, 62, 102, 1002, …\",\n        \"pluralRule-count-many\": \"v = 0 and i % 10 = 0 or v = 0 and i % 10 = 5..9 or v = 0 and i % 100 = 11..14 @integer 0, 5~19, 100, 1000, 10000, 100000, 1000000, …\",\n        \"pluralRule-count-other\": \"   @decimal 0.0~1.5, 10.0, 100.0, 1000.0, 10000.0, 100000.0, 1000000.0, …\"\n      },\n      \"ur\": {\n        \"pluralRule-count-one\": \"i = 1 and v = 0 @integer 1\",\n        \"pluralRule-count-other\": \" @integer 0, 2~16, 100, 1000, 10000, 100000, 1000000, … @decimal 0.0~1.5, 10.0, 100.0, 1000.0, 10000.0, 100000.0, 1000000.0, …\"\n      },\n      \"uz\": {\n        \"pluralRule-count-one\": \"n = 1 @integer 1 @decimal 1.0, 1.00, 1.000, 1.0000\",\n        \"pluralRule-count-other\": \" @integer 0, 2~16, 100, 1000,"

/-- make_pluralrules/tests/fixtures/cldr_pluralrules_cardinals_33.json, part 79. -/
def cardinals33_79 : Str := c!" 10000, 100000, 1000000, … @decimal 0.0~0.9, 1.1~1.6, 10.0, 100.0, 1000.0, 10000.0, 100000.0, 1000000.0, …\"\n      },\n      \"ve\": {\n        \"pluralRule-count-one\": \"n = 1 @integer 1 @decimal 1.0, 1.00, 1.000, 1.0000\",\n        \"pluralRule-count-other\": \" @integer 0, 2~16, 100, 1000, 10000, 100000, 1000000, … @decimal 0.0~0.9, 1.1~1.6, 10.0, 100.0, 1000.0, 10000.0, 100000.0, 1000000.0, …\"\n      },\n      \"vi\": {\n        \"pluralRule-count-other\": \" @integer 0~15, 100, 1000, 10000, 100000, 1000000, … @decimal 0.0~1.5, 10.0, 100.0, 1000.0, 10000.0, 100000.0, 1000000.0, …\"\n      },\n      \"vo\": {\n        \"pluralRule-count-one\": \"n = 1 @integer 1 @decimal 1.0, 1.00, 1.000, 1.0000\",\n        \"pluralRule-count-other\": \" @integer 0, 2~16, 100, 1000, 10000, 100000, 1000000, … @decimal 0.0~0.9,"

/-- make_pluralrules/tests/fixtures/cldr_pluralrules_cardinals_33.json, part 80. -/
def cardinals33_80 : Str := c!" 1.1~1.6, 10.0, 100.0, 1000.0, 10000.0, 100000.0, 1000000.0, …\"\n      },\n      \"vun\": {\n        \"pluralRule-count-one\": \"n = 1 @integer 1 @decimal 1.0, 1.00, 1.000, 1.0000\",\n        \"pluralRule-count-other\": \" @integer 0, 2~16, 100, 1000, 10000, 100000, 1000000, … @decimal 0.0~0.9, 1.1~1.6, 10.0, 100.0, 1000.0, 10000.0, 100000.0, 1000000.0, …\"\n      },\n      \"wa\": {\n        \"pluralRule-count-one\": \"n = 0..1 @integer 0, 1 @decimal 0.0, 1.0, 0.00, 1.00, 0.000, 1.000, 0.0000, 1.0000\",\n        \"pluralRule-count-other\": \" @integer 2~17, 100, 1000, 10000, 100000, 1000000, … @decimal 0.1~0.9, 1.1~1.7, 10.0, 100.0, 1000.0, 10000.0, 100000.0, 1000000.0, …\"\n      },\n      \"wae\": {\n        \"pluralRule-count-one\": \"n = 1 @integer 1 @decimal 1.0, 1.00, 1.000, 1.0000\",\n        \"pluralRule-co"

/-- make_pluralrules/tests/fixtures/cldr_pluralrules_cardinals_33.json, part 81. -/
def cardinals33_81 : Str := c!"unt-other\": \" @integer 0, 2~16, 100, 1000, 10000, 100000, 1000000, … @decimal 0.0~0.9, 1.1~1.6, 10.0, 100.0, 1000.0, 10000.0, 100000.0, 1000000.0, …\"\n      },\n      \"wo\": {\n        \"pluralRule-count-other\": \" @integer 0~15, 100, 1000, 10000, 100000, 1000000, … @decimal 0.0~1.5, 10.0, 100.0, 1000.0, 10000.0, 100000.0, 1000000.0, …\"\n      },\n      \"xh\": {\n        \"pluralRule-count-one\": \"n = 1 @integer 1 @decimal 1.0, 1.00, 1.000, 1.0000\",\n        \"pluralRule-count-other\": \" @integer 0, 2~16, 100, 1000, 10000, 100000, 1000000, … @decimal 0.0~0.9, 1.1~1.6, 10.0, 100.0, 1000.0, 10000.0, 100000.0, 1000000.0, …\"\n      },\n      \"xog\": {\n        \"pluralRule-count-one\": \"n = 1 @integer 1 @decimal 1.0, 1.00, 1.000, 1.0000\",\n        \"pluralRule-count-other\": \" @integer 0, 2~16, 100, 1000, "

/-- make_pluralrules/tests/fixtures/cldr_pluralrules_cardinals_33.json, part 82. -/
def cardinals33_82 : Str := c!"10000, 100000, 1000000, … @decimal 0.0~0.9, 1.1~1.6, 10.0, 100.0, 1000.0, 10000.0, 100000.0, 1000000.0, …\"\n      },\n      \"yi\": {\n        \"pluralRule-count-one\": \"i = 1 and v = 0 @integer 1\",\n        \"pluralRule-count-other\": \" @integer 0, 2~16, 100, 1000, 10000, 100000, 1000000, … @decimal 0.0~1.5, 10.0, 100.0, 1000.0, 10000.0, 100000.0, 1000000.0, …\"\n      },\n      \"yo\": {\n        \"pluralRule-count-other\": \" @integer 0~15, 100, 1000, 10000, 100000, 1000000, … @decimal 0.0~1.5, 10.0, 100.0, 1000.0, 10000.0, 100000.0, 1000000.0, …\"\n      },\n      \"yue\": {\n        \"pluralRule-count-other\": \" @integer 0~15, 100, 1000, 10000, 100000, 1000000, … @decimal 0.0~1.5, 10.0, 100.0, 1000.0, 10000.0, 100000.0, 1000000.0, …\"\n      },\n      \"zh\": {\n        \"pluralRule-count-other\": \" @integ"

/-- make_pluralrules/tests/fixtures/cldr_pluralrules_cardinals_33.json, part 83. -/
def cardinals33_83 : Str := c!"er 0~15, 100, 1000, 10000, 100000, 1000000, … @decimal 0.0~1.5, 10.0, 100.0, 1000.0, 10000.0, 100000.0, 1000000.0, …\"\n      },\n      \"zu\": {\n        \"pluralRule-count-one\": \"i = 0 or n = 1 @integer 0, 1 @decimal 0.0~1.0, 0.00~0.04\",\n        \"pluralRule-count-other\": \" @integer 2~17, 100, 1000, 10000, 100000, 1000000, … @decimal 1.1~2.6, 10.0, 100.0, 1000.0, 10000.0, 100000.0, 1000000.0, …\"\n      }\n    }\n  }\n}"

/-- make_pluralrules/tests/fixtures/cldr_pluralrules_cardinals_33.json. -/
def cardinals33 : Str := List.flatten [
  cardinals33_0, cardinals33_1, cardinals33_2, cardinals33_3, cardinals33_4, cardinals33_5, cardinals33_6, cardinals33_7,
  cardinals33_8, cardinals33_9, cardinals33_10, cardinals33_11, cardinals33_12, cardinals33_13, cardinals33_14, cardinals33_15,
  cardinals33_16, cardinals33_17, cardinals33_18, cardinals33_19, cardinals33_20, cardinals33_21, cardinals33_22, cardinals33_23,
  cardinals33_24, cardinals33_25, cardinals33_26, cardinals33_27, cardinals33_28, cardinals33_29, cardinals33_30, cardinals33_31,
  cardinals33_32, cardinals33_33, cardinals33_34, cardinals33_35, cardinals33_36, cardinals33_37, cardinals33_38, cardinals33_39,
  cardinals33_40, cardinals33_41, cardinals33_42, cardinals33_43, cardinals33_44, cardinals33_45, cardinals33_46, cardinals33_47,
  cardinals33_48, cardinals33_49, cardinals33_50, cardinals33_51, cardinals33_52, cardinals33_53, cardinals33_54, cardinals33_55,
  cardinals33_56, cardinals33_57, cardinals33_58, cardinals33_59, cardinals33_60, cardinals33_61, cardinals33_62, cardinals33_63,
  cardinals33_64, cardinals33_65, cardinals33_66, cardinals33_67, cardinals33_68, cardinals33_69, cardinals33_70, cardinals33_71,
  cardinals33_72, cardinals33_73, cardinals33_74, cardinals33_75, cardinals33_76, cardinals33_77, cardinals33_78, cardinals33_79,
  cardinals33_80, cardinals33_81, cardinals33_82, cardinals33_83]

/-- make_pluralrules/tests/fixtures/cldr_pluralrules_ordinals_33.json, part 0. -/
def ordinals33_0 : Str := c!"{\n  \"supplemental\": {\n    \"version\": {\n      \"_number\": \"$Revision: 13819 $\",\n      \"_unicodeVersion\": \"10.0.0\",\n      \"_cldrVersion\": \"33\"\n    },\n    \"plurals-type-ordinal\": {\n      \"af\": {\n        \"pluralRule-count-other\": \" @integer 0~15, 100, 1000, 10000, 100000, 1000000, …\"\n      },\n      \"am\": {\n        \"pluralRule-count-other\": \" @integer 0~15, 100, 1000, 10000, 100000, 1000000, …\"\n      },\n      \"ar\": {\n        \"pluralRule-count-other\": \" @integer 0~15, 100, 1000, 10000, 100000, 1000000, …\"\n      },\n      \"as\": {\n        \"pluralRule-count-one\": \"n = 1,5,7,8,9,10 @integer 1, 5, 7~10\",\n        \"pluralRule-count-two\": \"n = 2,3 @integer 2, 3\",\n        \"pluralRule-count-few\": \"n = 4 @integer 4\",\n        \"pluralRule-count-many\": \"n = 6 @integer 6\",\n        \"pluralRule-count-other\": \" @in"

/-- make_pluralrules/tests/fixtures/cldr_pluralrules_ordinals_33.json, part 1. -/
def ordinals33_1 : Str := c!"teger 0, 11~25, 100, 1000, 10000, 100000, 1000000, …\"\n      },\n      \"az\": {\n        \"pluralRule-count-one\": \"i % 10 = 1,2,5,7,8 or i % 100 = 20,50,70,80 @integer 1, 2, 5, 7, 8, 11, 12, 15, 17, 18, 20~22, 25, 101, 1001, …\",\n        \"pluralRule-count-few\": \"i % 10 = 3,4 or i % 1000 = 100,200,300,400,500,600,700,800,900 @integer 3, 4, 13, 14, 23, 24, 33, 34, 43, 44, 53, 54, 63, 64, 73, 74, 100, 1003, …\",\n        \"pluralRule-count-many\": \"i = 0 or i % 10 = 6 or i % 100 = 40,60,90 @integer 0, 6, 16, 26, 36, 40, 46, 56, 106, 1006, …\",\n        \"pluralRule-count-other\": \" @integer 9, 10, 19, 29, 30, 39, 49, 59, 69, 79, 109, 1000, 10000, 100000, 1000000, …\"\n      },\n      \"be\": {\n        \"pluralRule-count-few\": \"n % 10 = 2,3 and n % 100 != 12,13 @integer 2, 3, 22, 23, 32, 33, 42, 43, 52, 53, 62, 6"

/-- make_pluralrules/tests/fixtures/cldr_pluralrules_ordinals_33.json, part 2. -/
def ordinals33_2 : Str := c!"3, 72, 73, 82, 83, 102, 1002, …\",\n        \"pluralRule-count-other\": \" @integer 0, 1, 4~17, 100, 1000, 10000, 100000, 1000000, …\"\n      },\n      \"bg\": {\n        \"pluralRule-count-other\": \" @integer 0~15, 100, 1000, 10000, 100000, 1000000, …\"\n      },\n      \"bn\": {\n        \"pluralRule-count-one\": \"n = 1,5,7,8,9,10 @integer 1, 5, 7~10\",\n        \"pluralRule-count-two\": \"n = 2,3 @integer 2, 3\",\n        \"pluralRule-count-few\": \"n = 4 @integer 4\",\n        \"pluralRule-count-many\": \"n = 6 @integer 6\",\n        \"pluralRule-count-other\": \" @integer 0, 11~25, 100, 1000, 10000, 100000, 1000000, …\"\n      },\n      \"bs\": {\n        \"pluralRule-count-other\": \" @integer 0~15, 100, 1000, 10000, 100000, 1000000, …\"\n      },\n      \"ca\": {\n        \"pluralRule-count-one\": \"n = 1,3 @integer 1, 3\",\n        \"pluralRu"

/-- make_pluralrules/tests/fixtures/cldr_pluralrules_ordinals_33.json, part 3. -/
def ordinals33_3 : Str := c!"le-count-two\": \"n = 2 @integer 2\",\n        \"pluralRule-count-few\": \"n = 4 @integer 4\",\n        \"pluralRule-count-other\": \" @integer 0, 5~19, 100, 1000, 10000, 100000, 1000000, …\"\n      },\n      \"ce\": {\n        \"pluralRule-count-other\": \" @integer 0~15, 100, 1000, 10000, 100000, 1000000, …\"\n      },\n      \"cs\": {\n        \"pluralRule-count-other\": \" @integer 0~15, 100, 1000, 10000, 100000, 1000000, …\"\n      },\n      \"cy\": {\n        \"pluralRule-count-zero\": \"n = 0,7,8,9 @integer 0, 7~9\",\n        \"pluralRule-count-one\": \"n = 1 @integer 1\",\n        \"pluralRule-count-two\": \"n = 2 @integer 2\",\n        \"pluralRule-count-few\": \"n = 3,4 @integer 3, 4\",\n        \"pluralRule-count-many\": \"n = 5,6 @integer 5, 6\",\n        \"pluralRule-count-other\": \" @integer 10~25, 100, 1000, 10000, 100000, 1000000, …\"\n "

/-- make_pluralrules/tests/fixtures/cldr_pluralrules_ordinals_33.json, part 4. -/
def ordinals33_4 : Str := c!"     },\n      \"da\": {\n        \"pluralRule-count-other\": \" @integer 0~15, 100, 1000, 10000, 100000, 1000000, …\"\n      },\n      \"de\": {\n        \"pluralRule-count-other\": \" @integer 0~15, 100, 1000, 10000, 100000, 1000000, …\"\n      },\n      \"dsb\": {\n        \"pluralRule-count-other\": \" @integer 0~15, 100, 1000, 10000, 100000, 1000000, …\"\n      },\n      \"el\": {\n        \"pluralRule-count-other\": \" @integer 0~15, 100, 1000, 10000, 100000, 1000000, …\"\n      },\n      \"en\": {\n        \"pluralRule-count-one\": \"n % 10 = 1 and n % 100 != 11 @integer 1, 21, 31, 41, 51, 61, 71, 81, 101, 1001, …\",\n        \"pluralRule-count-two\": \"n % 10 = 2 and n % 100 != 12 @integer 2, 22, 32, 42, 52, 62, 72, 82, 102, 1002, …\",\n        \"pluralRule-count-few\": \"n % 10 = 3 and n % 100 != 13 @integer 3, 23, 33, 43, 53, 63, 7"

/-- make_pluralrules/tests/fixtures/cldr_pluralrules_ordinals_33.json, part 5. -/
def ordinals33_5 : Str := c!"3, 83, 103, 1003, …\",\n        \"pluralRule-count-other\": \" @integer 0, 4~18, 100, 1000, 10000, 100000, 1000000, …\"\n      },\n      \"es\": {\n        \"pluralRule-count-other\": \" @integer 0~15, 100, 1000, 10000, 100000, 1000000, …\"\n      },\n      \"et\": {\n        \"pluralRule-count-other\": \" @integer 0~15, 100, 1000, 10000, 100000, 1000000, …\"\n      },\n      \"eu\": {\n        \"pluralRule-count-other\": \" @integer 0~15, 100, 1000, 10000, 100000, 1000000, …\"\n      },\n      \"fa\": {\n        \"pluralRule-count-other\": \" @integer 0~15, 100, 1000, 10000, 100000, 1000000, …\"\n      },\n      \"fi\": {\n        \"pluralRule-count-other\": \" @integer 0~15, 100, 1000, 10000, 100000, 1000000, …\"\n      },\n      \"fil\": {\n        \"pluralRule-count-one\": \"n = 1 @integer 1\",\n        \"pluralRule-count-other\": \" @integer 0, 2~"

/-- make_pluralrules/tests/fixtures/cldr_pluralrules_ordinals_33.json, part 6. -/
def ordinals33_6 : Str := c!"16, 100, 1000, 10000, 100000, 1000000, …\"\n      },\n      \"fr\": {\n        \"pluralRule-count-one\": \"n = 1 @integer 1\",\n        \"pluralRule-count-other\": \" @integer 0, 2~16, 100, 1000, 10000, 100000, 1000000, …\"\n      },\n      \"fy\": {\n        \"pluralRule-count-other\": \" @integer 0~15, 100, 1000, 10000, 100000, 1000000, …\"\n      },\n      \"ga\": {\n        \"pluralRule-count-one\": \"n = 1 @integer 1\",\n        \"pluralRule-count-other\": \" @integer 0, 2~16, 100, 1000, 10000, 100000, 1000000, …\"\n      },\n      \"gl\": {\n        \"pluralRule-count-other\": \" @integer 0~15, 100, 1000, 10000, 100000, 1000000, …\"\n      },\n      \"gsw\": {\n        \"pluralRule-count-other\": \" @integer 0~15, 100, 1000, 10000, 100000, 1000000, …\"\n      },\n      \"gu\": {\n        \"pluralRule-count-one\": \"n = 1 @integer 1\",\n        \"plu"

/-- make_pluralrules/tests/fixtures/cldr_pluralrules_ordinals_33.json, part 7. -/
def ordinals33_7 : Str := c!"ralRule-count-two\": \"n = 2,3 @integer 2, 3\",\n        \"pluralRule-count-few\": \"n = 4 @integer 4\",\n        \"pluralRule-count-many\": \"n = 6 @integer 6\",\n        \"pluralRule-count-other\": \" @integer 0, 5, 7~20, 100, 1000, 10000, 100000, 1000000, …\"\n      },\n      \"he\": {\n        \"pluralRule-count-other\": \" @integer 0~15, 100, 1000, 10000, 100000, 1000000, …\"\n      },\n      \"hi\": {\n        \"pluralRule-count-one\": \"n = 1 @integer 1\",\n        \"pluralRule-count-two\": \"n = 2,3 @integer 2, 3\",\n        \"pluralRule-count-few\": \"n = 4 @integer 4\",\n        \"pluralRule-count-many\": \"n = 6 @integer 6\",\n        \"pluralRule-count-other\": \" @integer 0, 5, 7~20, 100, 1000, 10000, 100000, 1000000, …\"\n      },\n      \"hr\": {\n        \"pluralRule-count-other\": \" @integer 0~15, 100, 1000, 10000, 100000, 1000000, …\""

/-- make_pluralrules/tests/fixtures/cldr_pluralrules_ordinals_33.json, part 8. -/
def ordinals33_8 : Str := c!"\n      },\n      \"hsb\": {\n        \"pluralRule-count-other\": \" @integer 0~15, 100, 1000, 10000, 100000, 1000000, …\"\n      },\n      \"hu\": {\n        \"pluralRule-count-one\": \"n = 1,5 @integer 1, 5\",\n        \"pluralRule-count-other\": \" @integer 0, 2~4, 6~17, 100, 1000, 10000, 100000, 1000000, …\"\n      },\n      \"hy\": {\n        \"pluralRule-count-one\": \"n = 1 @integer 1\",\n        \"pluralRule-count-other\": \" @integer 0, 2~16, 100, 1000, 10000, 100000, 1000000, …\"\n      },\n      \"id\": {\n        \"pluralRule-count-other\": \" @integer 0~15, 100, 1000, 10000, 100000, 1000000, …\"\n      },\n      \"in\": {\n        \"pluralRule-count-other\": \" @integer 0~15, 100, 1000, 10000, 100000, 1000000, …\"\n      },\n      \"is\": {\n        \"pluralRule-count-other\": \" @integer 0~15, 100, 1000, 10000, 100000, 1000000, …\"\n      "

/-- make_pluralrules/tests/fixtures/cldr_pluralrules_ordinals_33.json, part 9. -/
def ordinals33_9 : Str := c!"},\n      \"it\": {\n        \"pluralRule-count-many\": \"n = 11,8,80,800 @integer 8, 11, 80, 800\",\n        \"pluralRule-count-other\": \" @integer 0~7, 9, 10, 12~17, 100, 1000, 10000, 100000, 1000000, …\"\n      },\n      \"iw\": {\n        \"pluralRule-count-other\": \" @integer 0~15, 100, 1000, 10000, 100000, 1000000, …\"\n      },\n      \"ja\": {\n        \"pluralRule-count-other\": \" @integer 0~15, 100, 1000, 10000, 100000, 1000000, …\"\n      },\n      \"ka\": {\n        \"pluralRule-count-one\": \"i = 1 @integer 1\",\n        \"pluralRule-count-many\": \"i = 0 or i % 100 = 2..20,40,60,80 @integer 0, 2~16, 102, 1002, …\",\n        \"pluralRule-count-other\": \" @integer 21~36, 100, 1000, 10000, 100000, 1000000, …\"\n      },\n      \"kk\": {\n        \"pluralRule-count-many\": \"n % 10 = 6 or n % 10 = 9 or n % 10 = 0 and n != 0 @integer"

/-- make_pluralrules/tests/fixtures/cldr_pluralrules_ordinals_33.json, part 10. -/
def ordinals33_10 : Str := c!" 6, 9, 10, 16, 19, 20, 26, 29, 30, 36, 39, 40, 100, 1000, 10000, 100000, 1000000, …\",\n        \"pluralRule-count-other\": \" @integer 0~5, 7, 8, 11~15, 17, 18, 21, 101, 1001, …\"\n      },\n      \"km\": {\n        \"pluralRule-count-other\": \" @integer 0~15, 100, 1000, 10000, 100000, 1000000, …\"\n      },\n      \"kn\": {\n        \"pluralRule-count-other\": \" @integer 0~15, 100, 1000, 10000, 100000, 1000000, …\"\n      },\n      \"ko\": {\n        \"pluralRule-count-other\": \" @integer 0~15, 100, 1000, 10000, 100000, 1000000, …\"\n      },\n      \"ky\": {\n        \"pluralRule-count-other\": \" @integer 0~15, 100, 1000, 10000, 100000, 1000000, …\"\n      },\n      \"lo\": {\n        \"pluralRule-count-one\": \"n = 1 @integer 1\",\n        \"pluralRule-count-other\": \" @integer 0, 2~16, 100, 1000, 10000, 100000, 1000000, …\"\n      },\n "

/-- make_pluralrules/tests/fixtures/cldr_pluralrules_ordinals_33.json, part 11. -/
def ordinals33_11 : Str := c!"     \"lt\": {\n        \"pluralRule-count-other\": \" @integer 0~15, 100, 1000, 10000, 100000, 1000000, …\"\n      },\n      \"lv\": {\n        \"pluralRule-count-other\": \" @integer 0~15, 100, 1000, 10000, 100000, 1000000, …\"\n      },\n      \"mk\": {\n        \"pluralRule-count-one\": \"i % 10 = 1 and i % 100 != 11 @integer 1, 21, 31, 41, 51, 61, 71, 81, 101, 1001, …\",\n        \"pluralRule-count-two\": \"i % 10 = 2 and i % 100 != 12 @integer 2, 22, 32, 42, 52, 62, 72, 82, 102, 1002, …\",\n        \"pluralRule-count-many\": \"i % 10 = 7,8 and i % 100 != 17,18 @integer 7, 8, 27, 28, 37, 38, 47, 48, 57, 58, 67, 68, 77, 78, 87, 88, 107, 1007, …\",\n        \"pluralRule-count-other\": \" @integer 0, 3~6, 9~19, 100, 1000, 10000, 100000, 1000000, …\"\n      },\n      \"ml\": {\n        \"pluralRule-count-other\": \" @integer 0~15, 100,"

/-- make_pluralrules/tests/fixtures/cldr_pluralrules_ordinals_33.json, part 12. -/
def ordinals33_12 : Str := c!" 1000, 10000, 100000, 1000000, …\"\n      },\n      \"mn\": {\n        \"pluralRule-count-other\": \" @integer 0~15, 100, 1000, 10000, 100000, 1000000, …\"\n      },\n      \"mo\": {\n        \"pluralRule-count-one\": \"n = 1 @integer 1\",\n        \"pluralRule-count-other\": \" @integer 0, 2~16, 100, 1000, 10000, 100000, 1000000, …\"\n      },\n      \"mr\": {\n        \"pluralRule-count-one\": \"n = 1 @integer 1\",\n        \"pluralRule-count-two\": \"n = 2,3 @integer 2, 3\",\n        \"pluralRule-count-few\": \"n = 4 @integer 4\",\n        \"pluralRule-count-other\": \" @integer 0, 5~19, 100, 1000, 10000, 100000, 1000000, …\"\n      },\n      \"ms\": {\n        \"pluralRule-count-one\": \"n = 1 @integer 1\",\n        \"pluralRule-count-other\": \" @integer 0, 2~16, 100, 1000, 10000, 100000, 1000000, …\"\n      },\n      \"my\": {\n        \"pluralRule-c"

/-- make_pluralrules/tests/fixtures/cldr_pluralrules_ordinals_33.json, part 13. -/
def ordinals33_13 : Str := c!"ount-other\": \" @integer 0~15, 100, 1000, 10000, 100000, 1000000, …\"\n      },\n      \"nb\": {\n        \"pluralRule-count-other\": \" @integer 0~15, 100, 1000, 10000, 100000, 1000000, …\"\n      },\n      \"ne\": {\n        \"pluralRule-count-one\": \"n = 1..4 @integer 1~4\",\n        \"pluralRule-count-other\": \" @integer 0, 5~19, 100, 1000, 10000, 100000, 1000000, …\"\n      },\n      \"nl\": {\n        \"pluralRule-count-other\": \" @integer 0~15, 100, 1000, 10000, 100000, 1000000, …\"\n      },\n      \"or\": {\n        \"pluralRule-count-one\": \"n = 1,5,7..9 @integer 1, 5, 7~9\",\n        \"pluralRule-count-two\": \"n = 2,3 @integer 2, 3\",\n        \"pluralRule-count-few\": \"n = 4 @integer 4\",\n        \"pluralRule-count-many\": \"n = 6 @integer 6\",\n        \"pluralRule-count-other\": \" @integer 0, 10~24, 100, 1000, 10000, 100000, 100"

/-- make_pluralrules/tests/fixtures/cldr_pluralrules_ordinals_33.json, part 14. -/
def ordinals33_14 : Str := c!"0000, …\"\n      },\n      \"pa\": {\n        \"pluralRule-count-other\": \" @integer 0~15, 100, 1000, 10000, 100000, 1000000, …\"\n      },\n      \"pl\": {\n        \"pluralRule-count-other\": \" @integer 0~15, 100, 1000, 10000, 100000, 1000000, …\"\n      },\n      \"prg\": {\n        \"pluralRule-count-other\": \" @integer 0~15, 100, 1000, 10000, 100000, 1000000, …\"\n      },\n      \"ps\": {\n        \"pluralRule-count-other\": \" @integer 0~15, 100, 1000, 10000, 100000, 1000000, …\"\n      },\n      \"pt\": {\n        \"pluralRule-count-other\": \" @integer 0~15, 100, 1000, 10000, 100000, 1000000, …\"\n      },\n      \"ro\": {\n        \"pluralRule-count-one\": \"n = 1 @integer 1\",\n        \"pluralRule-count-other\": \" @integer 0, 2~16, 100, 1000, 10000, 100000, 1000000, …\"\n      },\n      \"root\": {\n        \"pluralRule-count-other\": \" @i"

/-- make_pluralrules/tests/fixtures/cldr_pluralrules_ordinals_33.json, part 15. -/
def ordinals33_15 : Str := c!"nteger 0~15, 100, 1000, 10000, 100000, 1000000, …\"\n      },\n      \"ru\": {\n        \"pluralRule-count-other\": \" @integer 0~15, 100, 1000, 10000, 100000, 1000000, …\"\n      },\n      \"scn\": {\n        \"pluralRule-count-many\": \"n = 11,8,80,800 @integer 8, 11, 80, 800\",\n        \"pluralRule-count-other\": \" @integer 0~7, 9, 10, 12~17, 100, 1000, 10000, 100000, 1000000, …\"\n      },\n      \"sd\": {\n        \"pluralRule-count-other\": \" @integer 0~15, 100, 1000, 10000, 100000, 1000000, …\"\n      },\n      \"sh\": {\n        \"pluralRule-count-other\": \" @integer 0~15, 100, 1000, 10000, 100000, 1000000, …\"\n      },\n      \"si\": {\n        \"pluralRule-count-other\": \" @integer 0~15, 100, 1000, 10000, 100000, 1000000, …\"\n      },\n      \"sk\": {\n        \"pluralRule-count-other\": \" @integer 0~15, 100, 1000, 10000, 100000,"

/-- make_pluralrules/tests/fixtures/cldr_pluralrules_ordinals_33.json, part 16. -/
def ordinals33_16 : Str := c!" 1000000, …\"\n      },\n      \"sl\": {\n        \"pluralRule-count-other\": \" @integer 0~15, 100, 1000, 10000, 100000, 1000000, …\"\n      },\n      \"sq\": {\n        \"pluralRule-count-one\": \"n = 1 @integer 1\",\n        \"pluralRule-count-many\": \"n % 10 = 4 and n % 100 != 14 @integer 4, 24, 34, 44, 54, 64, 74, 84, 104, 1004, …\",\n        \"pluralRule-count-other\": \" @integer 0, 2, 3, 5~17, 100, 1000, 10000, 100000, 1000000, …\"\n      },\n      \"sr\": {\n        \"pluralRule-count-other\": \" @integer 0~15, 100, 1000, 10000, 100000, 1000000, …\"\n      },\n      \"sv\": {\n        \"pluralRule-count-one\": \"n % 10 = 1,2 and n % 100 != 11,12 @integer 1, 2, 21, 22, 31, 32, 41, 42, 51, 52, 61, 62, 71, 72, 81, 82, 101, 1001, …\",\n        \"pluralRule-count-other\": \" @integer 0, 3~17, 100, 1000, 10000, 100000, 1000000, …\"\n    "

/-- make_pluralrules/tests/fixtures/cldr_pluralrules_ordinals_33.json, part 17. -/
def ordinals33_17 : Str := c!"  },\n      \"sw\": {\n        \"pluralRule-count-other\": \" @integer 0~15, 100, 1000, 10000, 100000, 1000000, …\"\n      },\n      \"ta\": {\n        \"pluralRule-count-other\": \" @integer 0~15, 100, 1000, 10000, 100000, 1000000, …\"\n      },\n      \"te\": {\n        \"pluralRule-count-other\": \" @integer 0~15, 100, 1000, 10000, 100000, 1000000, …\"\n      },\n      \"th\": {\n        \"pluralRule-count-other\": \" @integer 0~15, 100, 1000, 10000, 100000, 1000000, …\"\n      },\n      \"tk\": {\n        \"pluralRule-count-few\": \"n % 10 = 6,9 or n = 10 @integer 6, 9, 10, 16, 19, 26, 29, 36, 39, 106, 1006, …\",\n        \"pluralRule-count-other\": \" @integer 0~5, 7, 8, 11~15, 17, 18, 20, 100, 1000, 10000, 100000, 1000000, …\"\n      },\n      \"tl\": {\n        \"pluralRule-count-one\": \"n = 1 @integer 1\",\n        \"pluralRule-count-other"

/-- make_pluralrules/tests/fixtures/cldr_pluralrules_ordinals_33.json, part 18. -/
def ordinals33_18 : Str := c!"\": \" @integer 0, 2~16, 100, 1000, 10000, 100000, 1000000, …\"\n      },\n      \"tr\": {\n        \"pluralRule-count-other\": \" @integer 0~15, 100, 1000, 10000, 100000, 1000000, …\"\n      },\n      \"uk\": {\n        \"pluralRule-count-few\": \"n % 10 = 3 and n % 100 != 13 @integer 3, 23, 33, 43, 53, 63, 73, 83, 103, 1003, …\",\n        \"pluralRule-count-other\": \" @integer 0~2, 4~16, 100, 1000, 10000, 100000, 1000000, …\"\n      },\n      \"ur\": {\n        \"pluralRule-count-other\": \" @integer 0~15, 100, 1000, 10000, 100000, 1000000, …\"\n      },\n      \"uz\": {\n        \"pluralRule-count-other\": \" @integer 0~15, 100, 1000, 10000, 100000, 1000000, …\"\n      },\n      \"vi\": {\n        \"pluralRule-count-one\": \"n = 1 @integer 1\",\n        \"pluralRule-count-other\": \" @integer 0, 2~16, 100, 1000, 10000, 100000, 1000000, …\"\n  "

/-- make_pluralrules/tests/fixtures/cldr_pluralrules_ordinals_33.json, part 19. -/
def ordinals33_19 : Str := c!"    },\n      \"yue\": {\n        \"pluralRule-count-other\": \" @integer 0~15, 100, 1000, 10000, 100000, 1000000, …\"\n      },\n      \"zh\": {\n        \"pluralRule-count-other\": \" @integer 0~15, 100, 1000, 10000, 100000, 1000000, …\"\n      },\n      \"zu\": {\n        \"pluralRule-count-other\": \" @integer 0~15, 100, 1000, 10000, 100000, 1000000, …\"\n      }\n    }\n  }\n}"

/-- make_pluralrules/tests/fixtures/cldr_pluralrules_ordinals_33.json. -/
def ordinals33 : Str := List.flatten [
  ordinals33_0, ordinals33_1, ordinals33_2, ordinals33_3, ordinals33_4, ordinals33_5, ordinals33_6, ordinals33_7,
  ordinals33_8, ordinals33_9, ordinals33_10, ordinals33_11, ordinals33_12, ordinals33_13, ordinals33_14, ordinals33_15,
  ordinals33_16, ordinals33_17, ordinals33_18, ordinals33_19]

/-- make_pluralrules/tests/fixtures/cldr_pluralrules_within_test.json, part 0. -/
def within_0 : Str := c!"{\n  \"supplemental\": {\n    \"version\": {\n      \"_number\": \"$Revision: 13898 $\",\n      \"_unicodeVersion\": \"10.0.0\",\n      \"_cldrVersion\": \"0\"\n    },\n    \"plurals-type-cardinal\": {\n      \"und\": {\n        \"pluralRule-count-one\": \"n = 1 @integer 1 @decimal 1.0, 1.00, 1.000, 1.0000\",\n        \"pluralRule-count-two\": \"n % 10 within 1..2 @ 11, 12, 21, 22...\",\n        \"pluralRule-count-few\": \"n within 2..10 and i not within 8..9 @ 1.1, 1.2, 2, 3, 4, 5, 6, 7, 10\",\n        \"pluralRule-count-other\": \" @integer 0, 2~16, 100, 1000, 10000, 100000, 1000000, … @decimal 0.0~0.9, 1.1~1.6, 10.0, 100.0, 1000.0, 10000.0, 100000.0, 1000000.0, …\"\n      }\n    }\n  }\n}"

/-- make_pluralrules/tests/fixtures/cldr_pluralrules_within_test.json. -/
def within : Str := List.flatten [
  within_0]

/-- make_pluralrules/tests/fixtures/cldr_pluralrules_33.rs, part 0. -/
def out33_0 : Str := c!"# ! [allow (unused_variables , unused_parens)] # ! [cfg_attr (feature = \"cargo-clippy\" , allow (clippy :: float_cmp))] # ! [cfg_attr (feature = \"cargo-clippy\" , allow (clippy :: unreadable_literal))] # ! [cfg_attr (feature = \"cargo-clippy\" , allow (clippy :: nonminimal_bool))] use super :: operands :: PluralOperands ; use super :: PluralCategory ; use unic_langid :: LanguageIdentifier ; use unic_langid :: subtags ; pub type PluralRule = fn (& PluralOperands) -> PluralCategory ; pub static CLDR_VERSION : usize = 33 ; macro_rules ! langid { ($ lang : expr , $ script : expr , $ region : expr) => { { unsafe { LanguageIdentifier :: from_raw_parts_unchecked ($ lang , $ script , $ region , None ,) } } } ; } pub const PRS_CARDINAL : & [(LanguageIdentifier , PluralRule)] = & [(langid ! (subtags :: "

/-- make_pluralrules/tests/fixtures/cldr_pluralrules_33.rs, part 1. -/
def out33_1 : Str := c!"Language :: from_raw_unchecked (26209u64) , None , None) , | po | { if (po . n == 1 . 0) { PluralCategory :: ONE } else { PluralCategory :: OTHER } }) , (langid ! (subtags :: Language :: from_raw_unchecked (27489u64) , None , None) , | po | { if ((0 ..= 1) . contains (& (po . i)) && po . f == 0) { PluralCategory :: ONE } else { PluralCategory :: OTHER } }) , (langid ! (subtags :: Language :: from_raw_unchecked (28001u64) , None , None) , | po | { if (po . i == 0) || (po . n == 1 . 0) { PluralCategory :: ONE } else { PluralCategory :: OTHER } }) , (langid ! (subtags :: Language :: from_raw_unchecked (29281u64) , None , None) , | po | { if ((3 ..= 10) . contains (& (po . i))) { PluralCategory :: FEW } else if ((11 ..= 99) . contains (& (po . i))) { PluralCategory :: MANY } else if (po . n =="

/-- make_pluralrules/tests/fixtures/cldr_pluralrules_33.rs, part 2. -/
def out33_2 : Str := c!" 1 . 0) { PluralCategory :: ONE } else if (po . n == 2 . 0) { PluralCategory :: TWO } else if (po . n == 0 . 0) { PluralCategory :: ZERO } else { PluralCategory :: OTHER } }) , (langid ! (subtags :: Language :: from_raw_unchecked (7565921u64) , None , None) , | po | { if ((3 ..= 10) . contains (& (po . i))) { PluralCategory :: FEW } else if ((11 ..= 99) . contains (& (po . i))) { PluralCategory :: MANY } else if (po . n == 1 . 0) { PluralCategory :: ONE } else if (po . n == 2 . 0) { PluralCategory :: TWO } else if (po . n == 0 . 0) { PluralCategory :: ZERO } else { PluralCategory :: OTHER } }) , (langid ! (subtags :: Language :: from_raw_unchecked (29537u64) , None , None) , | po | { if (po . i == 0) || (po . n == 1 . 0) { PluralCategory :: ONE } else { PluralCategory :: OTHER } }) , (lang"

/-- make_pluralrules/tests/fixtures/cldr_pluralrules_33.rs, part 3. -/
def out33_3 : Str := c!"id ! (subtags :: Language :: from_raw_unchecked (6386529u64) , None , None) , | po | { if (po . n == 1 . 0) { PluralCategory :: ONE } else { PluralCategory :: OTHER } }) , (langid ! (subtags :: Language :: from_raw_unchecked (7631713u64) , None , None) , | po | { if (po . i == 1 && po . v == 0) { PluralCategory :: ONE } else { PluralCategory :: OTHER } }) , (langid ! (subtags :: Language :: from_raw_unchecked (31329u64) , None , None) , | po | { if (po . n == 1 . 0) { PluralCategory :: ONE } else { PluralCategory :: OTHER } }) , (langid ! (subtags :: Language :: from_raw_unchecked (25954u64) , None , None) , | po | { if ((2 ..= 4) . contains (& (po . i)) && ! (12 ..= 14) . contains (& (po . i))) { PluralCategory :: FEW } else if (po . i % 10 == 0) || ((5 ..= 9) . contains (& (po . i))) || "

/-- make_pluralrules/tests/fixtures/cldr_pluralrules_33.rs, part 4. -/
def out33_4 : Str := c!"((11 ..= 14) . contains (& (po . i))) { PluralCategory :: MANY } else if (po . i % 10 == 1 && po . i % 100 != 11) { PluralCategory :: ONE } else { PluralCategory :: OTHER } }) , (langid ! (subtags :: Language :: from_raw_unchecked (7169378u64) , None , None) , | po | { if (po . n == 1 . 0) { PluralCategory :: ONE } else { PluralCategory :: OTHER } }) , (langid ! (subtags :: Language :: from_raw_unchecked (8021346u64) , None , None) , | po | { if (po . n == 1 . 0) { PluralCategory :: ONE } else { PluralCategory :: OTHER } }) , (langid ! (subtags :: Language :: from_raw_unchecked (26466u64) , None , None) , | po | { if (po . n == 1 . 0) { PluralCategory :: ONE } else { PluralCategory :: OTHER } }) , (langid ! (subtags :: Language :: from_raw_unchecked (26722u64) , None , None) , | po | { if "

/-- make_pluralrules/tests/fixtures/cldr_pluralrules_33.rs, part 5. -/
def out33_5 : Str := c!"((0 ..= 1) . contains (& (po . i)) && po . f == 0) { PluralCategory :: ONE } else { PluralCategory :: OTHER } }) , (langid ! (subtags :: Language :: from_raw_unchecked (28002u64) , None , None) , | po | { { PluralCategory :: OTHER } }) , (langid ! (subtags :: Language :: from_raw_unchecked (28258u64) , None , None) , | po | { if (po . i == 0) || (po . n == 1 . 0) { PluralCategory :: ONE } else { PluralCategory :: OTHER } }) , (langid ! (subtags :: Language :: from_raw_unchecked (28514u64) , None , None) , | po | { { PluralCategory :: OTHER } }) , (langid ! (subtags :: Language :: from_raw_unchecked (29282u64) , None , None) , | po | { if ((po . i % 10 == 9 || (3 ..= 4) . contains (& (po . i))) && ! (10 ..= 19) . contains (& (po . i)) && ! (70 ..= 79) . contains (& (po . i)) && ! (90 ..= 99"

/-- make_pluralrules/tests/fixtures/cldr_pluralrules_33.rs, part 6. -/
def out33_6 : Str := c!") . contains (& (po . i))) { PluralCategory :: FEW } else if (po . n != 0 . 0 && po . i % 1000000 == 0) { PluralCategory :: MANY } else if (po . i % 10 == 1 && po . i % 100 != 11 && po . i % 100 != 71 && po . i % 100 != 91) { PluralCategory :: ONE } else if (po . i % 10 == 2 && po . i % 100 != 12 && po . i % 100 != 72 && po . i % 100 != 92) { PluralCategory :: TWO } else { PluralCategory :: OTHER } }) , (langid ! (subtags :: Language :: from_raw_unchecked (7893602u64) , None , None) , | po | { if (po . n == 1 . 0) { PluralCategory :: ONE } else { PluralCategory :: OTHER } }) , (langid ! (subtags :: Language :: from_raw_unchecked (29538u64) , None , None) , | po | { if (po . v == 0 && (2 ..= 4) . contains (& (po . i % 10)) && ! (12 ..= 14) . contains (& (po . i % 100))) || ((2 ..= 4) . cont"

/-- make_pluralrules/tests/fixtures/cldr_pluralrules_33.rs, part 7. -/
def out33_7 : Str := c!"ains (& (po . f % 10)) && ! (12 ..= 14) . contains (& (po . f % 100))) { PluralCategory :: FEW } else if (po . v == 0 && po . i % 10 == 1 && po . i % 100 != 11) || (po . f % 10 == 1 && po . f % 100 != 11) { PluralCategory :: ONE } else { PluralCategory :: OTHER } }) , (langid ! (subtags :: Language :: from_raw_unchecked (24931u64) , None , None) , | po | { if (po . i == 1 && po . v == 0) { PluralCategory :: ONE } else { PluralCategory :: OTHER } }) , (langid ! (subtags :: Language :: from_raw_unchecked (25955u64) , None , None) , | po | { if (po . n == 1 . 0) { PluralCategory :: ONE } else { PluralCategory :: OTHER } }) , (langid ! (subtags :: Language :: from_raw_unchecked (6776675u64) , None , None) , | po | { if (po . n == 1 . 0) { PluralCategory :: ONE } else { PluralCategory :: OTHER "

/-- make_pluralrules/tests/fixtures/cldr_pluralrules_33.rs, part 8. -/
def out33_8 : Str := c!"} }) , (langid ! (subtags :: Language :: from_raw_unchecked (7497827u64) , None , None) , | po | { if (po . n == 1 . 0) { PluralCategory :: ONE } else { PluralCategory :: OTHER } }) , (langid ! (subtags :: Language :: from_raw_unchecked (6450019u64) , None , None) , | po | { if (po . n == 1 . 0) { PluralCategory :: ONE } else { PluralCategory :: OTHER } }) , (langid ! (subtags :: Language :: from_raw_unchecked (29539u64) , None , None) , | po | { if ((2 ..= 4) . contains (& (po . i)) && po . v == 0) { PluralCategory :: FEW } else if (po . v != 0) { PluralCategory :: MANY } else if (po . i == 1 && po . v == 0) { PluralCategory :: ONE } else { PluralCategory :: OTHER } }) , (langid ! (subtags :: Language :: from_raw_unchecked (31075u64) , None , None) , | po | { if (po . n == 3 . 0) { Plural"

/-- make_pluralrules/tests/fixtures/cldr_pluralrules_33.rs, part 9. -/
def out33_9 : Str := c!"Category :: FEW } else if (po . n == 6 . 0) { PluralCategory :: MANY } else if (po . n == 1 . 0) { PluralCategory :: ONE } else if (po . n == 2 . 0) { PluralCategory :: TWO } else if (po . n == 0 . 0) { PluralCategory :: ZERO } else { PluralCategory :: OTHER } }) , (langid ! (subtags :: Language :: from_raw_unchecked (24932u64) , None , None) , | po | { if (po . n == 1 . 0) || (po . t != 0 && (po . i == 0 || po . i == 1)) { PluralCategory :: ONE } else { PluralCategory :: OTHER } }) , (langid ! (subtags :: Language :: from_raw_unchecked (25956u64) , None , None) , | po | { if (po . i == 1 && po . v == 0) { PluralCategory :: ONE } else { PluralCategory :: OTHER } }) , (langid ! (subtags :: Language :: from_raw_unchecked (6452068u64) , None , None) , | po | { if (po . v == 0 && (3 ..= 4) . c"

/-- make_pluralrules/tests/fixtures/cldr_pluralrules_33.rs, part 10. -/
def out33_10 : Str := c!"ontains (& (po . i % 100))) || ((3 ..= 4) . contains (& (po . f % 100))) { PluralCategory :: FEW } else if (po . v == 0 && po . i % 100 == 1) || (po . f % 100 == 1) { PluralCategory :: ONE } else if (po . v == 0 && po . i % 100 == 2) || (po . f % 100 == 2) { PluralCategory :: TWO } else { PluralCategory :: OTHER } }) , (langid ! (subtags :: Language :: from_raw_unchecked (30308u64) , None , None) , | po | { if (po . n == 1 . 0) { PluralCategory :: ONE } else { PluralCategory :: OTHER } }) , (langid ! (subtags :: Language :: from_raw_unchecked (31332u64) , None , None) , | po | { { PluralCategory :: OTHER } }) , (langid ! (subtags :: Language :: from_raw_unchecked (25957u64) , None , None) , | po | { if (po . n == 1 . 0) { PluralCategory :: ONE } else { PluralCategory :: OTHER } }) , (langi"

/-- make_pluralrules/tests/fixtures/cldr_pluralrules_33.rs, part 11. -/
def out33_11 : Str := c!"d ! (subtags :: Language :: from_raw_unchecked (27749u64) , None , None) , | po | { if (po . n == 1 . 0) { PluralCategory :: ONE } else { PluralCategory :: OTHER } }) , (langid ! (subtags :: Language :: from_raw_unchecked (28261u64) , None , None) , | po | { if (po . i == 1 && po . v == 0) { PluralCategory :: ONE } else { PluralCategory :: OTHER } }) , (langid ! (subtags :: Language :: from_raw_unchecked (28517u64) , None , None) , | po | { if (po . n == 1 . 0) { PluralCategory :: ONE } else { PluralCategory :: OTHER } }) , (langid ! (subtags :: Language :: from_raw_unchecked (29541u64) , None , None) , | po | { if (po . n == 1 . 0) { PluralCategory :: ONE } else { PluralCategory :: OTHER } }) , (langid ! (subtags :: Language :: from_raw_unchecked (29797u64) , None , None) , | po | { if (p"

/-- make_pluralrules/tests/fixtures/cldr_pluralrules_33.rs, part 12. -/
def out33_12 : Str := c!"o . i == 1 && po . v == 0) { PluralCategory :: ONE } else { PluralCategory :: OTHER } }) , (langid ! (subtags :: Language :: from_raw_unchecked (30053u64) , None , None) , | po | { if (po . n == 1 . 0) { PluralCategory :: ONE } else { PluralCategory :: OTHER } }) , (langid ! (subtags :: Language :: from_raw_unchecked (24934u64) , None , None) , | po | { if (po . i == 0) || (po . n == 1 . 0) { PluralCategory :: ONE } else { PluralCategory :: OTHER } }) , (langid ! (subtags :: Language :: from_raw_unchecked (26214u64) , None , None) , | po | { if ((po . i == 0 || po . i == 1)) { PluralCategory :: ONE } else { PluralCategory :: OTHER } }) , (langid ! (subtags :: Language :: from_raw_unchecked (26982u64) , None , None) , | po | { if (po . i == 1 && po . v == 0) { PluralCategory :: ONE } else {"

/-- make_pluralrules/tests/fixtures/cldr_pluralrules_33.rs, part 13. -/
def out33_13 : Str := c!" PluralCategory :: OTHER } }) , (langid ! (subtags :: Language :: from_raw_unchecked (7104870u64) , None , None) , | po | { if (po . v == 0 && (po . i == 1 || po . i == 2 || po . i == 3)) || (po . v == 0 && po . i % 10 != 4 && po . i % 10 != 6 && po . i % 10 != 9) || (po . v != 0 && po . f % 10 != 4 && po . f % 10 != 6 && po . f % 10 != 9) { PluralCategory :: ONE } else { PluralCategory :: OTHER } }) , (langid ! (subtags :: Language :: from_raw_unchecked (28518u64) , None , None) , | po | { if (po . n == 1 . 0) { PluralCategory :: ONE } else { PluralCategory :: OTHER } }) , (langid ! (subtags :: Language :: from_raw_unchecked (29286u64) , None , None) , | po | { if ((po . i == 0 || po . i == 1)) { PluralCategory :: ONE } else { PluralCategory :: OTHER } }) , (langid ! (subtags :: Language "

/-- make_pluralrules/tests/fixtures/cldr_pluralrules_33.rs, part 14. -/
def out33_14 : Str := c!":: from_raw_unchecked (7501158u64) , None , None) , | po | { if (po . n == 1 . 0) { PluralCategory :: ONE } else { PluralCategory :: OTHER } }) , (langid ! (subtags :: Language :: from_raw_unchecked (31078u64) , None , None) , | po | { if (po . i == 1 && po . v == 0) { PluralCategory :: ONE } else { PluralCategory :: OTHER } }) , (langid ! (subtags :: Language :: from_raw_unchecked (24935u64) , None , None) , | po | { if ((3 ..= 6) . contains (& (po . i)) && po . f == 0) { PluralCategory :: FEW } else if ((7 ..= 10) . contains (& (po . i)) && po . f == 0) { PluralCategory :: MANY } else if (po . n == 1 . 0) { PluralCategory :: ONE } else if (po . n == 2 . 0) { PluralCategory :: TWO } else { PluralCategory :: OTHER } }) , (langid ! (subtags :: Language :: from_raw_unchecked (25703u64) , Non"

/-- make_pluralrules/tests/fixtures/cldr_pluralrules_33.rs, part 15. -/
def out33_15 : Str := c!"e , None) , | po | { if (((3 ..= 10) . contains (& (po . i)) && po . f == 0 || (13 ..= 19) . contains (& (po . i)) && po . f == 0)) { PluralCategory :: FEW } else if ((po . n == 1 . 0 || po . n == 11 . 0)) { PluralCategory :: ONE } else if ((po . n == 2 . 0 || po . n == 12 . 0)) { PluralCategory :: TWO } else { PluralCategory :: OTHER } }) , (langid ! (subtags :: Language :: from_raw_unchecked (27751u64) , None , None) , | po | { if (po . i == 1 && po . v == 0) { PluralCategory :: ONE } else { PluralCategory :: OTHER } }) , (langid ! (subtags :: Language :: from_raw_unchecked (7828327u64) , None , None) , | po | { if (po . n == 1 . 0) { PluralCategory :: ONE } else { PluralCategory :: OTHER } }) , (langid ! (subtags :: Language :: from_raw_unchecked (30055u64) , None , None) , | po | { if "

/-- make_pluralrules/tests/fixtures/cldr_pluralrules_33.rs, part 16. -/
def out33_16 : Str := c!"(po . i == 0) || (po . n == 1 . 0) { PluralCategory :: ONE } else { PluralCategory :: OTHER } }) , (langid ! (subtags :: Language :: from_raw_unchecked (7828839u64) , None , None) , | po | { if ((0 ..= 1) . contains (& (po . i)) && po . f == 0) { PluralCategory :: ONE } else { PluralCategory :: OTHER } }) , (langid ! (subtags :: Language :: from_raw_unchecked (30311u64) , None , None) , | po | { if (po . v == 0 && (po . i % 100 == 0 || po . i % 100 == 20 || po . i % 100 == 40 || po . i % 100 == 60 || po . i % 100 == 80)) { PluralCategory :: FEW } else if (po . v != 0) { PluralCategory :: MANY } else if (po . v == 0 && po . i % 10 == 1) { PluralCategory :: ONE } else if (po . v == 0 && po . i % 10 == 2) { PluralCategory :: TWO } else { PluralCategory :: OTHER } }) , (langid ! (subtags :: La"

/-- make_pluralrules/tests/fixtures/cldr_pluralrules_33.rs, part 17. -/
def out33_17 : Str := c!"nguage :: from_raw_unchecked (24936u64) , None , None) , | po | { if (po . n == 1 . 0) { PluralCategory :: ONE } else { PluralCategory :: OTHER } }) , (langid ! (subtags :: Language :: from_raw_unchecked (7823720u64) , None , None) , | po | { if (po . n == 1 . 0) { PluralCategory :: ONE } else { PluralCategory :: OTHER } }) , (langid ! (subtags :: Language :: from_raw_unchecked (25960u64) , None , None) , | po | { if (po . v == 0 && ! (0 ..= 10) . contains (& (po . i)) && po . f == 0 && po . i % 10 == 0) { PluralCategory :: MANY } else if (po . i == 1 && po . v == 0) { PluralCategory :: ONE } else if (po . i == 2 && po . v == 0) { PluralCategory :: TWO } else { PluralCategory :: OTHER } }) , (langid ! (subtags :: Language :: from_raw_unchecked (26984u64) , None , None) , | po | { if (po . "

/-- make_pluralrules/tests/fixtures/cldr_pluralrules_33.rs, part 18. -/
def out33_18 : Str := c!"i == 0) || (po . n == 1 . 0) { PluralCategory :: ONE } else { PluralCategory :: OTHER } }) , (langid ! (subtags :: Language :: from_raw_unchecked (29288u64) , None , None) , | po | { if (po . v == 0 && (2 ..= 4) . contains (& (po . i % 10)) && ! (12 ..= 14) . contains (& (po . i % 100))) || ((2 ..= 4) . contains (& (po . f % 10)) && ! (12 ..= 14) . contains (& (po . f % 100))) { PluralCategory :: FEW } else if (po . v == 0 && po . i % 10 == 1 && po . i % 100 != 11) || (po . f % 10 == 1 && po . f % 100 != 11) { PluralCategory :: ONE } else { PluralCategory :: OTHER } }) , (langid ! (subtags :: Language :: from_raw_unchecked (6452072u64) , None , None) , | po | { if (po . v == 0 && (3 ..= 4) . contains (& (po . i % 100))) || ((3 ..= 4) . contains (& (po . f % 100))) { PluralCategory :: FEW }"

/-- make_pluralrules/tests/fixtures/cldr_pluralrules_33.rs, part 19. -/
def out33_19 : Str := c!" else if (po . v == 0 && po . i % 100 == 1) || (po . f % 100 == 1) { PluralCategory :: ONE } else if (po . v == 0 && po . i % 100 == 2) || (po . f % 100 == 2) { PluralCategory :: TWO } else { PluralCategory :: OTHER } }) , (langid ! (subtags :: Language :: from_raw_unchecked (30056u64) , None , None) , | po | { if (po . n == 1 . 0) { PluralCategory :: ONE } else { PluralCategory :: OTHER } }) , (langid ! (subtags :: Language :: from_raw_unchecked (31080u64) , None , None) , | po | { if ((po . i == 0 || po . i == 1)) { PluralCategory :: ONE } else { PluralCategory :: OTHER } }) , (langid ! (subtags :: Language :: from_raw_unchecked (25705u64) , None , None) , | po | { { PluralCategory :: OTHER } }) , (langid ! (subtags :: Language :: from_raw_unchecked (26473u64) , None , None) , | po | { {"

/-- make_pluralrules/tests/fixtures/cldr_pluralrules_33.rs, part 20. -/
def out33_20 : Str := c!" PluralCategory :: OTHER } }) , (langid ! (subtags :: Language :: from_raw_unchecked (26985u64) , None , None) , | po | { { PluralCategory :: OTHER } }) , (langid ! (subtags :: Language :: from_raw_unchecked (28265u64) , None , None) , | po | { { PluralCategory :: OTHER } }) , (langid ! (subtags :: Language :: from_raw_unchecked (28521u64) , None , None) , | po | { if (po . i == 1 && po . v == 0) { PluralCategory :: ONE } else { PluralCategory :: OTHER } }) , (langid ! (subtags :: Language :: from_raw_unchecked (29545u64) , None , None) , | po | { if (po . t == 0 && po . i % 10 == 1 && po . i % 100 != 11) || (po . t != 0) { PluralCategory :: ONE } else { PluralCategory :: OTHER } }) , (langid ! (subtags :: Language :: from_raw_unchecked (29801u64) , None , None) , | po | { if (po . i == 1 "

/-- make_pluralrules/tests/fixtures/cldr_pluralrules_33.rs, part 21. -/
def out33_21 : Str := c!"&& po . v == 0) { PluralCategory :: ONE } else { PluralCategory :: OTHER } }) , (langid ! (subtags :: Language :: from_raw_unchecked (30057u64) , None , None) , | po | { if (po . n == 1 . 0) { PluralCategory :: ONE } else if (po . n == 2 . 0) { PluralCategory :: TWO } else { PluralCategory :: OTHER } }) , (langid ! (subtags :: Language :: from_raw_unchecked (30569u64) , None , None) , | po | { if (po . v == 0 && ! (0 ..= 10) . contains (& (po . i)) && po . f == 0 && po . i % 10 == 0) { PluralCategory :: MANY } else if (po . i == 1 && po . v == 0) { PluralCategory :: ONE } else if (po . i == 2 && po . v == 0) { PluralCategory :: TWO } else { PluralCategory :: OTHER } }) , (langid ! (subtags :: Language :: from_raw_unchecked (24938u64) , None , None) , | po | { { PluralCategory :: OTHER } })"

/-- make_pluralrules/tests/fixtures/cldr_pluralrules_33.rs, part 22. -/
def out33_22 : Str := c!" , (langid ! (subtags :: Language :: from_raw_unchecked (7299690u64) , None , None) , | po | { { PluralCategory :: OTHER } }) , (langid ! (subtags :: Language :: from_raw_unchecked (7300970u64) , None , None) , | po | { if (po . n == 1 . 0) { PluralCategory :: ONE } else { PluralCategory :: OTHER } }) , (langid ! (subtags :: Language :: from_raw_unchecked (26986u64) , None , None) , | po | { if (po . i == 1 && po . v == 0) { PluralCategory :: ONE } else { PluralCategory :: OTHER } }) , (langid ! (subtags :: Language :: from_raw_unchecked (6516074u64) , None , None) , | po | { if (po . n == 1 . 0) { PluralCategory :: ONE } else { PluralCategory :: OTHER } }) , (langid ! (subtags :: Language :: from_raw_unchecked (30314u64) , None , None) , | po | { { PluralCategory :: OTHER } }) , (langid !"

/-- make_pluralrules/tests/fixtures/cldr_pluralrules_33.rs, part 23. -/
def out33_23 : Str := c!" (subtags :: Language :: from_raw_unchecked (30570u64) , None , None) , | po | { { PluralCategory :: OTHER } }) , (langid ! (subtags :: Language :: from_raw_unchecked (24939u64) , None , None) , | po | { if (po . n == 1 . 0) { PluralCategory :: ONE } else { PluralCategory :: OTHER } }) , (langid ! (subtags :: Language :: from_raw_unchecked (6447467u64) , None , None) , | po | { if ((po . i == 0 || po . i == 1)) { PluralCategory :: ONE } else { PluralCategory :: OTHER } }) , (langid ! (subtags :: Language :: from_raw_unchecked (6971755u64) , None , None) , | po | { if (po . n == 1 . 0) { PluralCategory :: ONE } else { PluralCategory :: OTHER } }) , (langid ! (subtags :: Language :: from_raw_unchecked (6775659u64) , None , None) , | po | { if (po . n == 1 . 0) { PluralCategory :: ONE } else "

/-- make_pluralrules/tests/fixtures/cldr_pluralrules_33.rs, part 24. -/
def out33_24 : Str := c!"{ PluralCategory :: OTHER } }) , (langid ! (subtags :: Language :: from_raw_unchecked (6644843u64) , None , None) , | po | { { PluralCategory :: OTHER } }) , (langid ! (subtags :: Language :: from_raw_unchecked (6382955u64) , None , None) , | po | { { PluralCategory :: OTHER } }) , (langid ! (subtags :: Language :: from_raw_unchecked (27499u64) , None , None) , | po | { if (po . n == 1 . 0) { PluralCategory :: ONE } else { PluralCategory :: OTHER } }) , (langid ! (subtags :: Language :: from_raw_unchecked (6974315u64) , None , None) , | po | { if (po . n == 1 . 0) { PluralCategory :: ONE } else { PluralCategory :: OTHER } }) , (langid ! (subtags :: Language :: from_raw_unchecked (27755u64) , None , None) , | po | { if (po . n == 1 . 0) { PluralCategory :: ONE } else { PluralCategory :: OTH"

/-- make_pluralrules/tests/fixtures/cldr_pluralrules_33.rs, part 25. -/
def out33_25 : Str := c!"ER } }) , (langid ! (subtags :: Language :: from_raw_unchecked (28011u64) , None , None) , | po | { { PluralCategory :: OTHER } }) , (langid ! (subtags :: Language :: from_raw_unchecked (28267u64) , None , None) , | po | { if (po . i == 0) || (po . n == 1 . 0) { PluralCategory :: ONE } else { PluralCategory :: OTHER } }) , (langid ! (subtags :: Language :: from_raw_unchecked (28523u64) , None , None) , | po | { { PluralCategory :: OTHER } }) , (langid ! (subtags :: Language :: from_raw_unchecked (29547u64) , None , None) , | po | { if (po . n == 1 . 0) { PluralCategory :: ONE } else { PluralCategory :: OTHER } }) , (langid ! (subtags :: Language :: from_raw_unchecked (6452075u64) , None , None) , | po | { if (po . n == 1 . 0) { PluralCategory :: ONE } else { PluralCategory :: OTHER } }) , "

/-- make_pluralrules/tests/fixtures/cldr_pluralrules_33.rs, part 26. -/
def out33_26 : Str := c!"(langid ! (subtags :: Language :: from_raw_unchecked (6845291u64) , None , None) , | po | { if (po . n == 1 . 0) { PluralCategory :: ONE } else if (po . n == 0 . 0) { PluralCategory :: ZERO } else { PluralCategory :: OTHER } }) , (langid ! (subtags :: Language :: from_raw_unchecked (30059u64) , None , None) , | po | { if (po . n == 1 . 0) { PluralCategory :: ONE } else { PluralCategory :: OTHER } }) , (langid ! (subtags :: Language :: from_raw_unchecked (30571u64) , None , None) , | po | { if (po . n == 1 . 0) { PluralCategory :: ONE } else if (po . n == 2 . 0) { PluralCategory :: TWO } else { PluralCategory :: OTHER } }) , (langid ! (subtags :: Language :: from_raw_unchecked (31083u64) , None , None) , | po | { if (po . n == 1 . 0) { PluralCategory :: ONE } else { PluralCategory :: OTHER "

/-- make_pluralrules/tests/fixtures/cldr_pluralrules_33.rs, part 27. -/
def out33_27 : Str := c!"} }) , (langid ! (subtags :: Language :: from_raw_unchecked (6775148u64) , None , None) , | po | { if ((po . i == 0 || po . i == 1) && po . n != 0 . 0) { PluralCategory :: ONE } else if (po . n == 0 . 0) { PluralCategory :: ZERO } else { PluralCategory :: OTHER } }) , (langid ! (subtags :: Language :: from_raw_unchecked (25196u64) , None , None) , | po | { if (po . n == 1 . 0) { PluralCategory :: ONE } else { PluralCategory :: OTHER } }) , (langid ! (subtags :: Language :: from_raw_unchecked (26476u64) , None , None) , | po | { if (po . n == 1 . 0) { PluralCategory :: ONE } else { PluralCategory :: OTHER } }) , (langid ! (subtags :: Language :: from_raw_unchecked (7629676u64) , None , None) , | po | { { PluralCategory :: OTHER } }) , (langid ! (subtags :: Language :: from_raw_unchecked (28"

/-- make_pluralrules/tests/fixtures/cldr_pluralrules_33.rs, part 28. -/
def out33_28 : Str := c!"268u64) , None , None) , | po | { if ((0 ..= 1) . contains (& (po . i)) && po . f == 0) { PluralCategory :: ONE } else { PluralCategory :: OTHER } }) , (langid ! (subtags :: Language :: from_raw_unchecked (28524u64) , None , None) , | po | { { PluralCategory :: OTHER } }) , (langid ! (subtags :: Language :: from_raw_unchecked (29804u64) , None , None) , | po | { if ((2 ..= 9) . contains (& (po . i)) && ! (11 ..= 19) . contains (& (po . i))) { PluralCategory :: FEW } else if (po . f != 0) { PluralCategory :: MANY } else if (po . i % 10 == 1 && ! (11 ..= 19) . contains (& (po . i))) { PluralCategory :: ONE } else { PluralCategory :: OTHER } }) , (langid ! (subtags :: Language :: from_raw_unchecked (30316u64) , None , None) , | po | { if (po . i % 10 == 1 && po . i % 100 != 11) || (po . v == "

/-- make_pluralrules/tests/fixtures/cldr_pluralrules_33.rs, part 29. -/
def out33_29 : Str := c!"2 && po . f % 10 == 1 && po . f % 100 != 11) || (po . v != 2 && po . f % 10 == 1) { PluralCategory :: ONE } else if (po . i % 10 == 0) || ((11 ..= 19) . contains (& (po . i))) || (po . v == 2 && (11 ..= 19) . contains (& (po . f % 100))) { PluralCategory :: ZERO } else { PluralCategory :: OTHER } }) , (langid ! (subtags :: Language :: from_raw_unchecked (7561581u64) , None , None) , | po | { if (po . n == 1 . 0) { PluralCategory :: ONE } else { PluralCategory :: OTHER } }) , (langid ! (subtags :: Language :: from_raw_unchecked (26477u64) , None , None) , | po | { if ((0 ..= 1) . contains (& (po . i)) && po . f == 0) { PluralCategory :: ONE } else { PluralCategory :: OTHER } }) , (langid ! (subtags :: Language :: from_raw_unchecked (7300973u64) , None , None) , | po | { if (po . n == 1 . 0)"

/-- make_pluralrules/tests/fixtures/cldr_pluralrules_33.rs, part 30. -/
def out33_30 : Str := c!" { PluralCategory :: ONE } else { PluralCategory :: OTHER } }) , (langid ! (subtags :: Language :: from_raw_unchecked (27501u64) , None , None) , | po | { if (po . v == 0 && po . i % 10 == 1 && po . i % 100 != 11) || (po . f % 10 == 1 && po . f % 100 != 11) { PluralCategory :: ONE } else { PluralCategory :: OTHER } }) , (langid ! (subtags :: Language :: from_raw_unchecked (27757u64) , None , None) , | po | { if (po . n == 1 . 0) { PluralCategory :: ONE } else { PluralCategory :: OTHER } }) , (langid ! (subtags :: Language :: from_raw_unchecked (28269u64) , None , None) , | po | { if (po . n == 1 . 0) { PluralCategory :: ONE } else { PluralCategory :: OTHER } }) , (langid ! (subtags :: Language :: from_raw_unchecked (28525u64) , None , None) , | po | { if (po . v != 0) || (po . n == 0 . 0) "

/-- make_pluralrules/tests/fixtures/cldr_pluralrules_33.rs, part 31. -/
def out33_31 : Str := c!"|| (po . n != 1 . 0 && (1 ..= 19) . contains (& (po . i))) { PluralCategory :: FEW } else if (po . i == 1 && po . v == 0) { PluralCategory :: ONE } else { PluralCategory :: OTHER } }) , (langid ! (subtags :: Language :: from_raw_unchecked (29293u64) , None , None) , | po | { if (po . i == 0) || (po . n == 1 . 0) { PluralCategory :: ONE } else { PluralCategory :: OTHER } }) , (langid ! (subtags :: Language :: from_raw_unchecked (29549u64) , None , None) , | po | { { PluralCategory :: OTHER } }) , (langid ! (subtags :: Language :: from_raw_unchecked (29805u64) , None , None) , | po | { if (po . n == 0 . 0) || ((2 ..= 10) . contains (& (po . i))) { PluralCategory :: FEW } else if ((11 ..= 19) . contains (& (po . i))) { PluralCategory :: MANY } else if (po . n == 1 . 0) { PluralCategory :: ONE"

/-- make_pluralrules/tests/fixtures/cldr_pluralrules_33.rs, part 32. -/
def out33_32 : Str := c!" } else { PluralCategory :: OTHER } }) , (langid ! (subtags :: Language :: from_raw_unchecked (31085u64) , None , None) , | po | { { PluralCategory :: OTHER } }) , (langid ! (subtags :: Language :: from_raw_unchecked (6840686u64) , None , None) , | po | { if (po . n == 1 . 0) { PluralCategory :: ONE } else { PluralCategory :: OTHER } }) , (langid ! (subtags :: Language :: from_raw_unchecked (7430510u64) , None , None) , | po | { if (po . n == 1 . 0) { PluralCategory :: ONE } else if (po . n == 2 . 0) { PluralCategory :: TWO } else { PluralCategory :: OTHER } }) , (langid ! (subtags :: Language :: from_raw_unchecked (25198u64) , None , None) , | po | { if (po . n == 1 . 0) { PluralCategory :: ONE } else { PluralCategory :: OTHER } }) , (langid ! (subtags :: Language :: from_raw_unchecked (2"

/-- make_pluralrules/tests/fixtures/cldr_pluralrules_33.rs, part 33. -/
def out33_33 : Str := c!"5710u64) , None , None) , | po | { if (po . n == 1 . 0) { PluralCategory :: ONE } else { PluralCategory :: OTHER } }) , (langid ! (subtags :: Language :: from_raw_unchecked (25966u64) , None , None) , | po | { if (po . n == 1 . 0) { PluralCategory :: ONE } else { PluralCategory :: OTHER } }) , (langid ! (subtags :: Language :: from_raw_unchecked (27758u64) , None , None) , | po | { if (po . i == 1 && po . v == 0) { PluralCategory :: ONE } else { PluralCategory :: OTHER } }) , (langid ! (subtags :: Language :: from_raw_unchecked (28270u64) , None , None) , | po | { if (po . n == 1 . 0) { PluralCategory :: ONE } else { PluralCategory :: OTHER } }) , (langid ! (subtags :: Language :: from_raw_unchecked (6844014u64) , None , None) , | po | { if (po . n == 1 . 0) { PluralCategory :: ONE } else "

/-- make_pluralrules/tests/fixtures/cldr_pluralrules_33.rs, part 34. -/
def out33_34 : Str := c!"{ PluralCategory :: OTHER } }) , (langid ! (subtags :: Language :: from_raw_unchecked (28526u64) , None , None) , | po | { if (po . n == 1 . 0) { PluralCategory :: ONE } else { PluralCategory :: OTHER } }) , (langid ! (subtags :: Language :: from_raw_unchecked (7303534u64) , None , None) , | po | { { PluralCategory :: OTHER } }) , (langid ! (subtags :: Language :: from_raw_unchecked (29294u64) , None , None) , | po | { if (po . n == 1 . 0) { PluralCategory :: ONE } else { PluralCategory :: OTHER } }) , (langid ! (subtags :: Language :: from_raw_unchecked (7304046u64) , None , None) , | po | { if ((0 ..= 1) . contains (& (po . i)) && po . f == 0) { PluralCategory :: ONE } else { PluralCategory :: OTHER } }) , (langid ! (subtags :: Language :: from_raw_unchecked (31086u64) , None , None) , |"

/-- make_pluralrules/tests/fixtures/cldr_pluralrules_33.rs, part 35. -/
def out33_35 : Str := c!" po | { if (po . n == 1 . 0) { PluralCategory :: ONE } else { PluralCategory :: OTHER } }) , (langid ! (subtags :: Language :: from_raw_unchecked (7240046u64) , None , None) , | po | { if (po . n == 1 . 0) { PluralCategory :: ONE } else { PluralCategory :: OTHER } }) , (langid ! (subtags :: Language :: from_raw_unchecked (28015u64) , None , None) , | po | { if (po . n == 1 . 0) { PluralCategory :: ONE } else { PluralCategory :: OTHER } }) , (langid ! (subtags :: Language :: from_raw_unchecked (29295u64) , None , None) , | po | { if (po . n == 1 . 0) { PluralCategory :: ONE } else { PluralCategory :: OTHER } }) , (langid ! (subtags :: Language :: from_raw_unchecked (29551u64) , None , None) , | po | { if (po . n == 1 . 0) { PluralCategory :: ONE } else { PluralCategory :: OTHER } }) , (lang"

/-- make_pluralrules/tests/fixtures/cldr_pluralrules_33.rs, part 36. -/
def out33_36 : Str := c!"id ! (subtags :: Language :: from_raw_unchecked (24944u64) , None , None) , | po | { if ((0 ..= 1) . contains (& (po . i)) && po . f == 0) { PluralCategory :: ONE } else { PluralCategory :: OTHER } }) , (langid ! (subtags :: Language :: from_raw_unchecked (7364976u64) , None , None) , | po | { if (po . n == 1 . 0) { PluralCategory :: ONE } else { PluralCategory :: OTHER } }) , (langid ! (subtags :: Language :: from_raw_unchecked (27760u64) , None , None) , | po | { if (po . v == 0 && (2 ..= 4) . contains (& (po . i % 10)) && ! (12 ..= 14) . contains (& (po . i % 100))) { PluralCategory :: FEW } else if (po . v == 0 && po . i != 1 && (0 ..= 1) . contains (& (po . i % 10))) || (po . v == 0 && (5 ..= 9) . contains (& (po . i % 10))) || (po . v == 0 && (12 ..= 14) . contains (& (po . i % 100))"

/-- make_pluralrules/tests/fixtures/cldr_pluralrules_33.rs, part 37. -/
def out33_37 : Str := c!") { PluralCategory :: MANY } else if (po . i == 1 && po . v == 0) { PluralCategory :: ONE } else { PluralCategory :: OTHER } }) , (langid ! (subtags :: Language :: from_raw_unchecked (6779504u64) , None , None) , | po | { if (po . i % 10 == 1 && po . i % 100 != 11) || (po . v == 2 && po . f % 10 == 1 && po . f % 100 != 11) || (po . v != 2 && po . f % 10 == 1) { PluralCategory :: ONE } else if (po . i % 10 == 0) || ((11 ..= 19) . contains (& (po . i))) || (po . v == 2 && (11 ..= 19) . contains (& (po . f % 100))) { PluralCategory :: ZERO } else { PluralCategory :: OTHER } }) , (langid ! (subtags :: Language :: from_raw_unchecked (29552u64) , None , None) , | po | { if (po . n == 1 . 0) { PluralCategory :: ONE } else { PluralCategory :: OTHER } }) , (langid ! (subtags :: Language :: from_raw"

/-- make_pluralrules/tests/fixtures/cldr_pluralrules_33.rs, part 38. -/
def out33_38 : Str := c!"_unchecked (29808u64) , None , None) , | po | { if ((0 ..= 1) . contains (& (po . i))) { PluralCategory :: ONE } else { PluralCategory :: OTHER } }) , (langid ! (subtags :: Language :: from_raw_unchecked (29808u64) , None , Some (subtags :: Region :: from_raw_unchecked (21584u32))) , | po | { if (po . i == 1 && po . v == 0) { PluralCategory :: ONE } else { PluralCategory :: OTHER } }) , (langid ! (subtags :: Language :: from_raw_unchecked (28018u64) , None , None) , | po | { if (po . n == 1 . 0) { PluralCategory :: ONE } else { PluralCategory :: OTHER } }) , (langid ! (subtags :: Language :: from_raw_unchecked (28530u64) , None , None) , | po | { if (po . v != 0) || (po . n == 0 . 0) || (po . n != 1 . 0 && (1 ..= 19) . contains (& (po . i))) { PluralCategory :: FEW } else if (po . i == 1 &"

/-- make_pluralrules/tests/fixtures/cldr_pluralrules_33.rs, part 39. -/
def out33_39 : Str := c!"& po . v == 0) { PluralCategory :: ONE } else { PluralCategory :: OTHER } }) , (langid ! (subtags :: Language :: from_raw_unchecked (6713202u64) , None , None) , | po | { if (po . n == 1 . 0) { PluralCategory :: ONE } else { PluralCategory :: OTHER } }) , (langid ! (subtags :: Language :: from_raw_unchecked (30066u64) , None , None) , | po | { if (po . v == 0 && (2 ..= 4) . contains (& (po . i % 10)) && ! (12 ..= 14) . contains (& (po . i % 100))) { PluralCategory :: FEW } else if (po . v == 0 && po . i % 10 == 0) || (po . v == 0 && (5 ..= 9) . contains (& (po . i % 10))) || (po . v == 0 && (11 ..= 14) . contains (& (po . i % 100))) { PluralCategory :: MANY } else if (po . v == 0 && po . i % 10 == 1 && po . i % 100 != 11) { PluralCategory :: ONE } else { PluralCategory :: OTHER } }) , (lan"

/-- make_pluralrules/tests/fixtures/cldr_pluralrules_33.rs, part 40. -/
def out33_40 : Str := c!"gid ! (subtags :: Language :: from_raw_unchecked (7042930u64) , None , None) , | po | { if (po . n == 1 . 0) { PluralCategory :: ONE } else { PluralCategory :: OTHER } }) , (langid ! (subtags :: Language :: from_raw_unchecked (6840691u64) , None , None) , | po | { { PluralCategory :: OTHER } }) , (langid ! (subtags :: Language :: from_raw_unchecked (7430515u64) , None , None) , | po | { if (po . n == 1 . 0) { PluralCategory :: ONE } else { PluralCategory :: OTHER } }) , (langid ! (subtags :: Language :: from_raw_unchecked (7234419u64) , None , None) , | po | { if (po . i == 1 && po . v == 0) { PluralCategory :: ONE } else { PluralCategory :: OTHER } }) , (langid ! (subtags :: Language :: from_raw_unchecked (25715u64) , None , None) , | po | { if (po . n == 1 . 0) { PluralCategory :: ONE } "

/-- make_pluralrules/tests/fixtures/cldr_pluralrules_33.rs, part 41. -/
def out33_41 : Str := c!"else { PluralCategory :: OTHER } }) , (langid ! (subtags :: Language :: from_raw_unchecked (6841459u64) , None , None) , | po | { if (po . n == 1 . 0) { PluralCategory :: ONE } else { PluralCategory :: OTHER } }) , (langid ! (subtags :: Language :: from_raw_unchecked (25971u64) , None , None) , | po | { if (po . n == 1 . 0) { PluralCategory :: ONE } else if (po . n == 2 . 0) { PluralCategory :: TWO } else { PluralCategory :: OTHER } }) , (langid ! (subtags :: Language :: from_raw_unchecked (6841715u64) , None , None) , | po | { if (po . n == 1 . 0) { PluralCategory :: ONE } else { PluralCategory :: OTHER } }) , (langid ! (subtags :: Language :: from_raw_unchecked (7562611u64) , None , None) , | po | { { PluralCategory :: OTHER } }) , (langid ! (subtags :: Language :: from_raw_unchecked (26"

/-- make_pluralrules/tests/fixtures/cldr_pluralrules_33.rs, part 42. -/
def out33_42 : Str := c!"483u64) , None , None) , | po | { { PluralCategory :: OTHER } }) , (langid ! (subtags :: Language :: from_raw_unchecked (26739u64) , None , None) , | po | { if (po . v == 0 && (2 ..= 4) . contains (& (po . i % 10)) && ! (12 ..= 14) . contains (& (po . i % 100))) || ((2 ..= 4) . contains (& (po . f % 10)) && ! (12 ..= 14) . contains (& (po . f % 100))) { PluralCategory :: FEW } else if (po . v == 0 && po . i % 10 == 1 && po . i % 100 != 11) || (po . f % 10 == 1 && po . f % 100 != 11) { PluralCategory :: ONE } else { PluralCategory :: OTHER } }) , (langid ! (subtags :: Language :: from_raw_unchecked (6908019u64) , None , None) , | po | { if ((2 ..= 10) . contains (& (po . i)) && po . f == 0) { PluralCategory :: FEW } else if (po . i == 0) || (po . n == 1 . 0) { PluralCategory :: ONE } else {"

/-- make_pluralrules/tests/fixtures/cldr_pluralrules_33.rs, part 43. -/
def out33_43 : Str := c!" PluralCategory :: OTHER } }) , (langid ! (subtags :: Language :: from_raw_unchecked (26995u64) , None , None) , | po | { if ((po . n == 0 . 0 || po . n == 1 . 0)) || (po . i == 0 && po . f == 1) { PluralCategory :: ONE } else { PluralCategory :: OTHER } }) , (langid ! (subtags :: Language :: from_raw_unchecked (27507u64) , None , None) , | po | { if ((2 ..= 4) . contains (& (po . i)) && po . v == 0) { PluralCategory :: FEW } else if (po . v != 0) { PluralCategory :: MANY } else if (po . i == 1 && po . v == 0) { PluralCategory :: ONE } else { PluralCategory :: OTHER } }) , (langid ! (subtags :: Language :: from_raw_unchecked (27763u64) , None , None) , | po | { if (po . v == 0 && (3 ..= 4) . contains (& (po . i % 100))) || (po . v != 0) { PluralCategory :: FEW } else if (po . v == 0 && po "

/-- make_pluralrules/tests/fixtures/cldr_pluralrules_33.rs, part 44. -/
def out33_44 : Str := c!". i % 100 == 1) { PluralCategory :: ONE } else if (po . v == 0 && po . i % 100 == 2) { PluralCategory :: TWO } else { PluralCategory :: OTHER } }) , (langid ! (subtags :: Language :: from_raw_unchecked (6385011u64) , None , None) , | po | { if (po . n == 1 . 0) { PluralCategory :: ONE } else if (po . n == 2 . 0) { PluralCategory :: TWO } else { PluralCategory :: OTHER } }) , (langid ! (subtags :: Language :: from_raw_unchecked (6909299u64) , None , None) , | po | { if (po . n == 1 . 0) { PluralCategory :: ONE } else if (po . n == 2 . 0) { PluralCategory :: TWO } else { PluralCategory :: OTHER } }) , (langid ! (subtags :: Language :: from_raw_unchecked (6974835u64) , None , None) , | po | { if (po . n == 1 . 0) { PluralCategory :: ONE } else if (po . n == 2 . 0) { PluralCategory :: TWO } el"

/-- make_pluralrules/tests/fixtures/cldr_pluralrules_33.rs, part 45. -/
def out33_45 : Str := c!"se { PluralCategory :: OTHER } }) , (langid ! (subtags :: Language :: from_raw_unchecked (7236979u64) , None , None) , | po | { if (po . n == 1 . 0) { PluralCategory :: ONE } else if (po . n == 2 . 0) { PluralCategory :: TWO } else { PluralCategory :: OTHER } }) , (langid ! (subtags :: Language :: from_raw_unchecked (7564659u64) , None , None) , | po | { if (po . n == 1 . 0) { PluralCategory :: ONE } else if (po . n == 2 . 0) { PluralCategory :: TWO } else { PluralCategory :: OTHER } }) , (langid ! (subtags :: Language :: from_raw_unchecked (28275u64) , None , None) , | po | { if (po . n == 1 . 0) { PluralCategory :: ONE } else { PluralCategory :: OTHER } }) , (langid ! (subtags :: Language :: from_raw_unchecked (28531u64) , None , None) , | po | { if (po . n == 1 . 0) { PluralCategory :: "

/-- make_pluralrules/tests/fixtures/cldr_pluralrules_33.rs, part 46. -/
def out33_46 : Str := c!"ONE } else { PluralCategory :: OTHER } }) , (langid ! (subtags :: Language :: from_raw_unchecked (29043u64) , None , None) , | po | { if (po . n == 1 . 0) { PluralCategory :: ONE } else { PluralCategory :: OTHER } }) , (langid ! (subtags :: Language :: from_raw_unchecked (29299u64) , None , None) , | po | { if (po . v == 0 && (2 ..= 4) . contains (& (po . i % 10)) && ! (12 ..= 14) . contains (& (po . i % 100))) || ((2 ..= 4) . contains (& (po . f % 10)) && ! (12 ..= 14) . contains (& (po . f % 100))) { PluralCategory :: FEW } else if (po . v == 0 && po . i % 10 == 1 && po . i % 100 != 11) || (po . f % 10 == 1 && po . f % 100 != 11) { PluralCategory :: ONE } else { PluralCategory :: OTHER } }) , (langid ! (subtags :: Language :: from_raw_unchecked (29555u64) , None , None) , | po | { if (po"

/-- make_pluralrules/tests/fixtures/cldr_pluralrules_33.rs, part 47. -/
def out33_47 : Str := c!" . n == 1 . 0) { PluralCategory :: ONE } else { PluralCategory :: OTHER } }) , (langid ! (subtags :: Language :: from_raw_unchecked (7959411u64) , None , None) , | po | { if (po . n == 1 . 0) { PluralCategory :: ONE } else { PluralCategory :: OTHER } }) , (langid ! (subtags :: Language :: from_raw_unchecked (29811u64) , None , None) , | po | { if (po . n == 1 . 0) { PluralCategory :: ONE } else { PluralCategory :: OTHER } }) , (langid ! (subtags :: Language :: from_raw_unchecked (30323u64) , None , None) , | po | { if (po . i == 1 && po . v == 0) { PluralCategory :: ONE } else { PluralCategory :: OTHER } }) , (langid ! (subtags :: Language :: from_raw_unchecked (30579u64) , None , None) , | po | { if (po . i == 1 && po . v == 0) { PluralCategory :: ONE } else { PluralCategory :: OTHER } })"

/-- make_pluralrules/tests/fixtures/cldr_pluralrules_33.rs, part 48. -/
def out33_48 : Str := c!" , (langid ! (subtags :: Language :: from_raw_unchecked (7502195u64) , None , None) , | po | { if (po . n == 1 . 0) { PluralCategory :: ONE } else { PluralCategory :: OTHER } }) , (langid ! (subtags :: Language :: from_raw_unchecked (24948u64) , None , None) , | po | { if (po . n == 1 . 0) { PluralCategory :: ONE } else { PluralCategory :: OTHER } }) , (langid ! (subtags :: Language :: from_raw_unchecked (25972u64) , None , None) , | po | { if (po . n == 1 . 0) { PluralCategory :: ONE } else { PluralCategory :: OTHER } }) , (langid ! (subtags :: Language :: from_raw_unchecked (7300468u64) , None , None) , | po | { if (po . n == 1 . 0) { PluralCategory :: ONE } else { PluralCategory :: OTHER } }) , (langid ! (subtags :: Language :: from_raw_unchecked (26740u64) , None , None) , | po | { { P"

/-- make_pluralrules/tests/fixtures/cldr_pluralrules_33.rs, part 49. -/
def out33_49 : Str := c!"luralCategory :: OTHER } }) , (langid ! (subtags :: Language :: from_raw_unchecked (26996u64) , None , None) , | po | { if ((0 ..= 1) . contains (& (po . i)) && po . f == 0) { PluralCategory :: ONE } else { PluralCategory :: OTHER } }) , (langid ! (subtags :: Language :: from_raw_unchecked (6777204u64) , None , None) , | po | { if (po . n == 1 . 0) { PluralCategory :: ONE } else { PluralCategory :: OTHER } }) , (langid ! (subtags :: Language :: from_raw_unchecked (27508u64) , None , None) , | po | { if (po . n == 1 . 0) { PluralCategory :: ONE } else { PluralCategory :: OTHER } }) , (langid ! (subtags :: Language :: from_raw_unchecked (27764u64) , None , None) , | po | { if (po . v == 0 && (po . i == 1 || po . i == 2 || po . i == 3)) || (po . v == 0 && po . i % 10 != 4 && po . i % 10 != 6 "

/-- make_pluralrules/tests/fixtures/cldr_pluralrules_33.rs, part 50. -/
def out33_50 : Str := c!"&& po . i % 10 != 9) || (po . v != 0 && po . f % 10 != 4 && po . f % 10 != 6 && po . f % 10 != 9) { PluralCategory :: ONE } else { PluralCategory :: OTHER } }) , (langid ! (subtags :: Language :: from_raw_unchecked (28276u64) , None , None) , | po | { if (po . n == 1 . 0) { PluralCategory :: ONE } else { PluralCategory :: OTHER } }) , (langid ! (subtags :: Language :: from_raw_unchecked (28532u64) , None , None) , | po | { { PluralCategory :: OTHER } }) , (langid ! (subtags :: Language :: from_raw_unchecked (29300u64) , None , None) , | po | { if (po . n == 1 . 0) { PluralCategory :: ONE } else { PluralCategory :: OTHER } }) , (langid ! (subtags :: Language :: from_raw_unchecked (29556u64) , None , None) , | po | { if (po . n == 1 . 0) { PluralCategory :: ONE } else { PluralCategory :: OTH"

/-- make_pluralrules/tests/fixtures/cldr_pluralrules_33.rs, part 51. -/
def out33_51 : Str := c!"ER } }) , (langid ! (subtags :: Language :: from_raw_unchecked (7174772u64) , None , None) , | po | { if ((0 ..= 1) . contains (& (po . i)) && po . f == 0) || ((11 ..= 99) . contains (& (po . i)) && po . f == 0) { PluralCategory :: ONE } else { PluralCategory :: OTHER } }) , (langid ! (subtags :: Language :: from_raw_unchecked (26485u64) , None , None) , | po | { if (po . n == 1 . 0) { PluralCategory :: ONE } else { PluralCategory :: OTHER } }) , (langid ! (subtags :: Language :: from_raw_unchecked (27509u64) , None , None) , | po | { if (po . v == 0 && (2 ..= 4) . contains (& (po . i % 10)) && ! (12 ..= 14) . contains (& (po . i % 100))) { PluralCategory :: FEW } else if (po . v == 0 && po . i % 10 == 0) || (po . v == 0 && (5 ..= 9) . contains (& (po . i % 10))) || (po . v == 0 && (11 ..="

/-- make_pluralrules/tests/fixtures/cldr_pluralrules_33.rs, part 52. -/
def out33_52 : Str := c!" 14) . contains (& (po . i % 100))) { PluralCategory :: MANY } else if (po . v == 0 && po . i % 10 == 1 && po . i % 100 != 11) { PluralCategory :: ONE } else { PluralCategory :: OTHER } }) , (langid ! (subtags :: Language :: from_raw_unchecked (29301u64) , None , None) , | po | { if (po . i == 1 && po . v == 0) { PluralCategory :: ONE } else { PluralCategory :: OTHER } }) , (langid ! (subtags :: Language :: from_raw_unchecked (31349u64) , None , None) , | po | { if (po . n == 1 . 0) { PluralCategory :: ONE } else { PluralCategory :: OTHER } }) , (langid ! (subtags :: Language :: from_raw_unchecked (25974u64) , None , None) , | po | { if (po . n == 1 . 0) { PluralCategory :: ONE } else { PluralCategory :: OTHER } }) , (langid ! (subtags :: Language :: from_raw_unchecked (26998u64) , None , "

/-- make_pluralrules/tests/fixtures/cldr_pluralrules_33.rs, part 53. -/
def out33_53 : Str := c!"None) , | po | { { PluralCategory :: OTHER } }) , (langid ! (subtags :: Language :: from_raw_unchecked (28534u64) , None , None) , | po | { if (po . n == 1 . 0) { PluralCategory :: ONE } else { PluralCategory :: OTHER } }) , (langid ! (subtags :: Language :: from_raw_unchecked (7239030u64) , None , None) , | po | { if (po . n == 1 . 0) { PluralCategory :: ONE } else { PluralCategory :: OTHER } }) , (langid ! (subtags :: Language :: from_raw_unchecked (24951u64) , None , None) , | po | { if ((0 ..= 1) . contains (& (po . i)) && po . f == 0) { PluralCategory :: ONE } else { PluralCategory :: OTHER } }) , (langid ! (subtags :: Language :: from_raw_unchecked (6644087u64) , None , None) , | po | { if (po . n == 1 . 0) { PluralCategory :: ONE } else { PluralCategory :: OTHER } }) , (langid ! (su"

/-- make_pluralrules/tests/fixtures/cldr_pluralrules_33.rs, part 54. -/
def out33_54 : Str := c!"btags :: Language :: from_raw_unchecked (28535u64) , None , None) , | po | { { PluralCategory :: OTHER } }) , (langid ! (subtags :: Language :: from_raw_unchecked (26744u64) , None , None) , | po | { if (po . n == 1 . 0) { PluralCategory :: ONE } else { PluralCategory :: OTHER } }) , (langid ! (subtags :: Language :: from_raw_unchecked (6778744u64) , None , None) , | po | { if (po . n == 1 . 0) { PluralCategory :: ONE } else { PluralCategory :: OTHER } }) , (langid ! (subtags :: Language :: from_raw_unchecked (27001u64) , None , None) , | po | { if (po . i == 1 && po . v == 0) { PluralCategory :: ONE } else { PluralCategory :: OTHER } }) , (langid ! (subtags :: Language :: from_raw_unchecked (28537u64) , None , None) , | po | { { PluralCategory :: OTHER } }) , (langid ! (subtags :: Languag"

/-- make_pluralrules/tests/fixtures/cldr_pluralrules_33.rs, part 55. -/
def out33_55 : Str := c!"e :: from_raw_unchecked (6649209u64) , None , None) , | po | { { PluralCategory :: OTHER } }) , (langid ! (subtags :: Language :: from_raw_unchecked (26746u64) , None , None) , | po | { { PluralCategory :: OTHER } }) , (langid ! (subtags :: Language :: from_raw_unchecked (30074u64) , None , None) , | po | { if (po . i == 0) || (po . n == 1 . 0) { PluralCategory :: ONE } else { PluralCategory :: OTHER } })] ; pub const PRS_ORDINAL : & [(LanguageIdentifier , PluralRule)] = & [(langid ! (subtags :: Language :: from_raw_unchecked (26209u64) , None , None) , | po | { { PluralCategory :: OTHER } }) , (langid ! (subtags :: Language :: from_raw_unchecked (28001u64) , None , None) , | po | { { PluralCategory :: OTHER } }) , (langid ! (subtags :: Language :: from_raw_unchecked (29281u64) , None , No"

/-- make_pluralrules/tests/fixtures/cldr_pluralrules_33.rs, part 56. -/
def out33_56 : Str := c!"ne) , | po | { { PluralCategory :: OTHER } }) , (langid ! (subtags :: Language :: from_raw_unchecked (29537u64) , None , None) , | po | { if (po . n == 4 . 0) { PluralCategory :: FEW } else if (po . n == 6 . 0) { PluralCategory :: MANY } else if ((po . n == 1 . 0 || po . n == 5 . 0 || po . n == 7 . 0 || po . n == 8 . 0 || po . n == 9 . 0 || po . n == 10 . 0)) { PluralCategory :: ONE } else if ((po . n == 2 . 0 || po . n == 3 . 0)) { PluralCategory :: TWO } else { PluralCategory :: OTHER } }) , (langid ! (subtags :: Language :: from_raw_unchecked (31329u64) , None , None) , | po | { if ((po . i % 10 == 3 || po . i % 10 == 4)) || ((po . i % 1000 == 100 || po . i % 1000 == 200 || po . i % 1000 == 300 || po . i % 1000 == 400 || po . i % 1000 == 500 || po . i % 1000 == 600 || po . i % 1000 == 7"

/-- make_pluralrules/tests/fixtures/cldr_pluralrules_33.rs, part 57. -/
def out33_57 : Str := c!"00 || po . i % 1000 == 800 || po . i % 1000 == 900)) { PluralCategory :: FEW } else if (po . i == 0) || (po . i % 10 == 6) || ((po . i % 100 == 40 || po . i % 100 == 60 || po . i % 100 == 90)) { PluralCategory :: MANY } else if ((po . i % 10 == 1 || po . i % 10 == 2 || po . i % 10 == 5 || po . i % 10 == 7 || po . i % 10 == 8)) || ((po . i % 100 == 20 || po . i % 100 == 50 || po . i % 100 == 70 || po . i % 100 == 80)) { PluralCategory :: ONE } else { PluralCategory :: OTHER } }) , (langid ! (subtags :: Language :: from_raw_unchecked (25954u64) , None , None) , | po | { if ((po . i % 10 == 2 || po . i % 10 == 3) && po . i % 100 != 12 && po . i % 100 != 13) { PluralCategory :: FEW } else { PluralCategory :: OTHER } }) , (langid ! (subtags :: Language :: from_raw_unchecked (26466u64) , None , "

/-- make_pluralrules/tests/fixtures/cldr_pluralrules_33.rs, part 58. -/
def out33_58 : Str := c!"None) , | po | { { PluralCategory :: OTHER } }) , (langid ! (subtags :: Language :: from_raw_unchecked (28258u64) , None , None) , | po | { if (po . n == 4 . 0) { PluralCategory :: FEW } else if (po . n == 6 . 0) { PluralCategory :: MANY } else if ((po . n == 1 . 0 || po . n == 5 . 0 || po . n == 7 . 0 || po . n == 8 . 0 || po . n == 9 . 0 || po . n == 10 . 0)) { PluralCategory :: ONE } else if ((po . n == 2 . 0 || po . n == 3 . 0)) { PluralCategory :: TWO } else { PluralCategory :: OTHER } }) , (langid ! (subtags :: Language :: from_raw_unchecked (29538u64) , None , None) , | po | { { PluralCategory :: OTHER } }) , (langid ! (subtags :: Language :: from_raw_unchecked (24931u64) , None , None) , | po | { if (po . n == 4 . 0) { PluralCategory :: FEW } else if ((po . n == 1 . 0 || po . n == "

/-- make_pluralrules/tests/fixtures/cldr_pluralrules_33.rs, part 59. -/
def out33_59 : Str := c!"3 . 0)) { PluralCategory :: ONE } else if (po . n == 2 . 0) { PluralCategory :: TWO } else { PluralCategory :: OTHER } }) , (langid ! (subtags :: Language :: from_raw_unchecked (25955u64) , None , None) , | po | { { PluralCategory :: OTHER } }) , (langid ! (subtags :: Language :: from_raw_unchecked (29539u64) , None , None) , | po | { { PluralCategory :: OTHER } }) , (langid ! (subtags :: Language :: from_raw_unchecked (31075u64) , None , None) , | po | { if ((po . n == 3 . 0 || po . n == 4 . 0)) { PluralCategory :: FEW } else if ((po . n == 5 . 0 || po . n == 6 . 0)) { PluralCategory :: MANY } else if (po . n == 1 . 0) { PluralCategory :: ONE } else if (po . n == 2 . 0) { PluralCategory :: TWO } else if ((po . n == 0 . 0 || po . n == 7 . 0 || po . n == 8 . 0 || po . n == 9 . 0)) { PluralC"

/-- make_pluralrules/tests/fixtures/cldr_pluralrules_33.rs, part 60. -/
def out33_60 : Str := c!"ategory :: ZERO } else { PluralCategory :: OTHER } }) , (langid ! (subtags :: Language :: from_raw_unchecked (24932u64) , None , None) , | po | { { PluralCategory :: OTHER } }) , (langid ! (subtags :: Language :: from_raw_unchecked (25956u64) , None , None) , | po | { { PluralCategory :: OTHER } }) , (langid ! (subtags :: Language :: from_raw_unchecked (6452068u64) , None , None) , | po | { { PluralCategory :: OTHER } }) , (langid ! (subtags :: Language :: from_raw_unchecked (27749u64) , None , None) , | po | { { PluralCategory :: OTHER } }) , (langid ! (subtags :: Language :: from_raw_unchecked (28261u64) , None , None) , | po | { if (po . i % 10 == 3 && po . i % 100 != 13) { PluralCategory :: FEW } else if (po . i % 10 == 1 && po . i % 100 != 11) { PluralCategory :: ONE } else if (po . i"

/-- make_pluralrules/tests/fixtures/cldr_pluralrules_33.rs, part 61. -/
def out33_61 : Str := c!" % 10 == 2 && po . i % 100 != 12) { PluralCategory :: TWO } else { PluralCategory :: OTHER } }) , (langid ! (subtags :: Language :: from_raw_unchecked (29541u64) , None , None) , | po | { { PluralCategory :: OTHER } }) , (langid ! (subtags :: Language :: from_raw_unchecked (29797u64) , None , None) , | po | { { PluralCategory :: OTHER } }) , (langid ! (subtags :: Language :: from_raw_unchecked (30053u64) , None , None) , | po | { { PluralCategory :: OTHER } }) , (langid ! (subtags :: Language :: from_raw_unchecked (24934u64) , None , None) , | po | { { PluralCategory :: OTHER } }) , (langid ! (subtags :: Language :: from_raw_unchecked (26982u64) , None , None) , | po | { { PluralCategory :: OTHER } }) , (langid ! (subtags :: Language :: from_raw_unchecked (7104870u64) , None , None) , | po"

/-- make_pluralrules/tests/fixtures/cldr_pluralrules_33.rs, part 62. -/
def out33_62 : Str := c!" | { if (po . n == 1 . 0) { PluralCategory :: ONE } else { PluralCategory :: OTHER } }) , (langid ! (subtags :: Language :: from_raw_unchecked (29286u64) , None , None) , | po | { if (po . n == 1 . 0) { PluralCategory :: ONE } else { PluralCategory :: OTHER } }) , (langid ! (subtags :: Language :: from_raw_unchecked (31078u64) , None , None) , | po | { { PluralCategory :: OTHER } }) , (langid ! (subtags :: Language :: from_raw_unchecked (24935u64) , None , None) , | po | { if (po . n == 1 . 0) { PluralCategory :: ONE } else { PluralCategory :: OTHER } }) , (langid ! (subtags :: Language :: from_raw_unchecked (27751u64) , None , None) , | po | { { PluralCategory :: OTHER } }) , (langid ! (subtags :: Language :: from_raw_unchecked (7828327u64) , None , None) , | po | { { PluralCategory :: OT"

/-- make_pluralrules/tests/fixtures/cldr_pluralrules_33.rs, part 63. -/
def out33_63 : Str := c!"HER } }) , (langid ! (subtags :: Language :: from_raw_unchecked (30055u64) , None , None) , | po | { if (po . n == 4 . 0) { PluralCategory :: FEW } else if (po . n == 6 . 0) { PluralCategory :: MANY } else if (po . n == 1 . 0) { PluralCategory :: ONE } else if ((po . n == 2 . 0 || po . n == 3 . 0)) { PluralCategory :: TWO } else { PluralCategory :: OTHER } }) , (langid ! (subtags :: Language :: from_raw_unchecked (25960u64) , None , None) , | po | { { PluralCategory :: OTHER } }) , (langid ! (subtags :: Language :: from_raw_unchecked (26984u64) , None , None) , | po | { if (po . n == 4 . 0) { PluralCategory :: FEW } else if (po . n == 6 . 0) { PluralCategory :: MANY } else if (po . n == 1 . 0) { PluralCategory :: ONE } else if ((po . n == 2 . 0 || po . n == 3 . 0)) { PluralCategory :: TWO "

/-- make_pluralrules/tests/fixtures/cldr_pluralrules_33.rs, part 64. -/
def out33_64 : Str := c!"} else { PluralCategory :: OTHER } }) , (langid ! (subtags :: Language :: from_raw_unchecked (29288u64) , None , None) , | po | { { PluralCategory :: OTHER } }) , (langid ! (subtags :: Language :: from_raw_unchecked (6452072u64) , None , None) , | po | { { PluralCategory :: OTHER } }) , (langid ! (subtags :: Language :: from_raw_unchecked (30056u64) , None , None) , | po | { if ((po . n == 1 . 0 || po . n == 5 . 0)) { PluralCategory :: ONE } else { PluralCategory :: OTHER } }) , (langid ! (subtags :: Language :: from_raw_unchecked (31080u64) , None , None) , | po | { if (po . n == 1 . 0) { PluralCategory :: ONE } else { PluralCategory :: OTHER } }) , (langid ! (subtags :: Language :: from_raw_unchecked (25705u64) , None , None) , | po | { { PluralCategory :: OTHER } }) , (langid ! (subtags"

/-- make_pluralrules/tests/fixtures/cldr_pluralrules_33.rs, part 65. -/
def out33_65 : Str := c!" :: Language :: from_raw_unchecked (28265u64) , None , None) , | po | { { PluralCategory :: OTHER } }) , (langid ! (subtags :: Language :: from_raw_unchecked (29545u64) , None , None) , | po | { { PluralCategory :: OTHER } }) , (langid ! (subtags :: Language :: from_raw_unchecked (29801u64) , None , None) , | po | { if ((po . n == 11 . 0 || po . n == 8 . 0 || po . n == 80 . 0 || po . n == 800 . 0)) { PluralCategory :: MANY } else { PluralCategory :: OTHER } }) , (langid ! (subtags :: Language :: from_raw_unchecked (30569u64) , None , None) , | po | { { PluralCategory :: OTHER } }) , (langid ! (subtags :: Language :: from_raw_unchecked (24938u64) , None , None) , | po | { { PluralCategory :: OTHER } }) , (langid ! (subtags :: Language :: from_raw_unchecked (24939u64) , None , None) , | po |"

/-- make_pluralrules/tests/fixtures/cldr_pluralrules_33.rs, part 66. -/
def out33_66 : Str := c!" { if (po . i == 0) || ((po . i % 100 == 40 || po . i % 100 == 60 || po . i % 100 == 80 || (2 ..= 20) . contains (& (po . i % 100)))) { PluralCategory :: MANY } else if (po . i == 1) { PluralCategory :: ONE } else { PluralCategory :: OTHER } }) , (langid ! (subtags :: Language :: from_raw_unchecked (27499u64) , None , None) , | po | { if (po . i % 10 == 6) || (po . i % 10 == 9) || (po . i % 10 == 0 && po . n != 0 . 0) { PluralCategory :: MANY } else { PluralCategory :: OTHER } }) , (langid ! (subtags :: Language :: from_raw_unchecked (28011u64) , None , None) , | po | { { PluralCategory :: OTHER } }) , (langid ! (subtags :: Language :: from_raw_unchecked (28267u64) , None , None) , | po | { { PluralCategory :: OTHER } }) , (langid ! (subtags :: Language :: from_raw_unchecked (28523u64) , N"

/-- make_pluralrules/tests/fixtures/cldr_pluralrules_33.rs, part 67. -/
def out33_67 : Str := c!"one , None) , | po | { { PluralCategory :: OTHER } }) , (langid ! (subtags :: Language :: from_raw_unchecked (31083u64) , None , None) , | po | { { PluralCategory :: OTHER } }) , (langid ! (subtags :: Language :: from_raw_unchecked (28524u64) , None , None) , | po | { if (po . n == 1 . 0) { PluralCategory :: ONE } else { PluralCategory :: OTHER } }) , (langid ! (subtags :: Language :: from_raw_unchecked (29804u64) , None , None) , | po | { { PluralCategory :: OTHER } }) , (langid ! (subtags :: Language :: from_raw_unchecked (30316u64) , None , None) , | po | { { PluralCategory :: OTHER } }) , (langid ! (subtags :: Language :: from_raw_unchecked (27501u64) , None , None) , | po | { if ((po . i % 10 == 7 || po . i % 10 == 8) && po . i % 100 != 17 && po . i % 100 != 18) { PluralCategory :: MA"

/-- make_pluralrules/tests/fixtures/cldr_pluralrules_33.rs, part 68. -/
def out33_68 : Str := c!"NY } else if (po . i % 10 == 1 && po . i % 100 != 11) { PluralCategory :: ONE } else if (po . i % 10 == 2 && po . i % 100 != 12) { PluralCategory :: TWO } else { PluralCategory :: OTHER } }) , (langid ! (subtags :: Language :: from_raw_unchecked (27757u64) , None , None) , | po | { { PluralCategory :: OTHER } }) , (langid ! (subtags :: Language :: from_raw_unchecked (28269u64) , None , None) , | po | { { PluralCategory :: OTHER } }) , (langid ! (subtags :: Language :: from_raw_unchecked (28525u64) , None , None) , | po | { if (po . n == 1 . 0) { PluralCategory :: ONE } else { PluralCategory :: OTHER } }) , (langid ! (subtags :: Language :: from_raw_unchecked (29293u64) , None , None) , | po | { if (po . n == 4 . 0) { PluralCategory :: FEW } else if (po . n == 1 . 0) { PluralCategory :: ONE"

/-- make_pluralrules/tests/fixtures/cldr_pluralrules_33.rs, part 69. -/
def out33_69 : Str := c!" } else if ((po . n == 2 . 0 || po . n == 3 . 0)) { PluralCategory :: TWO } else { PluralCategory :: OTHER } }) , (langid ! (subtags :: Language :: from_raw_unchecked (29549u64) , None , None) , | po | { if (po . n == 1 . 0) { PluralCategory :: ONE } else { PluralCategory :: OTHER } }) , (langid ! (subtags :: Language :: from_raw_unchecked (31085u64) , None , None) , | po | { { PluralCategory :: OTHER } }) , (langid ! (subtags :: Language :: from_raw_unchecked (25198u64) , None , None) , | po | { { PluralCategory :: OTHER } }) , (langid ! (subtags :: Language :: from_raw_unchecked (25966u64) , None , None) , | po | { if ((1 ..= 4) . contains (& (po . i)) && po . f == 0) { PluralCategory :: ONE } else { PluralCategory :: OTHER } }) , (langid ! (subtags :: Language :: from_raw_unchecked (277"

/-- make_pluralrules/tests/fixtures/cldr_pluralrules_33.rs, part 70. -/
def out33_70 : Str := c!"58u64) , None , None) , | po | { { PluralCategory :: OTHER } }) , (langid ! (subtags :: Language :: from_raw_unchecked (29295u64) , None , None) , | po | { if (po . n == 4 . 0) { PluralCategory :: FEW } else if (po . n == 6 . 0) { PluralCategory :: MANY } else if ((po . n == 1 . 0 || po . n == 5 . 0 || (7 ..= 9) . contains (& (po . i)) && po . f == 0)) { PluralCategory :: ONE } else if ((po . n == 2 . 0 || po . n == 3 . 0)) { PluralCategory :: TWO } else { PluralCategory :: OTHER } }) , (langid ! (subtags :: Language :: from_raw_unchecked (24944u64) , None , None) , | po | { { PluralCategory :: OTHER } }) , (langid ! (subtags :: Language :: from_raw_unchecked (27760u64) , None , None) , | po | { { PluralCategory :: OTHER } }) , (langid ! (subtags :: Language :: from_raw_unchecked (6779504u"

/-- make_pluralrules/tests/fixtures/cldr_pluralrules_33.rs, part 71. -/
def out33_71 : Str := c!"64) , None , None) , | po | { { PluralCategory :: OTHER } }) , (langid ! (subtags :: Language :: from_raw_unchecked (29552u64) , None , None) , | po | { { PluralCategory :: OTHER } }) , (langid ! (subtags :: Language :: from_raw_unchecked (29808u64) , None , None) , | po | { { PluralCategory :: OTHER } }) , (langid ! (subtags :: Language :: from_raw_unchecked (28530u64) , None , None) , | po | { if (po . n == 1 . 0) { PluralCategory :: ONE } else { PluralCategory :: OTHER } }) , (langid ! (subtags :: Language :: from_raw_unchecked (30066u64) , None , None) , | po | { { PluralCategory :: OTHER } }) , (langid ! (subtags :: Language :: from_raw_unchecked (7234419u64) , None , None) , | po | { if ((po . n == 11 . 0 || po . n == 8 . 0 || po . n == 80 . 0 || po . n == 800 . 0)) { PluralCategory "

/-- make_pluralrules/tests/fixtures/cldr_pluralrules_33.rs, part 72. -/
def out33_72 : Str := c!":: MANY } else { PluralCategory :: OTHER } }) , (langid ! (subtags :: Language :: from_raw_unchecked (25715u64) , None , None) , | po | { { PluralCategory :: OTHER } }) , (langid ! (subtags :: Language :: from_raw_unchecked (26739u64) , None , None) , | po | { { PluralCategory :: OTHER } }) , (langid ! (subtags :: Language :: from_raw_unchecked (26995u64) , None , None) , | po | { { PluralCategory :: OTHER } }) , (langid ! (subtags :: Language :: from_raw_unchecked (27507u64) , None , None) , | po | { { PluralCategory :: OTHER } }) , (langid ! (subtags :: Language :: from_raw_unchecked (27763u64) , None , None) , | po | { { PluralCategory :: OTHER } }) , (langid ! (subtags :: Language :: from_raw_unchecked (29043u64) , None , None) , | po | { if (po . i % 10 == 4 && po . i % 100 != 14) { P"

/-- make_pluralrules/tests/fixtures/cldr_pluralrules_33.rs, part 73. -/
def out33_73 : Str := c!"luralCategory :: MANY } else if (po . n == 1 . 0) { PluralCategory :: ONE } else { PluralCategory :: OTHER } }) , (langid ! (subtags :: Language :: from_raw_unchecked (29299u64) , None , None) , | po | { { PluralCategory :: OTHER } }) , (langid ! (subtags :: Language :: from_raw_unchecked (30323u64) , None , None) , | po | { if ((po . i % 10 == 1 || po . i % 10 == 2) && po . i % 100 != 11 && po . i % 100 != 12) { PluralCategory :: ONE } else { PluralCategory :: OTHER } }) , (langid ! (subtags :: Language :: from_raw_unchecked (30579u64) , None , None) , | po | { { PluralCategory :: OTHER } }) , (langid ! (subtags :: Language :: from_raw_unchecked (24948u64) , None , None) , | po | { { PluralCategory :: OTHER } }) , (langid ! (subtags :: Language :: from_raw_unchecked (25972u64) , None , No"

/-- make_pluralrules/tests/fixtures/cldr_pluralrules_33.rs, part 74. -/
def out33_74 : Str := c!"ne) , | po | { { PluralCategory :: OTHER } }) , (langid ! (subtags :: Language :: from_raw_unchecked (26740u64) , None , None) , | po | { { PluralCategory :: OTHER } }) , (langid ! (subtags :: Language :: from_raw_unchecked (27508u64) , None , None) , | po | { if ((po . i % 10 == 6 || po . i % 10 == 9)) || (po . n == 10 . 0) { PluralCategory :: FEW } else { PluralCategory :: OTHER } }) , (langid ! (subtags :: Language :: from_raw_unchecked (27764u64) , None , None) , | po | { if (po . n == 1 . 0) { PluralCategory :: ONE } else { PluralCategory :: OTHER } }) , (langid ! (subtags :: Language :: from_raw_unchecked (29300u64) , None , None) , | po | { { PluralCategory :: OTHER } }) , (langid ! (subtags :: Language :: from_raw_unchecked (27509u64) , None , None) , | po | { if (po . i % 10 == 3 "

/-- make_pluralrules/tests/fixtures/cldr_pluralrules_33.rs, part 75. -/
def out33_75 : Str := c!"&& po . i % 100 != 13) { PluralCategory :: FEW } else { PluralCategory :: OTHER } }) , (langid ! (subtags :: Language :: from_raw_unchecked (29301u64) , None , None) , | po | { { PluralCategory :: OTHER } }) , (langid ! (subtags :: Language :: from_raw_unchecked (31349u64) , None , None) , | po | { { PluralCategory :: OTHER } }) , (langid ! (subtags :: Language :: from_raw_unchecked (26998u64) , None , None) , | po | { if (po . n == 1 . 0) { PluralCategory :: ONE } else { PluralCategory :: OTHER } }) , (langid ! (subtags :: Language :: from_raw_unchecked (6649209u64) , None , None) , | po | { { PluralCategory :: OTHER } }) , (langid ! (subtags :: Language :: from_raw_unchecked (26746u64) , None , None) , | po | { { PluralCategory :: OTHER } }) , (langid ! (subtags :: Language :: from_raw_u"

/-- make_pluralrules/tests/fixtures/cldr_pluralrules_33.rs, part 76. -/
def out33_76 : Str := c!"nchecked (30074u64) , None , None) , | po | { { PluralCategory :: OTHER } })] ;"

/-- make_pluralrules/tests/fixtures/cldr_pluralrules_33.rs. -/
def out33 : Str := List.flatten [
  out33_0, out33_1, out33_2, out33_3, out33_4, out33_5, out33_6, out33_7,
  out33_8, out33_9, out33_10, out33_11, out33_12, out33_13, out33_14, out33_15,
  out33_16, out33_17, out33_18, out33_19, out33_20, out33_21, out33_22, out33_23,
  out33_24, out33_25, out33_26, out33_27, out33_28, out33_29, out33_30, out33_31,
  out33_32, out33_33, out33_34, out33_35, out33_36, out33_37, out33_38, out33_39,
  out33_40, out33_41, out33_42, out33_43, out33_44, out33_45, out33_46, out33_47,
  out33_48, out33_49, out33_50, out33_51, out33_52, out33_53, out33_54, out33_55,
  out33_56, out33_57, out33_58, out33_59, out33_60, out33_61, out33_62, out33_63,
  out33_64, out33_65, out33_66, out33_67, out33_68, out33_69, out33_70, out33_71,
  out33_72, out33_73, out33_74, out33_75, out33_76]

/-- make_pluralrules/tests/fixtures/cldr_pluralrules_within_test.rs, part 0. -/
def outWithin_0 : Str := c!"# ! [allow (unused_variables , unused_parens)] # ! [cfg_attr (feature = \"cargo-clippy\" , allow (clippy :: float_cmp))] # ! [cfg_attr (feature = \"cargo-clippy\" , allow (clippy :: unreadable_literal))] # ! [cfg_attr (feature = \"cargo-clippy\" , allow (clippy :: nonminimal_bool))] use super :: operands :: PluralOperands ; use super :: PluralCategory ; use unic_langid :: LanguageIdentifier ; use unic_langid :: subtags ; pub type PluralRule = fn (& PluralOperands) -> PluralCategory ; pub static CLDR_VERSION : usize = 0 ; macro_rules ! langid { ($ lang : expr , $ script : expr , $ region : expr) => { { unsafe { LanguageIdentifier :: from_raw_parts_unchecked ($ lang , $ script , $ region , None ,) } } } ; } pub const PRS_CARDINAL : & [(LanguageIdentifier , PluralRule)] = & [(langid ! (None , None "

/-- make_pluralrules/tests/fixtures/cldr_pluralrules_within_test.rs, part 1. -/
def outWithin_1 : Str := c!", None) , | po | { if (2 . 0 <= po . n && po . n <= 10 . 0 && 8 > po . i && po . i > 9) { PluralCategory :: FEW } else if (po . n == 1 . 0) { PluralCategory :: ONE } else if (1 <= po . i % 10 && po . i % 10 <= 2) { PluralCategory :: TWO } else { PluralCategory :: OTHER } })] ;"

/-- make_pluralrules/tests/fixtures/cldr_pluralrules_within_test.rs. -/
def outWithin : Str := List.flatten [
  outWithin_0, outWithin_1]

end Verif.Fixtures
