import Verif.Chars

/-!
# `intl_pluralrules/cldr_data/*.json`, verbatim

Written by tools/gen_tables.py, in parts of 800 characters.
-/

namespace Verif.CldrText
open Verif

/-- intl_pluralrules/cldr_data/cldr_pluralrules_cardinals.json, part 0. -/
def cardinals_0 : Str := c!"{\n  \"supplemental\": {\n    \"version\": {\n      \"_unicodeVersion\": \"13.0.0\",\n      \"_cldrVersion\": \"37\"\n    },\n    \"plurals-type-cardinal\": {\n      \"af\": {\n        \"pluralRule-count-one\": \"n = 1 @integer 1 @decimal 1.0, 1.00, 1.000, 1.0000\",\n        \"pluralRule-count-other\": \" @integer 0, 2~16, 100, 1000, 10000, 100000, 1000000, … @decimal 0.0~0.9, 1.1~1.6, 10.0, 100.0, 1000.0, 10000.0, 100000.0, 1000000.0, …\"\n      },\n      \"ak\": {\n        \"pluralRule-count-one\": \"n = 0..1 @integer 0, 1 @decimal 0.0, 1.0, 0.00, 1.00, 0.000, 1.000, 0.0000, 1.0000\",\n        \"pluralRule-count-other\": \" @integer 2~17, 100, 1000, 10000, 100000, 1000000, … @decimal 0.1~0.9, 1.1~1.7, 10.0, 100.0, 1000.0, 10000.0, 100000.0, 1000000.0, …\"\n      },\n      \"am\": {\n        \"pluralRule-count-one\": \"i = 0 or n = 1 @integer"

/-- intl_pluralrules/cldr_data/cldr_pluralrules_cardinals.json, part 1. -/
def cardinals_1 : Str := c!" 0, 1 @decimal 0.0~1.0, 0.00~0.04\",\n        \"pluralRule-count-other\": \" @integer 2~17, 100, 1000, 10000, 100000, 1000000, … @decimal 1.1~2.6, 10.0, 100.0, 1000.0, 10000.0, 100000.0, 1000000.0, …\"\n      },\n      \"an\": {\n        \"pluralRule-count-one\": \"n = 1 @integer 1 @decimal 1.0, 1.00, 1.000, 1.0000\",\n        \"pluralRule-count-other\": \" @integer 0, 2~16, 100, 1000, 10000, 100000, 1000000, … @decimal 0.0~0.9, 1.1~1.6, 10.0, 100.0, 1000.0, 10000.0, 100000.0, 1000000.0, …\"\n      },\n      \"ar\": {\n        \"pluralRule-count-zero\": \"n = 0 @integer 0 @decimal 0.0, 0.00, 0.000, 0.0000\",\n        \"pluralRule-count-one\": \"n = 1 @integer 1 @decimal 1.0, 1.00, 1.000, 1.0000\",\n        \"pluralRule-count-two\": \"n = 2 @integer 2 @decimal 2.0, 2.00, 2.000, 2.0000\",\n        \"pluralRule-count-few\": \"n % 100 "

/-- intl_pluralrules/cldr_data/cldr_pluralrules_cardinals.json, part 2. -/
def cardinals_2 : Str := c!"= 3..10 @integer 3~10, 103~110, 1003, … @decimal 3.0, 4.0, 5.0, 6.0, 7.0, 8.0, 9.0, 10.0, 103.0, 1003.0, …\",\n        \"pluralRule-count-many\": \"n % 100 = 11..99 @integer 11~26, 111, 1011, … @decimal 11.0, 12.0, 13.0, 14.0, 15.0, 16.0, 17.0, 18.0, 111.0, 1011.0, …\",\n        \"pluralRule-count-other\": \" @integer 100~102, 200~202, 300~302, 400~402, 500~502, 600, 1000, 10000, 100000, 1000000, … @decimal 0.1~0.9, 1.1~1.7, 10.1, 100.0, 1000.0, 10000.0, 100000.0, 1000000.0, …\"\n      },\n      \"ars\": {\n        \"pluralRule-count-zero\": \"n = 0 @integer 0 @decimal 0.0, 0.00, 0.000, 0.0000\",\n        \"pluralRule-count-one\": \"n = 1 @integer 1 @decimal 1.0, 1.00, 1.000, 1.0000\",\n        \"pluralRule-count-two\": \"n = 2 @integer 2 @decimal 2.0, 2.00, 2.000, 2.0000\",\n        \"pluralRule-count-few\": \"n % 100 = 3"

/-- intl_pluralrules/cldr_data/cldr_pluralrules_cardinals.json, part 3. -/
def cardinals_3 : Str := c!"..10 @integer 3~10, 103~110, 1003, … @decimal 3.0, 4.0, 5.0, 6.0, 7.0, 8.0, 9.0, 10.0, 103.0, 1003.0, …\",\n        \"pluralRule-count-many\": \"n % 100 = 11..99 @integer 11~26, 111, 1011, … @decimal 11.0, 12.0, 13.0, 14.0, 15.0, 16.0, 17.0, 18.0, 111.0, 1011.0, …\",\n        \"pluralRule-count-other\": \" @integer 100~102, 200~202, 300~302, 400~402, 500~502, 600, 1000, 10000, 100000, 1000000, … @decimal 0.1~0.9, 1.1~1.7, 10.1, 100.0, 1000.0, 10000.0, 100000.0, 1000000.0, …\"\n      },\n      \"as\": {\n        \"pluralRule-count-one\": \"i = 0 or n = 1 @integer 0, 1 @decimal 0.0~1.0, 0.00~0.04\",\n        \"pluralRule-count-other\": \" @integer 2~17, 100, 1000, 10000, 100000, 1000000, … @decimal 1.1~2.6, 10.0, 100.0, 1000.0, 10000.0, 100000.0, 1000000.0, …\"\n      },\n      \"asa\": {\n        \"pluralRule-count-one\":"

/-- intl_pluralrules/cldr_data/cldr_pluralrules_cardinals.json, part 4. -/
def cardinals_4 : Str := c!" \"n = 1 @integer 1 @decimal 1.0, 1.00, 1.000, 1.0000\",\n        \"pluralRule-count-other\": \" @integer 0, 2~16, 100, 1000, 10000, 100000, 1000000, … @decimal 0.0~0.9, 1.1~1.6, 10.0, 100.0, 1000.0, 10000.0, 100000.0, 1000000.0, …\"\n      },\n      \"ast\": {\n        \"pluralRule-count-one\": \"i = 1 and v = 0 @integer 1\",\n        \"pluralRule-count-other\": \" @integer 0, 2~16, 100, 1000, 10000, 100000, 1000000, … @decimal 0.0~1.5, 10.0, 100.0, 1000.0, 10000.0, 100000.0, 1000000.0, …\"\n      },\n      \"az\": {\n        \"pluralRule-count-one\": \"n = 1 @integer 1 @decimal 1.0, 1.00, 1.000, 1.0000\",\n        \"pluralRule-count-other\": \" @integer 0, 2~16, 100, 1000, 10000, 100000, 1000000, … @decimal 0.0~0.9, 1.1~1.6, 10.0, 100.0, 1000.0, 10000.0, 100000.0, 1000000.0, …\"\n      },\n      \"be\": {\n        \"pluralRule-"

/-- intl_pluralrules/cldr_data/cldr_pluralrules_cardinals.json, part 5. -/
def cardinals_5 : Str := c!"count-one\": \"n % 10 = 1 and n % 100 != 11 @integer 1, 21, 31, 41, 51, 61, 71, 81, 101, 1001, … @decimal 1.0, 21.0, 31.0, 41.0, 51.0, 61.0, 71.0, 81.0, 101.0, 1001.0, …\",\n        \"pluralRule-count-few\": \"n % 10 = 2..4 and n % 100 != 12..14 @integer 2~4, 22~24, 32~34, 42~44, 52~54, 62, 102, 1002, … @decimal 2.0, 3.0, 4.0, 22.0, 23.0, 24.0, 32.0, 33.0, 102.0, 1002.0, …\",\n        \"pluralRule-count-many\": \"n % 10 = 0 or n % 10 = 5..9 or n % 100 = 11..14 @integer 0, 5~19, 100, 1000, 10000, 100000, 1000000, … @decimal 0.0, 5.0, 6.0, 7.0, 8.0, 9.0, 10.0, 11.0, 100.0, 1000.0, 10000.0, 100000.0, 1000000.0, …\",\n        \"pluralRule-count-other\": \"   @decimal 0.1~0.9, 1.1~1.7, 10.1, 100.1, 1000.1, …\"\n      },\n      \"bem\": {\n        \"pluralRule-count-one\": \"n = 1 @integer 1 @decimal 1.0, 1.00, 1.000, 1."

/-- intl_pluralrules/cldr_data/cldr_pluralrules_cardinals.json, part 6. -/
def cardinals_6 : Str := c!"0000\",\n        \"pluralRule-count-other\": \" @integer 0, 2~16, 100, 1000, 10000, 100000, 1000000, … @decimal 0.0~0.9, 1.1~1.6, 10.0, 100.0, 1000.0, 10000.0, 100000.0, 1000000.0, …\"\n      },\n      \"bez\": {\n        \"pluralRule-count-one\": \"n = 1 @integer 1 @decimal 1.0, 1.00, 1.000, 1.0000\",\n        \"pluralRule-count-other\": \" @integer 0, 2~16, 100, 1000, 10000, 100000, 1000000, … @decimal 0.0~0.9, 1.1~1.6, 10.0, 100.0, 1000.0, 10000.0, 100000.0, 1000000.0, …\"\n      },\n      \"bg\": {\n        \"pluralRule-count-one\": \"n = 1 @integer 1 @decimal 1.0, 1.00, 1.000, 1.0000\",\n        \"pluralRule-count-other\": \" @integer 0, 2~16, 100, 1000, 10000, 100000, 1000000, … @decimal 0.0~0.9, 1.1~1.6, 10.0, 100.0, 1000.0, 10000.0, 100000.0, 1000000.0, …\"\n      },\n      \"bho\": {\n        \"pluralRule-count-one\": \"n"

/-- intl_pluralrules/cldr_data/cldr_pluralrules_cardinals.json, part 7. -/
def cardinals_7 : Str := c!" = 0..1 @integer 0, 1 @decimal 0.0, 1.0, 0.00, 1.00, 0.000, 1.000, 0.0000, 1.0000\",\n        \"pluralRule-count-other\": \" @integer 2~17, 100, 1000, 10000, 100000, 1000000, … @decimal 0.1~0.9, 1.1~1.7, 10.0, 100.0, 1000.0, 10000.0, 100000.0, 1000000.0, …\"\n      },\n      \"bm\": {\n        \"pluralRule-count-other\": \" @integer 0~15, 100, 1000, 10000, 100000, 1000000, … @decimal 0.0~1.5, 10.0, 100.0, 1000.0, 10000.0, 100000.0, 1000000.0, …\"\n      },\n      \"bn\": {\n        \"pluralRule-count-one\": \"i = 0 or n = 1 @integer 0, 1 @decimal 0.0~1.0, 0.00~0.04\",\n        \"pluralRule-count-other\": \" @integer 2~17, 100, 1000, 10000, 100000, 1000000, … @decimal 1.1~2.6, 10.0, 100.0, 1000.0, 10000.0, 100000.0, 1000000.0, …\"\n      },\n      \"bo\": {\n        \"pluralRule-count-other\": \" @integer 0~15, 100, 1000, 1000"

/-- intl_pluralrules/cldr_data/cldr_pluralrules_cardinals.json, part 8. -/
def cardinals_8 : Str := c!"0, 100000, 1000000, … @decimal 0.0~1.5, 10.0, 100.0, 1000.0, 10000.0, 100000.0, 1000000.0, …\"\n      },\n      \"br\": {\n        \"pluralRule-count-one\": \"n % 10 = 1 and n % 100 != 11,71,91 @integer 1, 21, 31, 41, 51, 61, 81, 101, 1001, … @decimal 1.0, 21.0, 31.0, 41.0, 51.0, 61.0, 81.0, 101.0, 1001.0, …\",\n        \"pluralRule-count-two\": \"n % 10 = 2 and n % 100 != 12,72,92 @integer 2, 22, 32, 42, 52, 62, 82, 102, 1002, … @decimal 2.0, 22.0, 32.0, 42.0, 52.0, 62.0, 82.0, 102.0, 1002.0, …\",\n        \"pluralRule-count-few\": \"n % 10 = 3..4,9 and n % 100 != 10..19,70..79,90..99 @integer 3, 4, 9, 23, 24, 29, 33, 34, 39, 43, 44, 49, 103, 1003, … @decimal 3.0, 4.0, 9.0, 23.0, 24.0, 29.0, 33.0, 34.0, 103.0, 1003.0, …\",\n        \"pluralRule-count-many\": \"n != 0 and n % 1000000 = 0 @integer 1000000, … @deci"

/-- intl_pluralrules/cldr_data/cldr_pluralrules_cardinals.json, part 9. -/
def cardinals_9 : Str := c!"mal 1000000.0, 1000000.00, 1000000.000, …\",\n        \"pluralRule-count-other\": \" @integer 0, 5~8, 10~20, 100, 1000, 10000, 100000, … @decimal 0.0~0.9, 1.1~1.6, 10.0, 100.0, 1000.0, 10000.0, 100000.0, …\"\n      },\n      \"brx\": {\n        \"pluralRule-count-one\": \"n = 1 @integer 1 @decimal 1.0, 1.00, 1.000, 1.0000\",\n        \"pluralRule-count-other\": \" @integer 0, 2~16, 100, 1000, 10000, 100000, 1000000, … @decimal 0.0~0.9, 1.1~1.6, 10.0, 100.0, 1000.0, 10000.0, 100000.0, 1000000.0, …\"\n      },\n      \"bs\": {\n        \"pluralRule-count-one\": \"v = 0 and i % 10 = 1 and i % 100 != 11 or f % 10 = 1 and f % 100 != 11 @integer 1, 21, 31, 41, 51, 61, 71, 81, 101, 1001, … @decimal 0.1, 1.1, 2.1, 3.1, 4.1, 5.1, 6.1, 7.1, 10.1, 100.1, 1000.1, …\",\n        \"pluralRule-count-few\": \"v = 0 and i % 10 = 2..4 and i"

/-- intl_pluralrules/cldr_data/cldr_pluralrules_cardinals.json, part 10. -/
def cardinals_10 : Str := c!" % 100 != 12..14 or f % 10 = 2..4 and f % 100 != 12..14 @integer 2~4, 22~24, 32~34, 42~44, 52~54, 62, 102, 1002, … @decimal 0.2~0.4, 1.2~1.4, 2.2~2.4, 3.2~3.4, 4.2~4.4, 5.2, 10.2, 100.2, 1000.2, …\",\n        \"pluralRule-count-other\": \" @integer 0, 5~19, 100, 1000, 10000, 100000, 1000000, … @decimal 0.0, 0.5~1.0, 1.5~2.0, 2.5~2.7, 10.0, 100.0, 1000.0, 10000.0, 100000.0, 1000000.0, …\"\n      },\n      \"ca\": {\n        \"pluralRule-count-one\": \"i = 1 and v = 0 @integer 1\",\n        \"pluralRule-count-other\": \" @integer 0, 2~16, 100, 1000, 10000, 100000, 1000000, … @decimal 0.0~1.5, 10.0, 100.0, 1000.0, 10000.0, 100000.0, 1000000.0, …\"\n      },\n      \"ce\": {\n        \"pluralRule-count-one\": \"n = 1 @integer 1 @decimal 1.0, 1.00, 1.000, 1.0000\",\n        \"pluralRule-count-other\": \" @integer 0, 2~16, 100,"

/-- intl_pluralrules/cldr_data/cldr_pluralrules_cardinals.json, part 11. -/
def cardinals_11 : Str := c!" 1000, 10000, 100000, 1000000, … @decimal 0.0~0.9, 1.1~1.6, 10.0, 100.0, 1000.0, 10000.0, 100000.0, 1000000.0, …\"\n      },\n      \"ceb\": {\n        \"pluralRule-count-one\": \"v = 0 and i = 1,2,3 or v = 0 and i % 10 != 4,6,9 or v != 0 and f % 10 != 4,6,9 @integer 0~3, 5, 7, 8, 10~13, 15, 17, 18, 20, 21, 100, 1000, 10000, 100000, 1000000, … @decimal 0.0~0.3, 0.5, 0.7, 0.8, 1.0~1.3, 1.5, 1.7, 1.8, 2.0, 2.1, 10.0, 100.0, 1000.0, 10000.0, 100000.0, 1000000.0, …\",\n        \"pluralRule-count-other\": \" @integer 4, 6, 9, 14, 16, 19, 24, 26, 104, 1004, … @decimal 0.4, 0.6, 0.9, 1.4, 1.6, 1.9, 2.4, 2.6, 10.4, 100.4, 1000.4, …\"\n      },\n      \"cgg\": {\n        \"pluralRule-count-one\": \"n = 1 @integer 1 @decimal 1.0, 1.00, 1.000, 1.0000\",\n        \"pluralRule-count-other\": \" @integer 0, 2~16, 100, 1000, 10000,"

/-- intl_pluralrules/cldr_data/cldr_pluralrules_cardinals.json, part 12. -/
def cardinals_12 : Str := c!" 100000, 1000000, … @decimal 0.0~0.9, 1.1~1.6, 10.0, 100.0, 1000.0, 10000.0, 100000.0, 1000000.0, …\"\n      },\n      \"chr\": {\n        \"pluralRule-count-one\": \"n = 1 @integer 1 @decimal 1.0, 1.00, 1.000, 1.0000\",\n        \"pluralRule-count-other\": \" @integer 0, 2~16, 100, 1000, 10000, 100000, 1000000, … @decimal 0.0~0.9, 1.1~1.6, 10.0, 100.0, 1000.0, 10000.0, 100000.0, 1000000.0, …\"\n      },\n      \"ckb\": {\n        \"pluralRule-count-one\": \"n = 1 @integer 1 @decimal 1.0, 1.00, 1.000, 1.0000\",\n        \"pluralRule-count-other\": \" @integer 0, 2~16, 100, 1000, 10000, 100000, 1000000, … @decimal 0.0~0.9, 1.1~1.6, 10.0, 100.0, 1000.0, 10000.0, 100000.0, 1000000.0, …\"\n      },\n      \"cs\": {\n        \"pluralRule-count-one\": \"i = 1 and v = 0 @integer 1\",\n        \"pluralRule-count-few\": \"i = 2..4 and v = "

/-- intl_pluralrules/cldr_data/cldr_pluralrules_cardinals.json, part 13. -/
def cardinals_13 : Str := c!"0 @integer 2~4\",\n        \"pluralRule-count-many\": \"v != 0   @decimal 0.0~1.5, 10.0, 100.0, 1000.0, 10000.0, 100000.0, 1000000.0, …\",\n        \"pluralRule-count-other\": \" @integer 0, 5~19, 100, 1000, 10000, 100000, 1000000, …\"\n      },\n      \"cy\": {\n        \"pluralRule-count-zero\": \"n = 0 @integer 0 @decimal 0.0, 0.00, 0.000, 0.0000\",\n        \"pluralRule-count-one\": \"n = 1 @integer 1 @decimal 1.0, 1.00, 1.000, 1.0000\",\n        \"pluralRule-count-two\": \"n = 2 @integer 2 @decimal 2.0, 2.00, 2.000, 2.0000\",\n        \"pluralRule-count-few\": \"n = 3 @integer 3 @decimal 3.0, 3.00, 3.000, 3.0000\",\n        \"pluralRule-count-many\": \"n = 6 @integer 6 @decimal 6.0, 6.00, 6.000, 6.0000\",\n        \"pluralRule-count-other\": \" @integer 4, 5, 7~20, 100, 1000, 10000, 100000, 1000000, … @decimal 0.1~0.9, 1.1~1.7,"

/-- intl_pluralrules/cldr_data/cldr_pluralrules_cardinals.json, part 14. -/
def cardinals_14 : Str := c!" 10.0, 100.0, 1000.0, 10000.0, 100000.0, 1000000.0, …\"\n      },\n      \"da\": {\n        \"pluralRule-count-one\": \"n = 1 or t != 0 and i = 0,1 @integer 1 @decimal 0.1~1.6\",\n        \"pluralRule-count-other\": \" @integer 0, 2~16, 100, 1000, 10000, 100000, 1000000, … @decimal 0.0, 2.0~3.4, 10.0, 100.0, 1000.0, 10000.0, 100000.0, 1000000.0, …\"\n      },\n      \"de\": {\n        \"pluralRule-count-one\": \"i = 1 and v = 0 @integer 1\",\n        \"pluralRule-count-other\": \" @integer 0, 2~16, 100, 1000, 10000, 100000, 1000000, … @decimal 0.0~1.5, 10.0, 100.0, 1000.0, 10000.0, 100000.0, 1000000.0, …\"\n      },\n      \"dsb\": {\n        \"pluralRule-count-one\": \"v = 0 and i % 100 = 1 or f % 100 = 1 @integer 1, 101, 201, 301, 401, 501, 601, 701, 1001, … @decimal 0.1, 1.1, 2.1, 3.1, 4.1, 5.1, 6.1, 7.1, 10.1, 100.1, 1000"

/-- intl_pluralrules/cldr_data/cldr_pluralrules_cardinals.json, part 15. -/
def cardinals_15 : Str := c!".1, …\",\n        \"pluralRule-count-two\": \"v = 0 and i % 100 = 2 or f % 100 = 2 @integer 2, 102, 202, 302, 402, 502, 602, 702, 1002, … @decimal 0.2, 1.2, 2.2, 3.2, 4.2, 5.2, 6.2, 7.2, 10.2, 100.2, 1000.2, …\",\n        \"pluralRule-count-few\": \"v = 0 and i % 100 = 3..4 or f % 100 = 3..4 @integer 3, 4, 103, 104, 203, 204, 303, 304, 403, 404, 503, 504, 603, 604, 703, 704, 1003, … @decimal 0.3, 0.4, 1.3, 1.4, 2.3, 2.4, 3.3, 3.4, 4.3, 4.4, 5.3, 5.4, 6.3, 6.4, 7.3, 7.4, 10.3, 100.3, 1000.3, …\",\n        \"pluralRule-count-other\": \" @integer 0, 5~19, 100, 1000, 10000, 100000, 1000000, … @decimal 0.0, 0.5~1.0, 1.5~2.0, 2.5~2.7, 10.0, 100.0, 1000.0, 10000.0, 100000.0, 1000000.0, …\"\n      },\n      \"dv\": {\n        \"pluralRule-count-one\": \"n = 1 @integer 1 @decimal 1.0, 1.00, 1.000, 1.0000\",\n        \"plural"

/-- intl_pluralrules/cldr_data/cldr_pluralrules_cardinals.json, part 16. -/
def cardinals_16 : Str := c!"Rule-count-other\": \" @integer 0, 2~16, 100, 1000, 10000, 100000, 1000000, … @decimal 0.0~0.9, 1.1~1.6, 10.0, 100.0, 1000.0, 10000.0, 100000.0, 1000000.0, …\"\n      },\n      \"dz\": {\n        \"pluralRule-count-other\": \" @integer 0~15, 100, 1000, 10000, 100000, 1000000, … @decimal 0.0~1.5, 10.0, 100.0, 1000.0, 10000.0, 100000.0, 1000000.0, …\"\n      },\n      \"ee\": {\n        \"pluralRule-count-one\": \"n = 1 @integer 1 @decimal 1.0, 1.00, 1.000, 1.0000\",\n        \"pluralRule-count-other\": \" @integer 0, 2~16, 100, 1000, 10000, 100000, 1000000, … @decimal 0.0~0.9, 1.1~1.6, 10.0, 100.0, 1000.0, 10000.0, 100000.0, 1000000.0, …\"\n      },\n      \"el\": {\n        \"pluralRule-count-one\": \"n = 1 @integer 1 @decimal 1.0, 1.00, 1.000, 1.0000\",\n        \"pluralRule-count-other\": \" @integer 0, 2~16, 100, 1000, 10000"

/-- intl_pluralrules/cldr_data/cldr_pluralrules_cardinals.json, part 17. -/
def cardinals_17 : Str := c!", 100000, 1000000, … @decimal 0.0~0.9, 1.1~1.6, 10.0, 100.0, 1000.0, 10000.0, 100000.0, 1000000.0, …\"\n      },\n      \"en\": {\n        \"pluralRule-count-one\": \"i = 1 and v = 0 @integer 1\",\n        \"pluralRule-count-other\": \" @integer 0, 2~16, 100, 1000, 10000, 100000, 1000000, … @decimal 0.0~1.5, 10.0, 100.0, 1000.0, 10000.0, 100000.0, 1000000.0, …\"\n      },\n      \"eo\": {\n        \"pluralRule-count-one\": \"n = 1 @integer 1 @decimal 1.0, 1.00, 1.000, 1.0000\",\n        \"pluralRule-count-other\": \" @integer 0, 2~16, 100, 1000, 10000, 100000, 1000000, … @decimal 0.0~0.9, 1.1~1.6, 10.0, 100.0, 1000.0, 10000.0, 100000.0, 1000000.0, …\"\n      },\n      \"es\": {\n        \"pluralRule-count-one\": \"n = 1 @integer 1 @decimal 1.0, 1.00, 1.000, 1.0000\",\n        \"pluralRule-count-other\": \" @integer 0, 2~16, 100, 1"

/-- intl_pluralrules/cldr_data/cldr_pluralrules_cardinals.json, part 18. -/
def cardinals_18 : Str := c!"000, 10000, 100000, 1000000, … @decimal 0.0~0.9, 1.1~1.6, 10.0, 100.0, 1000.0, 10000.0, 100000.0, 1000000.0, …\"\n      },\n      \"et\": {\n        \"pluralRule-count-one\": \"i = 1 and v = 0 @integer 1\",\n        \"pluralRule-count-other\": \" @integer 0, 2~16, 100, 1000, 10000, 100000, 1000000, … @decimal 0.0~1.5, 10.0, 100.0, 1000.0, 10000.0, 100000.0, 1000000.0, …\"\n      },\n      \"eu\": {\n        \"pluralRule-count-one\": \"n = 1 @integer 1 @decimal 1.0, 1.00, 1.000, 1.0000\",\n        \"pluralRule-count-other\": \" @integer 0, 2~16, 100, 1000, 10000, 100000, 1000000, … @decimal 0.0~0.9, 1.1~1.6, 10.0, 100.0, 1000.0, 10000.0, 100000.0, 1000000.0, …\"\n      },\n      \"fa\": {\n        \"pluralRule-count-one\": \"i = 0 or n = 1 @integer 0, 1 @decimal 0.0~1.0, 0.00~0.04\",\n        \"pluralRule-count-other\": \" @integer"

/-- intl_pluralrules/cldr_data/cldr_pluralrules_cardinals.json, part 19. -/
def cardinals_19 : Str := c!" 2~17, 100, 1000, 10000, 100000, 1000000, … @decimal 1.1~2.6, 10.0, 100.0, 1000.0, 10000.0, 100000.0, 1000000.0, …\"\n      },\n      \"ff\": {\n        \"pluralRule-count-one\": \"i = 0,1 @integer 0, 1 @decimal 0.0~1.5\",\n        \"pluralRule-count-other\": \" @integer 2~17, 100, 1000, 10000, 100000, 1000000, … @decimal 2.0~3.5, 10.0, 100.0, 1000.0, 10000.0, 100000.0, 1000000.0, …\"\n      },\n      \"fi\": {\n        \"pluralRule-count-one\": \"i = 1 and v = 0 @integer 1\",\n        \"pluralRule-count-other\": \" @integer 0, 2~16, 100, 1000, 10000, 100000, 1000000, … @decimal 0.0~1.5, 10.0, 100.0, 1000.0, 10000.0, 100000.0, 1000000.0, …\"\n      },\n      \"fil\": {\n        \"pluralRule-count-one\": \"v = 0 and i = 1,2,3 or v = 0 and i % 10 != 4,6,9 or v != 0 and f % 10 != 4,6,9 @integer 0~3, 5, 7, 8, 10~13, 15, 17, 18, 2"

/-- intl_pluralrules/cldr_data/cldr_pluralrules_cardinals.json, part 20. -/
def cardinals_20 : Str := c!"0, 21, 100, 1000, 10000, 100000, 1000000, … @decimal 0.0~0.3, 0.5, 0.7, 0.8, 1.0~1.3, 1.5, 1.7, 1.8, 2.0, 2.1, 10.0, 100.0, 1000.0, 10000.0, 100000.0, 1000000.0, …\",\n        \"pluralRule-count-other\": \" @integer 4, 6, 9, 14, 16, 19, 24, 26, 104, 1004, … @decimal 0.4, 0.6, 0.9, 1.4, 1.6, 1.9, 2.4, 2.6, 10.4, 100.4, 1000.4, …\"\n      },\n      \"fo\": {\n        \"pluralRule-count-one\": \"n = 1 @integer 1 @decimal 1.0, 1.00, 1.000, 1.0000\",\n        \"pluralRule-count-other\": \" @integer 0, 2~16, 100, 1000, 10000, 100000, 1000000, … @decimal 0.0~0.9, 1.1~1.6, 10.0, 100.0, 1000.0, 10000.0, 100000.0, 1000000.0, …\"\n      },\n      \"fr\": {\n        \"pluralRule-count-one\": \"i = 0,1 @integer 0, 1 @decimal 0.0~1.5\",\n        \"pluralRule-count-other\": \" @integer 2~17, 100, 1000, 10000, 100000, 1000000, … @decimal"

/-- intl_pluralrules/cldr_data/cldr_pluralrules_cardinals.json, part 21. -/
def cardinals_21 : Str := c!" 2.0~3.5, 10.0, 100.0, 1000.0, 10000.0, 100000.0, 1000000.0, …\"\n      },\n      \"fur\": {\n        \"pluralRule-count-one\": \"n = 1 @integer 1 @decimal 1.0, 1.00, 1.000, 1.0000\",\n        \"pluralRule-count-other\": \" @integer 0, 2~16, 100, 1000, 10000, 100000, 1000000, … @decimal 0.0~0.9, 1.1~1.6, 10.0, 100.0, 1000.0, 10000.0, 100000.0, 1000000.0, …\"\n      },\n      \"fy\": {\n        \"pluralRule-count-one\": \"i = 1 and v = 0 @integer 1\",\n        \"pluralRule-count-other\": \" @integer 0, 2~16, 100, 1000, 10000, 100000, 1000000, … @decimal 0.0~1.5, 10.0, 100.0, 1000.0, 10000.0, 100000.0, 1000000.0, …\"\n      },\n      \"ga\": {\n        \"pluralRule-count-one\": \"n = 1 @integer 1 @decimal 1.0, 1.00, 1.000, 1.0000\",\n        \"pluralRule-count-two\": \"n = 2 @integer 2 @decimal 2.0, 2.00, 2.000, 2.0000\",\n        \"pl"

/-- intl_pluralrules/cldr_data/cldr_pluralrules_cardinals.json, part 22. -/
def cardinals_22 : Str := c!"uralRule-count-few\": \"n = 3..6 @integer 3~6 @decimal 3.0, 4.0, 5.0, 6.0, 3.00, 4.00, 5.00, 6.00, 3.000, 4.000, 5.000, 6.000, 3.0000, 4.0000, 5.0000, 6.0000\",\n        \"pluralRule-count-many\": \"n = 7..10 @integer 7~10 @decimal 7.0, 8.0, 9.0, 10.0, 7.00, 8.00, 9.00, 10.00, 7.000, 8.000, 9.000, 10.000, 7.0000, 8.0000, 9.0000, 10.0000\",\n        \"pluralRule-count-other\": \" @integer 0, 11~25, 100, 1000, 10000, 100000, 1000000, … @decimal 0.0~0.9, 1.1~1.6, 10.1, 100.0, 1000.0, 10000.0, 100000.0, 1000000.0, …\"\n      },\n      \"gd\": {\n        \"pluralRule-count-one\": \"n = 1,11 @integer 1, 11 @decimal 1.0, 11.0, 1.00, 11.00, 1.000, 11.000, 1.0000\",\n        \"pluralRule-count-two\": \"n = 2,12 @integer 2, 12 @decimal 2.0, 12.0, 2.00, 12.00, 2.000, 12.000, 2.0000\",\n        \"pluralRule-count-few\": \"n = 3..10"

/-- intl_pluralrules/cldr_data/cldr_pluralrules_cardinals.json, part 23. -/
def cardinals_23 : Str := c!",13..19 @integer 3~10, 13~19 @decimal 3.0, 4.0, 5.0, 6.0, 7.0, 8.0, 9.0, 10.0, 13.0, 14.0, 15.0, 16.0, 17.0, 18.0, 19.0, 3.00\",\n        \"pluralRule-count-other\": \" @integer 0, 20~34, 100, 1000, 10000, 100000, 1000000, … @decimal 0.0~0.9, 1.1~1.6, 10.1, 100.0, 1000.0, 10000.0, 100000.0, 1000000.0, …\"\n      },\n      \"gl\": {\n        \"pluralRule-count-one\": \"i = 1 and v = 0 @integer 1\",\n        \"pluralRule-count-other\": \" @integer 0, 2~16, 100, 1000, 10000, 100000, 1000000, … @decimal 0.0~1.5, 10.0, 100.0, 1000.0, 10000.0, 100000.0, 1000000.0, …\"\n      },\n      \"gsw\": {\n        \"pluralRule-count-one\": \"n = 1 @integer 1 @decimal 1.0, 1.00, 1.000, 1.0000\",\n        \"pluralRule-count-other\": \" @integer 0, 2~16, 100, 1000, 10000, 100000, 1000000, … @decimal 0.0~0.9, 1.1~1.6, 10.0, 100.0, 1000.0, 10"

/-- intl_pluralrules/cldr_data/cldr_pluralrules_cardinals.json, part 24. -/
def cardinals_24 : Str := c!"000.0, 100000.0, 1000000.0, …\"\n      },\n      \"gu\": {\n        \"pluralRule-count-one\": \"i = 0 or n = 1 @integer 0, 1 @decimal 0.0~1.0, 0.00~0.04\",\n        \"pluralRule-count-other\": \" @integer 2~17, 100, 1000, 10000, 100000, 1000000, … @decimal 1.1~2.6, 10.0, 100.0, 1000.0, 10000.0, 100000.0, 1000000.0, …\"\n      },\n      \"guw\": {\n        \"pluralRule-count-one\": \"n = 0..1 @integer 0, 1 @decimal 0.0, 1.0, 0.00, 1.00, 0.000, 1.000, 0.0000, 1.0000\",\n        \"pluralRule-count-other\": \" @integer 2~17, 100, 1000, 10000, 100000, 1000000, … @decimal 0.1~0.9, 1.1~1.7, 10.0, 100.0, 1000.0, 10000.0, 100000.0, 1000000.0, …\"\n      },\n      \"gv\": {\n        \"pluralRule-count-one\": \"v = 0 and i % 10 = 1 @integer 1, 11, 21, 31, 41, 51, 61, 71, 101, 1001, …\",\n        \"pluralRule-count-two\": \"v = 0 and i % 10 ="

/-- intl_pluralrules/cldr_data/cldr_pluralrules_cardinals.json, part 25. -/
def cardinals_25 : Str := c!" 2 @integer 2, 12, 22, 32, 42, 52, 62, 72, 102, 1002, …\",\n        \"pluralRule-count-few\": \"v = 0 and i % 100 = 0,20,40,60,80 @integer 0, 20, 40, 60, 80, 100, 120, 140, 1000, 10000, 100000, 1000000, …\",\n        \"pluralRule-count-many\": \"v != 0   @decimal 0.0~1.5, 10.0, 100.0, 1000.0, 10000.0, 100000.0, 1000000.0, …\",\n        \"pluralRule-count-other\": \" @integer 3~10, 13~19, 23, 103, 1003, …\"\n      },\n      \"ha\": {\n        \"pluralRule-count-one\": \"n = 1 @integer 1 @decimal 1.0, 1.00, 1.000, 1.0000\",\n        \"pluralRule-count-other\": \" @integer 0, 2~16, 100, 1000, 10000, 100000, 1000000, … @decimal 0.0~0.9, 1.1~1.6, 10.0, 100.0, 1000.0, 10000.0, 100000.0, 1000000.0, …\"\n      },\n      \"haw\": {\n        \"pluralRule-count-one\": \"n = 1 @integer 1 @decimal 1.0, 1.00, 1.000, 1.0000\",\n        \"plural"

/-- intl_pluralrules/cldr_data/cldr_pluralrules_cardinals.json, part 26. -/
def cardinals_26 : Str := c!"Rule-count-other\": \" @integer 0, 2~16, 100, 1000, 10000, 100000, 1000000, … @decimal 0.0~0.9, 1.1~1.6, 10.0, 100.0, 1000.0, 10000.0, 100000.0, 1000000.0, …\"\n      },\n      \"he\": {\n        \"pluralRule-count-one\": \"i = 1 and v = 0 @integer 1\",\n        \"pluralRule-count-two\": \"i = 2 and v = 0 @integer 2\",\n        \"pluralRule-count-many\": \"v = 0 and n != 0..10 and n % 10 = 0 @integer 20, 30, 40, 50, 60, 70, 80, 90, 100, 1000, 10000, 100000, 1000000, …\",\n        \"pluralRule-count-other\": \" @integer 0, 3~17, 101, 1001, … @decimal 0.0~1.5, 10.0, 100.0, 1000.0, 10000.0, 100000.0, 1000000.0, …\"\n      },\n      \"hi\": {\n        \"pluralRule-count-one\": \"i = 0 or n = 1 @integer 0, 1 @decimal 0.0~1.0, 0.00~0.04\",\n        \"pluralRule-count-other\": \" @integer 2~17, 100, 1000, 10000, 100000, 1000000, … @dec"

/-- intl_pluralrules/cldr_data/cldr_pluralrules_cardinals.json, part 27. -/
def cardinals_27 : Str := c!"imal 1.1~2.6, 10.0, 100.0, 1000.0, 10000.0, 100000.0, 1000000.0, …\"\n      },\n      \"hr\": {\n        \"pluralRule-count-one\": \"v = 0 and i % 10 = 1 and i % 100 != 11 or f % 10 = 1 and f % 100 != 11 @integer 1, 21, 31, 41, 51, 61, 71, 81, 101, 1001, … @decimal 0.1, 1.1, 2.1, 3.1, 4.1, 5.1, 6.1, 7.1, 10.1, 100.1, 1000.1, …\",\n        \"pluralRule-count-few\": \"v = 0 and i % 10 = 2..4 and i % 100 != 12..14 or f % 10 = 2..4 and f % 100 != 12..14 @integer 2~4, 22~24, 32~34, 42~44, 52~54, 62, 102, 1002, … @decimal 0.2~0.4, 1.2~1.4, 2.2~2.4, 3.2~3.4, 4.2~4.4, 5.2, 10.2, 100.2, 1000.2, …\",\n        \"pluralRule-count-other\": \" @integer 0, 5~19, 100, 1000, 10000, 100000, 1000000, … @decimal 0.0, 0.5~1.0, 1.5~2.0, 2.5~2.7, 10.0, 100.0, 1000.0, 10000.0, 100000.0, 1000000.0, …\"\n      },\n      \"hsb\": {\n       "

/-- intl_pluralrules/cldr_data/cldr_pluralrules_cardinals.json, part 28. -/
def cardinals_28 : Str := c!" \"pluralRule-count-one\": \"v = 0 and i % 100 = 1 or f % 100 = 1 @integer 1, 101, 201, 301, 401, 501, 601, 701, 1001, … @decimal 0.1, 1.1, 2.1, 3.1, 4.1, 5.1, 6.1, 7.1, 10.1, 100.1, 1000.1, …\",\n        \"pluralRule-count-two\": \"v = 0 and i % 100 = 2 or f % 100 = 2 @integer 2, 102, 202, 302, 402, 502, 602, 702, 1002, … @decimal 0.2, 1.2, 2.2, 3.2, 4.2, 5.2, 6.2, 7.2, 10.2, 100.2, 1000.2, …\",\n        \"pluralRule-count-few\": \"v = 0 and i % 100 = 3..4 or f % 100 = 3..4 @integer 3, 4, 103, 104, 203, 204, 303, 304, 403, 404, 503, 504, 603, 604, 703, 704, 1003, … @decimal 0.3, 0.4, 1.3, 1.4, 2.3, 2.4, 3.3, 3.4, 4.3, 4.4, 5.3, 5.4, 6.3, 6.4, 7.3, 7.4, 10.3, 100.3, 1000.3, …\",\n        \"pluralRule-count-other\": \" @integer 0, 5~19, 100, 1000, 10000, 100000, 1000000, … @decimal 0.0, 0.5~1.0, 1.5~2.0, 2.5"

/-- intl_pluralrules/cldr_data/cldr_pluralrules_cardinals.json, part 29. -/
def cardinals_29 : Str := c!"~2.7, 10.0, 100.0, 1000.0, 10000.0, 100000.0, 1000000.0, …\"\n      },\n      \"hu\": {\n        \"pluralRule-count-one\": \"n = 1 @integer 1 @decimal 1.0, 1.00, 1.000, 1.0000\",\n        \"pluralRule-count-other\": \" @integer 0, 2~16, 100, 1000, 10000, 100000, 1000000, … @decimal 0.0~0.9, 1.1~1.6, 10.0, 100.0, 1000.0, 10000.0, 100000.0, 1000000.0, …\"\n      },\n      \"hy\": {\n        \"pluralRule-count-one\": \"i = 0,1 @integer 0, 1 @decimal 0.0~1.5\",\n        \"pluralRule-count-other\": \" @integer 2~17, 100, 1000, 10000, 100000, 1000000, … @decimal 2.0~3.5, 10.0, 100.0, 1000.0, 10000.0, 100000.0, 1000000.0, …\"\n      },\n      \"ia\": {\n        \"pluralRule-count-one\": \"i = 1 and v = 0 @integer 1\",\n        \"pluralRule-count-other\": \" @integer 0, 2~16, 100, 1000, 10000, 100000, 1000000, … @decimal 0.0~1.5, 10.0, 10"

/-- intl_pluralrules/cldr_data/cldr_pluralrules_cardinals.json, part 30. -/
def cardinals_30 : Str := c!"0.0, 1000.0, 10000.0, 100000.0, 1000000.0, …\"\n      },\n      \"id\": {\n        \"pluralRule-count-other\": \" @integer 0~15, 100, 1000, 10000, 100000, 1000000, … @decimal 0.0~1.5, 10.0, 100.0, 1000.0, 10000.0, 100000.0, 1000000.0, …\"\n      },\n      \"ig\": {\n        \"pluralRule-count-other\": \" @integer 0~15, 100, 1000, 10000, 100000, 1000000, … @decimal 0.0~1.5, 10.0, 100.0, 1000.0, 10000.0, 100000.0, 1000000.0, …\"\n      },\n      \"ii\": {\n        \"pluralRule-count-other\": \" @integer 0~15, 100, 1000, 10000, 100000, 1000000, … @decimal 0.0~1.5, 10.0, 100.0, 1000.0, 10000.0, 100000.0, 1000000.0, …\"\n      },\n      \"in\": {\n        \"pluralRule-count-other\": \" @integer 0~15, 100, 1000, 10000, 100000, 1000000, … @decimal 0.0~1.5, 10.0, 100.0, 1000.0, 10000.0, 100000.0, 1000000.0, …\"\n      },\n      \"io\": {"

/-- intl_pluralrules/cldr_data/cldr_pluralrules_cardinals.json, part 31. -/
def cardinals_31 : Str := c!"\n        \"pluralRule-count-one\": \"i = 1 and v = 0 @integer 1\",\n        \"pluralRule-count-other\": \" @integer 0, 2~16, 100, 1000, 10000, 100000, 1000000, … @decimal 0.0~1.5, 10.0, 100.0, 1000.0, 10000.0, 100000.0, 1000000.0, …\"\n      },\n      \"is\": {\n        \"pluralRule-count-one\": \"t = 0 and i % 10 = 1 and i % 100 != 11 or t != 0 @integer 1, 21, 31, 41, 51, 61, 71, 81, 101, 1001, … @decimal 0.1~1.6, 10.1, 100.1, 1000.1, …\",\n        \"pluralRule-count-other\": \" @integer 0, 2~16, 100, 1000, 10000, 100000, 1000000, … @decimal 0.0, 2.0, 3.0, 4.0, 5.0, 6.0, 7.0, 8.0, 10.0, 100.0, 1000.0, 10000.0, 100000.0, 1000000.0, …\"\n      },\n      \"it\": {\n        \"pluralRule-count-one\": \"i = 1 and v = 0 @integer 1\",\n        \"pluralRule-count-other\": \" @integer 0, 2~16, 100, 1000, 10000, 100000, 1000000, … @de"

/-- intl_pluralrules/cldr_data/cldr_pluralrules_cardinals.json, part 32. -/
def cardinals_32 : Str := c!"cimal 0.0~1.5, 10.0, 100.0, 1000.0, 10000.0, 100000.0, 1000000.0, …\"\n      },\n      \"iu\": {\n        \"pluralRule-count-one\": \"n = 1 @integer 1 @decimal 1.0, 1.00, 1.000, 1.0000\",\n        \"pluralRule-count-two\": \"n = 2 @integer 2 @decimal 2.0, 2.00, 2.000, 2.0000\",\n        \"pluralRule-count-other\": \" @integer 0, 3~17, 100, 1000, 10000, 100000, 1000000, … @decimal 0.0~0.9, 1.1~1.6, 10.0, 100.0, 1000.0, 10000.0, 100000.0, 1000000.0, …\"\n      },\n      \"iw\": {\n        \"pluralRule-count-one\": \"i = 1 and v = 0 @integer 1\",\n        \"pluralRule-count-two\": \"i = 2 and v = 0 @integer 2\",\n        \"pluralRule-count-many\": \"v = 0 and n != 0..10 and n % 10 = 0 @integer 20, 30, 40, 50, 60, 70, 80, 90, 100, 1000, 10000, 100000, 1000000, …\",\n        \"pluralRule-count-other\": \" @integer 0, 3~17, 101, 1001, … "

/-- intl_pluralrules/cldr_data/cldr_pluralrules_cardinals.json, part 33. -/
def cardinals_33 : Str := c!"@decimal 0.0~1.5, 10.0, 100.0, 1000.0, 10000.0, 100000.0, 1000000.0, …\"\n      },\n      \"ja\": {\n        \"pluralRule-count-other\": \" @integer 0~15, 100, 1000, 10000, 100000, 1000000, … @decimal 0.0~1.5, 10.0, 100.0, 1000.0, 10000.0, 100000.0, 1000000.0, …\"\n      },\n      \"jbo\": {\n        \"pluralRule-count-other\": \" @integer 0~15, 100, 1000, 10000, 100000, 1000000, … @decimal 0.0~1.5, 10.0, 100.0, 1000.0, 10000.0, 100000.0, 1000000.0, …\"\n      },\n      \"jgo\": {\n        \"pluralRule-count-one\": \"n = 1 @integer 1 @decimal 1.0, 1.00, 1.000, 1.0000\",\n        \"pluralRule-count-other\": \" @integer 0, 2~16, 100, 1000, 10000, 100000, 1000000, … @decimal 0.0~0.9, 1.1~1.6, 10.0, 100.0, 1000.0, 10000.0, 100000.0, 1000000.0, …\"\n      },\n      \"ji\": {\n        \"pluralRule-count-one\": \"i = 1 and v = 0 @intege"

/-- intl_pluralrules/cldr_data/cldr_pluralrules_cardinals.json, part 34. -/
def cardinals_34 : Str := c!"r 1\",\n        \"pluralRule-count-other\": \" @integer 0, 2~16, 100, 1000, 10000, 100000, 1000000, … @decimal 0.0~1.5, 10.0, 100.0, 1000.0, 10000.0, 100000.0, 1000000.0, …\"\n      },\n      \"jmc\": {\n        \"pluralRule-count-one\": \"n = 1 @integer 1 @decimal 1.0, 1.00, 1.000, 1.0000\",\n        \"pluralRule-count-other\": \" @integer 0, 2~16, 100, 1000, 10000, 100000, 1000000, … @decimal 0.0~0.9, 1.1~1.6, 10.0, 100.0, 1000.0, 10000.0, 100000.0, 1000000.0, …\"\n      },\n      \"jv\": {\n        \"pluralRule-count-other\": \" @integer 0~15, 100, 1000, 10000, 100000, 1000000, … @decimal 0.0~1.5, 10.0, 100.0, 1000.0, 10000.0, 100000.0, 1000000.0, …\"\n      },\n      \"jw\": {\n        \"pluralRule-count-other\": \" @integer 0~15, 100, 1000, 10000, 100000, 1000000, … @decimal 0.0~1.5, 10.0, 100.0, 1000.0, 10000.0, 100000."

/-- intl_pluralrules/cldr_data/cldr_pluralrules_cardinals.json, part 35. -/
def cardinals_35 : Str := c!"0, 1000000.0, …\"\n      },\n      \"ka\": {\n        \"pluralRule-count-one\": \"n = 1 @integer 1 @decimal 1.0, 1.00, 1.000, 1.0000\",\n        \"pluralRule-count-other\": \" @integer 0, 2~16, 100, 1000, 10000, 100000, 1000000, … @decimal 0.0~0.9, 1.1~1.6, 10.0, 100.0, 1000.0, 10000.0, 100000.0, 1000000.0, …\"\n      },\n      \"kab\": {\n        \"pluralRule-count-one\": \"i = 0,1 @integer 0, 1 @decimal 0.0~1.5\",\n        \"pluralRule-count-other\": \" @integer 2~17, 100, 1000, 10000, 100000, 1000000, … @decimal 2.0~3.5, 10.0, 100.0, 1000.0, 10000.0, 100000.0, 1000000.0, …\"\n      },\n      \"kaj\": {\n        \"pluralRule-count-one\": \"n = 1 @integer 1 @decimal 1.0, 1.00, 1.000, 1.0000\",\n        \"pluralRule-count-other\": \" @integer 0, 2~16, 100, 1000, 10000, 100000, 1000000, … @decimal 0.0~0.9, 1.1~1.6, 10.0, 100.0, 100"

/-- intl_pluralrules/cldr_data/cldr_pluralrules_cardinals.json, part 36. -/
def cardinals_36 : Str := c!"0.0, 10000.0, 100000.0, 1000000.0, …\"\n      },\n      \"kcg\": {\n        \"pluralRule-count-one\": \"n = 1 @integer 1 @decimal 1.0, 1.00, 1.000, 1.0000\",\n        \"pluralRule-count-other\": \" @integer 0, 2~16, 100, 1000, 10000, 100000, 1000000, … @decimal 0.0~0.9, 1.1~1.6, 10.0, 100.0, 1000.0, 10000.0, 100000.0, 1000000.0, …\"\n      },\n      \"kde\": {\n        \"pluralRule-count-other\": \" @integer 0~15, 100, 1000, 10000, 100000, 1000000, … @decimal 0.0~1.5, 10.0, 100.0, 1000.0, 10000.0, 100000.0, 1000000.0, …\"\n      },\n      \"kea\": {\n        \"pluralRule-count-other\": \" @integer 0~15, 100, 1000, 10000, 100000, 1000000, … @decimal 0.0~1.5, 10.0, 100.0, 1000.0, 10000.0, 100000.0, 1000000.0, …\"\n      },\n      \"kk\": {\n        \"pluralRule-count-one\": \"n = 1 @integer 1 @decimal 1.0, 1.00, 1.000, 1.0000\",\n   "

/-- intl_pluralrules/cldr_data/cldr_pluralrules_cardinals.json, part 37. -/
def cardinals_37 : Str := c!"     \"pluralRule-count-other\": \" @integer 0, 2~16, 100, 1000, 10000, 100000, 1000000, … @decimal 0.0~0.9, 1.1~1.6, 10.0, 100.0, 1000.0, 10000.0, 100000.0, 1000000.0, …\"\n      },\n      \"kkj\": {\n        \"pluralRule-count-one\": \"n = 1 @integer 1 @decimal 1.0, 1.00, 1.000, 1.0000\",\n        \"pluralRule-count-other\": \" @integer 0, 2~16, 100, 1000, 10000, 100000, 1000000, … @decimal 0.0~0.9, 1.1~1.6, 10.0, 100.0, 1000.0, 10000.0, 100000.0, 1000000.0, …\"\n      },\n      \"kl\": {\n        \"pluralRule-count-one\": \"n = 1 @integer 1 @decimal 1.0, 1.00, 1.000, 1.0000\",\n        \"pluralRule-count-other\": \" @integer 0, 2~16, 100, 1000, 10000, 100000, 1000000, … @decimal 0.0~0.9, 1.1~1.6, 10.0, 100.0, 1000.0, 10000.0, 100000.0, 1000000.0, …\"\n      },\n      \"km\": {\n        \"pluralRule-count-other\": \" @integer "

/-- intl_pluralrules/cldr_data/cldr_pluralrules_cardinals.json, part 38. -/
def cardinals_38 : Str := c!"0~15, 100, 1000, 10000, 100000, 1000000, … @decimal 0.0~1.5, 10.0, 100.0, 1000.0, 10000.0, 100000.0, 1000000.0, …\"\n      },\n      \"kn\": {\n        \"pluralRule-count-one\": \"i = 0 or n = 1 @integer 0, 1 @decimal 0.0~1.0, 0.00~0.04\",\n        \"pluralRule-count-other\": \" @integer 2~17, 100, 1000, 10000, 100000, 1000000, … @decimal 1.1~2.6, 10.0, 100.0, 1000.0, 10000.0, 100000.0, 1000000.0, …\"\n      },\n      \"ko\": {\n        \"pluralRule-count-other\": \" @integer 0~15, 100, 1000, 10000, 100000, 1000000, … @decimal 0.0~1.5, 10.0, 100.0, 1000.0, 10000.0, 100000.0, 1000000.0, …\"\n      },\n      \"ks\": {\n        \"pluralRule-count-one\": \"n = 1 @integer 1 @decimal 1.0, 1.00, 1.000, 1.0000\",\n        \"pluralRule-count-other\": \" @integer 0, 2~16, 100, 1000, 10000, 100000, 1000000, … @decimal 0.0~0.9, 1.1~1.6, "

/-- intl_pluralrules/cldr_data/cldr_pluralrules_cardinals.json, part 39. -/
def cardinals_39 : Str := c!"10.0, 100.0, 1000.0, 10000.0, 100000.0, 1000000.0, …\"\n      },\n      \"ksb\": {\n        \"pluralRule-count-one\": \"n = 1 @integer 1 @decimal 1.0, 1.00, 1.000, 1.0000\",\n        \"pluralRule-count-other\": \" @integer 0, 2~16, 100, 1000, 10000, 100000, 1000000, … @decimal 0.0~0.9, 1.1~1.6, 10.0, 100.0, 1000.0, 10000.0, 100000.0, 1000000.0, …\"\n      },\n      \"ksh\": {\n        \"pluralRule-count-zero\": \"n = 0 @integer 0 @decimal 0.0, 0.00, 0.000, 0.0000\",\n        \"pluralRule-count-one\": \"n = 1 @integer 1 @decimal 1.0, 1.00, 1.000, 1.0000\",\n        \"pluralRule-count-other\": \" @integer 2~17, 100, 1000, 10000, 100000, 1000000, … @decimal 0.1~0.9, 1.1~1.7, 10.0, 100.0, 1000.0, 10000.0, 100000.0, 1000000.0, …\"\n      },\n      \"ku\": {\n        \"pluralRule-count-one\": \"n = 1 @integer 1 @decimal 1.0, 1.00, 1.000"

/-- intl_pluralrules/cldr_data/cldr_pluralrules_cardinals.json, part 40. -/
def cardinals_40 : Str := c!", 1.0000\",\n        \"pluralRule-count-other\": \" @integer 0, 2~16, 100, 1000, 10000, 100000, 1000000, … @decimal 0.0~0.9, 1.1~1.6, 10.0, 100.0, 1000.0, 10000.0, 100000.0, 1000000.0, …\"\n      },\n      \"kw\": {\n        \"pluralRule-count-zero\": \"n = 0 @integer 0 @decimal 0.0, 0.00, 0.000, 0.0000\",\n        \"pluralRule-count-one\": \"n = 1 @integer 1 @decimal 1.0, 1.00, 1.000, 1.0000\",\n        \"pluralRule-count-two\": \"n % 100 = 2,22,42,62,82 or n % 1000 = 0 and n % 100000 = 1000..20000,40000,60000,80000 or n != 0 and n % 1000000 = 100000 @integer 2, 22, 42, 62, 82, 102, 122, 142, 1000, 10000, 100000, … @decimal 2.0, 22.0, 42.0, 62.0, 82.0, 102.0, 122.0, 142.0, 1000.0, 10000.0, 100000.0, …\",\n        \"pluralRule-count-few\": \"n % 100 = 3,23,43,63,83 @integer 3, 23, 43, 63, 83, 103, 123, 143, 1003, … @d"

/-- intl_pluralrules/cldr_data/cldr_pluralrules_cardinals.json, part 41. -/
def cardinals_41 : Str := c!"ecimal 3.0, 23.0, 43.0, 63.0, 83.0, 103.0, 123.0, 143.0, 1003.0, …\",\n        \"pluralRule-count-many\": \"n != 1 and n % 100 = 1,21,41,61,81 @integer 21, 41, 61, 81, 101, 121, 141, 161, 1001, … @decimal 21.0, 41.0, 61.0, 81.0, 101.0, 121.0, 141.0, 161.0, 1001.0, …\",\n        \"pluralRule-count-other\": \" @integer 4~19, 100, 1004, 1000000, … @decimal 0.1~0.9, 1.1~1.7, 10.0, 100.0, 1000.1, 1000000.0, …\"\n      },\n      \"ky\": {\n        \"pluralRule-count-one\": \"n = 1 @integer 1 @decimal 1.0, 1.00, 1.000, 1.0000\",\n        \"pluralRule-count-other\": \" @integer 0, 2~16, 100, 1000, 10000, 100000, 1000000, … @decimal 0.0~0.9, 1.1~1.6, 10.0, 100.0, 1000.0, 10000.0, 100000.0, 1000000.0, …\"\n      },\n      \"lag\": {\n        \"pluralRule-count-zero\": \"n = 0 @integer 0 @decimal 0.0, 0.00, 0.000, 0.0000\",\n        \""

/-- intl_pluralrules/cldr_data/cldr_pluralrules_cardinals.json, part 42. -/
def cardinals_42 : Str := c!"pluralRule-count-one\": \"i = 0,1 and n != 0 @integer 1 @decimal 0.1~1.6\",\n        \"pluralRule-count-other\": \" @integer 2~17, 100, 1000, 10000, 100000, 1000000, … @decimal 2.0~3.5, 10.0, 100.0, 1000.0, 10000.0, 100000.0, 1000000.0, …\"\n      },\n      \"lb\": {\n        \"pluralRule-count-one\": \"n = 1 @integer 1 @decimal 1.0, 1.00, 1.000, 1.0000\",\n        \"pluralRule-count-other\": \" @integer 0, 2~16, 100, 1000, 10000, 100000, 1000000, … @decimal 0.0~0.9, 1.1~1.6, 10.0, 100.0, 1000.0, 10000.0, 100000.0, 1000000.0, …\"\n      },\n      \"lg\": {\n        \"pluralRule-count-one\": \"n = 1 @integer 1 @decimal 1.0, 1.00, 1.000, 1.0000\",\n        \"pluralRule-count-other\": \" @integer 0, 2~16, 100, 1000, 10000, 100000, 1000000, … @decimal 0.0~0.9, 1.1~1.6, 10.0, 100.0, 1000.0, 10000.0, 100000.0, 1000000.0, …\"\n     "

/-- intl_pluralrules/cldr_data/cldr_pluralrules_cardinals.json, part 43. -/
def cardinals_43 : Str := c!" },\n      \"lkt\": {\n        \"pluralRule-count-other\": \" @integer 0~15, 100, 1000, 10000, 100000, 1000000, … @decimal 0.0~1.5, 10.0, 100.0, 1000.0, 10000.0, 100000.0, 1000000.0, …\"\n      },\n      \"ln\": {\n        \"pluralRule-count-one\": \"n = 0..1 @integer 0, 1 @decimal 0.0, 1.0, 0.00, 1.00, 0.000, 1.000, 0.0000, 1.0000\",\n        \"pluralRule-count-other\": \" @integer 2~17, 100, 1000, 10000, 100000, 1000000, … @decimal 0.1~0.9, 1.1~1.7, 10.0, 100.0, 1000.0, 10000.0, 100000.0, 1000000.0, …\"\n      },\n      \"lo\": {\n        \"pluralRule-count-other\": \" @integer 0~15, 100, 1000, 10000, 100000, 1000000, … @decimal 0.0~1.5, 10.0, 100.0, 1000.0, 10000.0, 100000.0, 1000000.0, …\"\n      },\n      \"lt\": {\n        \"pluralRule-count-one\": \"n % 10 = 1 and n % 100 != 11..19 @integer 1, 21, 31, 41, 51, 61, 71, 81,"

/-- intl_pluralrules/cldr_data/cldr_pluralrules_cardinals.json, part 44. -/
def cardinals_44 : Str := c!" 101, 1001, … @decimal 1.0, 21.0, 31.0, 41.0, 51.0, 61.0, 71.0, 81.0, 101.0, 1001.0, …\",\n        \"pluralRule-count-few\": \"n % 10 = 2..9 and n % 100 != 11..19 @integer 2~9, 22~29, 102, 1002, … @decimal 2.0, 3.0, 4.0, 5.0, 6.0, 7.0, 8.0, 9.0, 22.0, 102.0, 1002.0, …\",\n        \"pluralRule-count-many\": \"f != 0   @decimal 0.1~0.9, 1.1~1.7, 10.1, 100.1, 1000.1, …\",\n        \"pluralRule-count-other\": \" @integer 0, 10~20, 30, 40, 50, 60, 100, 1000, 10000, 100000, 1000000, … @decimal 0.0, 10.0, 11.0, 12.0, 13.0, 14.0, 15.0, 16.0, 100.0, 1000.0, 10000.0, 100000.0, 1000000.0, …\"\n      },\n      \"lv\": {\n        \"pluralRule-count-zero\": \"n % 10 = 0 or n % 100 = 11..19 or v = 2 and f % 100 = 11..19 @integer 0, 10~20, 30, 40, 50, 60, 100, 1000, 10000, 100000, 1000000, … @decimal 0.0, 10.0, 11.0, 12.0, 13.0,"

/-- intl_pluralrules/cldr_data/cldr_pluralrules_cardinals.json, part 45. -/
def cardinals_45 : Str := c!" 14.0, 15.0, 16.0, 100.0, 1000.0, 10000.0, 100000.0, 1000000.0, …\",\n        \"pluralRule-count-one\": \"n % 10 = 1 and n % 100 != 11 or v = 2 and f % 10 = 1 and f % 100 != 11 or v != 2 and f % 10 = 1 @integer 1, 21, 31, 41, 51, 61, 71, 81, 101, 1001, … @decimal 0.1, 1.0, 1.1, 2.1, 3.1, 4.1, 5.1, 6.1, 7.1, 10.1, 100.1, 1000.1, …\",\n        \"pluralRule-count-other\": \" @integer 2~9, 22~29, 102, 1002, … @decimal 0.2~0.9, 1.2~1.9, 10.2, 100.2, 1000.2, …\"\n      },\n      \"mas\": {\n        \"pluralRule-count-one\": \"n = 1 @integer 1 @decimal 1.0, 1.00, 1.000, 1.0000\",\n        \"pluralRule-count-other\": \" @integer 0, 2~16, 100, 1000, 10000, 100000, 1000000, … @decimal 0.0~0.9, 1.1~1.6, 10.0, 100.0, 1000.0, 10000.0, 100000.0, 1000000.0, …\"\n      },\n      \"mg\": {\n        \"pluralRule-count-one\": \"n = 0..1 @in"

/-- intl_pluralrules/cldr_data/cldr_pluralrules_cardinals.json, part 46. -/
def cardinals_46 : Str := c!"teger 0, 1 @decimal 0.0, 1.0, 0.00, 1.00, 0.000, 1.000, 0.0000, 1.0000\",\n        \"pluralRule-count-other\": \" @integer 2~17, 100, 1000, 10000, 100000, 1000000, … @decimal 0.1~0.9, 1.1~1.7, 10.0, 100.0, 1000.0, 10000.0, 100000.0, 1000000.0, …\"\n      },\n      \"mgo\": {\n        \"pluralRule-count-one\": \"n = 1 @integer 1 @decimal 1.0, 1.00, 1.000, 1.0000\",\n        \"pluralRule-count-other\": \" @integer 0, 2~16, 100, 1000, 10000, 100000, 1000000, … @decimal 0.0~0.9, 1.1~1.6, 10.0, 100.0, 1000.0, 10000.0, 100000.0, 1000000.0, …\"\n      },\n      \"mk\": {\n        \"pluralRule-count-one\": \"v = 0 and i % 10 = 1 and i % 100 != 11 or f % 10 = 1 and f % 100 != 11 @integer 1, 21, 31, 41, 51, 61, 71, 81, 101, 1001, … @decimal 0.1, 1.1, 2.1, 3.1, 4.1, 5.1, 6.1, 7.1, 10.1, 100.1, 1000.1, …\",\n        \"pluralRule-co"

/-- intl_pluralrules/cldr_data/cldr_pluralrules_cardinals.json, part 47. -/
def cardinals_47 : Str := c!"unt-other\": \" @integer 0, 2~16, 100, 1000, 10000, 100000, 1000000, … @decimal 0.0, 0.2~1.0, 1.2~1.7, 10.0, 100.0, 1000.0, 10000.0, 100000.0, 1000000.0, …\"\n      },\n      \"ml\": {\n        \"pluralRule-count-one\": \"n = 1 @integer 1 @decimal 1.0, 1.00, 1.000, 1.0000\",\n        \"pluralRule-count-other\": \" @integer 0, 2~16, 100, 1000, 10000, 100000, 1000000, … @decimal 0.0~0.9, 1.1~1.6, 10.0, 100.0, 1000.0, 10000.0, 100000.0, 1000000.0, …\"\n      },\n      \"mn\": {\n        \"pluralRule-count-one\": \"n = 1 @integer 1 @decimal 1.0, 1.00, 1.000, 1.0000\",\n        \"pluralRule-count-other\": \" @integer 0, 2~16, 100, 1000, 10000, 100000, 1000000, … @decimal 0.0~0.9, 1.1~1.6, 10.0, 100.0, 1000.0, 10000.0, 100000.0, 1000000.0, …\"\n      },\n      \"mo\": {\n        \"pluralRule-count-one\": \"i = 1 and v = 0 @integer 1\""

/-- intl_pluralrules/cldr_data/cldr_pluralrules_cardinals.json, part 48. -/
def cardinals_48 : Str := c!",\n        \"pluralRule-count-few\": \"v != 0 or n = 0 or n % 100 = 2..19 @integer 0, 2~16, 102, 1002, … @decimal 0.0~1.5, 10.0, 100.0, 1000.0, 10000.0, 100000.0, 1000000.0, …\",\n        \"pluralRule-count-other\": \" @integer 20~35, 100, 1000, 10000, 100000, 1000000, …\"\n      },\n      \"mr\": {\n        \"pluralRule-count-one\": \"n = 1 @integer 1 @decimal 1.0, 1.00, 1.000, 1.0000\",\n        \"pluralRule-count-other\": \" @integer 0, 2~16, 100, 1000, 10000, 100000, 1000000, … @decimal 0.0~0.9, 1.1~1.6, 10.0, 100.0, 1000.0, 10000.0, 100000.0, 1000000.0, …\"\n      },\n      \"ms\": {\n        \"pluralRule-count-other\": \" @integer 0~15, 100, 1000, 10000, 100000, 1000000, … @decimal 0.0~1.5, 10.0, 100.0, 1000.0, 10000.0, 100000.0, 1000000.0, …\"\n      },\n      \"mt\": {\n        \"pluralRule-count-one\": \"n = 1 @integer 1"

/-- intl_pluralrules/cldr_data/cldr_pluralrules_cardinals.json, part 49. -/
def cardinals_49 : Str := c!" @decimal 1.0, 1.00, 1.000, 1.0000\",\n        \"pluralRule-count-few\": \"n = 0 or n % 100 = 2..10 @integer 0, 2~10, 102~107, 1002, … @decimal 0.0, 2.0, 3.0, 4.0, 5.0, 6.0, 7.0, 8.0, 10.0, 102.0, 1002.0, …\",\n        \"pluralRule-count-many\": \"n % 100 = 11..19 @integer 11~19, 111~117, 1011, … @decimal 11.0, 12.0, 13.0, 14.0, 15.0, 16.0, 17.0, 18.0, 111.0, 1011.0, …\",\n        \"pluralRule-count-other\": \" @integer 20~35, 100, 1000, 10000, 100000, 1000000, … @decimal 0.1~0.9, 1.1~1.7, 10.1, 100.0, 1000.0, 10000.0, 100000.0, 1000000.0, …\"\n      },\n      \"my\": {\n        \"pluralRule-count-other\": \" @integer 0~15, 100, 1000, 10000, 100000, 1000000, … @decimal 0.0~1.5, 10.0, 100.0, 1000.0, 10000.0, 100000.0, 1000000.0, …\"\n      },\n      \"nah\": {\n        \"pluralRule-count-one\": \"n = 1 @integer 1 @decimal "

/-- intl_pluralrules/cldr_data/cldr_pluralrules_cardinals.json, part 50. -/
def cardinals_50 : Str := c!"1.0, 1.00, 1.000, 1.0000\",\n        \"pluralRule-count-other\": \" @integer 0, 2~16, 100, 1000, 10000, 100000, 1000000, … @decimal 0.0~0.9, 1.1~1.6, 10.0, 100.0, 1000.0, 10000.0, 100000.0, 1000000.0, …\"\n      },\n      \"naq\": {\n        \"pluralRule-count-one\": \"n = 1 @integer 1 @decimal 1.0, 1.00, 1.000, 1.0000\",\n        \"pluralRule-count-two\": \"n = 2 @integer 2 @decimal 2.0, 2.00, 2.000, 2.0000\",\n        \"pluralRule-count-other\": \" @integer 0, 3~17, 100, 1000, 10000, 100000, 1000000, … @decimal 0.0~0.9, 1.1~1.6, 10.0, 100.0, 1000.0, 10000.0, 100000.0, 1000000.0, …\"\n      },\n      \"nb\": {\n        \"pluralRule-count-one\": \"n = 1 @integer 1 @decimal 1.0, 1.00, 1.000, 1.0000\",\n        \"pluralRule-count-other\": \" @integer 0, 2~16, 100, 1000, 10000, 100000, 1000000, … @decimal 0.0~0.9, 1.1~1.6, 10.0, "

/-- intl_pluralrules/cldr_data/cldr_pluralrules_cardinals.json, part 51. -/
def cardinals_51 : Str := c!"100.0, 1000.0, 10000.0, 100000.0, 1000000.0, …\"\n      },\n      \"nd\": {\n        \"pluralRule-count-one\": \"n = 1 @integer 1 @decimal 1.0, 1.00, 1.000, 1.0000\",\n        \"pluralRule-count-other\": \" @integer 0, 2~16, 100, 1000, 10000, 100000, 1000000, … @decimal 0.0~0.9, 1.1~1.6, 10.0, 100.0, 1000.0, 10000.0, 100000.0, 1000000.0, …\"\n      },\n      \"ne\": {\n        \"pluralRule-count-one\": \"n = 1 @integer 1 @decimal 1.0, 1.00, 1.000, 1.0000\",\n        \"pluralRule-count-other\": \" @integer 0, 2~16, 100, 1000, 10000, 100000, 1000000, … @decimal 0.0~0.9, 1.1~1.6, 10.0, 100.0, 1000.0, 10000.0, 100000.0, 1000000.0, …\"\n      },\n      \"nl\": {\n        \"pluralRule-count-one\": \"i = 1 and v = 0 @integer 1\",\n        \"pluralRule-count-other\": \" @integer 0, 2~16, 100, 1000, 10000, 100000, 1000000, … @decimal 0.0~1"

/-- intl_pluralrules/cldr_data/cldr_pluralrules_cardinals.json, part 52. -/
def cardinals_52 : Str := c!".5, 10.0, 100.0, 1000.0, 10000.0, 100000.0, 1000000.0, …\"\n      },\n      \"nn\": {\n        \"pluralRule-count-one\": \"n = 1 @integer 1 @decimal 1.0, 1.00, 1.000, 1.0000\",\n        \"pluralRule-count-other\": \" @integer 0, 2~16, 100, 1000, 10000, 100000, 1000000, … @decimal 0.0~0.9, 1.1~1.6, 10.0, 100.0, 1000.0, 10000.0, 100000.0, 1000000.0, …\"\n      },\n      \"nnh\": {\n        \"pluralRule-count-one\": \"n = 1 @integer 1 @decimal 1.0, 1.00, 1.000, 1.0000\",\n        \"pluralRule-count-other\": \" @integer 0, 2~16, 100, 1000, 10000, 100000, 1000000, … @decimal 0.0~0.9, 1.1~1.6, 10.0, 100.0, 1000.0, 10000.0, 100000.0, 1000000.0, …\"\n      },\n      \"no\": {\n        \"pluralRule-count-one\": \"n = 1 @integer 1 @decimal 1.0, 1.00, 1.000, 1.0000\",\n        \"pluralRule-count-other\": \" @integer 0, 2~16, 100, 1000, 10000"

/-- intl_pluralrules/cldr_data/cldr_pluralrules_cardinals.json, part 53. -/
def cardinals_53 : Str := c!", 100000, 1000000, … @decimal 0.0~0.9, 1.1~1.6, 10.0, 100.0, 1000.0, 10000.0, 100000.0, 1000000.0, …\"\n      },\n      \"nqo\": {\n        \"pluralRule-count-other\": \" @integer 0~15, 100, 1000, 10000, 100000, 1000000, … @decimal 0.0~1.5, 10.0, 100.0, 1000.0, 10000.0, 100000.0, 1000000.0, …\"\n      },\n      \"nr\": {\n        \"pluralRule-count-one\": \"n = 1 @integer 1 @decimal 1.0, 1.00, 1.000, 1.0000\",\n        \"pluralRule-count-other\": \" @integer 0, 2~16, 100, 1000, 10000, 100000, 1000000, … @decimal 0.0~0.9, 1.1~1.6, 10.0, 100.0, 1000.0, 10000.0, 100000.0, 1000000.0, …\"\n      },\n      \"nso\": {\n        \"pluralRule-count-one\": \"n = 0..1 @integer 0, 1 @decimal 0.0, 1.0, 0.00, 1.00, 0.000, 1.000, 0.0000, 1.0000\",\n        \"pluralRule-count-other\": \" @integer 2~17, 100, 1000, 10000, 100000, 1000000, … @de"

/-- intl_pluralrules/cldr_data/cldr_pluralrules_cardinals.json, part 54. -/
def cardinals_54 : Str := c!"cimal 0.1~0.9, 1.1~1.7, 10.0, 100.0, 1000.0, 10000.0, 100000.0, 1000000.0, …\"\n      },\n      \"ny\": {\n        \"pluralRule-count-one\": \"n = 1 @integer 1 @decimal 1.0, 1.00, 1.000, 1.0000\",\n        \"pluralRule-count-other\": \" @integer 0, 2~16, 100, 1000, 10000, 100000, 1000000, … @decimal 0.0~0.9, 1.1~1.6, 10.0, 100.0, 1000.0, 10000.0, 100000.0, 1000000.0, …\"\n      },\n      \"nyn\": {\n        \"pluralRule-count-one\": \"n = 1 @integer 1 @decimal 1.0, 1.00, 1.000, 1.0000\",\n        \"pluralRule-count-other\": \" @integer 0, 2~16, 100, 1000, 10000, 100000, 1000000, … @decimal 0.0~0.9, 1.1~1.6, 10.0, 100.0, 1000.0, 10000.0, 100000.0, 1000000.0, …\"\n      },\n      \"om\": {\n        \"pluralRule-count-one\": \"n = 1 @integer 1 @decimal 1.0, 1.00, 1.000, 1.0000\",\n        \"pluralRule-count-other\": \" @integer 0, 2~"

/-- intl_pluralrules/cldr_data/cldr_pluralrules_cardinals.json, part 55. -/
def cardinals_55 : Str := c!"16, 100, 1000, 10000, 100000, 1000000, … @decimal 0.0~0.9, 1.1~1.6, 10.0, 100.0, 1000.0, 10000.0, 100000.0, 1000000.0, …\"\n      },\n      \"or\": {\n        \"pluralRule-count-one\": \"n = 1 @integer 1 @decimal 1.0, 1.00, 1.000, 1.0000\",\n        \"pluralRule-count-other\": \" @integer 0, 2~16, 100, 1000, 10000, 100000, 1000000, … @decimal 0.0~0.9, 1.1~1.6, 10.0, 100.0, 1000.0, 10000.0, 100000.0, 1000000.0, …\"\n      },\n      \"os\": {\n        \"pluralRule-count-one\": \"n = 1 @integer 1 @decimal 1.0, 1.00, 1.000, 1.0000\",\n        \"pluralRule-count-other\": \" @integer 0, 2~16, 100, 1000, 10000, 100000, 1000000, … @decimal 0.0~0.9, 1.1~1.6, 10.0, 100.0, 1000.0, 10000.0, 100000.0, 1000000.0, …\"\n      },\n      \"osa\": {\n        \"pluralRule-count-other\": \" @integer 0~15, 100, 1000, 10000, 100000, 1000000, … @dec"

/-- intl_pluralrules/cldr_data/cldr_pluralrules_cardinals.json, part 56. -/
def cardinals_56 : Str := c!"imal 0.0~1.5, 10.0, 100.0, 1000.0, 10000.0, 100000.0, 1000000.0, …\"\n      },\n      \"pa\": {\n        \"pluralRule-count-one\": \"n = 0..1 @integer 0, 1 @decimal 0.0, 1.0, 0.00, 1.00, 0.000, 1.000, 0.0000, 1.0000\",\n        \"pluralRule-count-other\": \" @integer 2~17, 100, 1000, 10000, 100000, 1000000, … @decimal 0.1~0.9, 1.1~1.7, 10.0, 100.0, 1000.0, 10000.0, 100000.0, 1000000.0, …\"\n      },\n      \"pap\": {\n        \"pluralRule-count-one\": \"n = 1 @integer 1 @decimal 1.0, 1.00, 1.000, 1.0000\",\n        \"pluralRule-count-other\": \" @integer 0, 2~16, 100, 1000, 10000, 100000, 1000000, … @decimal 0.0~0.9, 1.1~1.6, 10.0, 100.0, 1000.0, 10000.0, 100000.0, 1000000.0, …\"\n      },\n      \"pcm\": {\n        \"pluralRule-count-one\": \"i = 0 or n = 1 @integer 0, 1 @decimal 0.0~1.0, 0.00~0.04\",\n        \"pluralRule-coun"

/-- intl_pluralrules/cldr_data/cldr_pluralrules_cardinals.json, part 57. -/
def cardinals_57 : Str := c!"t-other\": \" @integer 2~17, 100, 1000, 10000, 100000, 1000000, … @decimal 1.1~2.6, 10.0, 100.0, 1000.0, 10000.0, 100000.0, 1000000.0, …\"\n      },\n      \"pl\": {\n        \"pluralRule-count-one\": \"i = 1 and v = 0 @integer 1\",\n        \"pluralRule-count-few\": \"v = 0 and i % 10 = 2..4 and i % 100 != 12..14 @integer 2~4, 22~24, 32~34, 42~44, 52~54, 62, 102, 1002, …\",\n        \"pluralRule-count-many\": \"v = 0 and i != 1 and i % 10 = 0..1 or v = 0 and i % 10 = 5..9 or v = 0 and i % 100 = 12..14 @integer 0, 5~19, 100, 1000, 10000, 100000, 1000000, …\",\n        \"pluralRule-count-other\": \"   @decimal 0.0~1.5, 10.0, 100.0, 1000.0, 10000.0, 100000.0, 1000000.0, …\"\n      },\n      \"prg\": {\n        \"pluralRule-count-zero\": \"n % 10 = 0 or n % 100 = 11..19 or v = 2 and f % 100 = 11..19 @integer 0, 10~20, 30, 40, "

/-- intl_pluralrules/cldr_data/cldr_pluralrules_cardinals.json, part 58. -/
def cardinals_58 : Str := c!"50, 60, 100, 1000, 10000, 100000, 1000000, … @decimal 0.0, 10.0, 11.0, 12.0, 13.0, 14.0, 15.0, 16.0, 100.0, 1000.0, 10000.0, 100000.0, 1000000.0, …\",\n        \"pluralRule-count-one\": \"n % 10 = 1 and n % 100 != 11 or v = 2 and f % 10 = 1 and f % 100 != 11 or v != 2 and f % 10 = 1 @integer 1, 21, 31, 41, 51, 61, 71, 81, 101, 1001, … @decimal 0.1, 1.0, 1.1, 2.1, 3.1, 4.1, 5.1, 6.1, 7.1, 10.1, 100.1, 1000.1, …\",\n        \"pluralRule-count-other\": \" @integer 2~9, 22~29, 102, 1002, … @decimal 0.2~0.9, 1.2~1.9, 10.2, 100.2, 1000.2, …\"\n      },\n      \"ps\": {\n        \"pluralRule-count-one\": \"n = 1 @integer 1 @decimal 1.0, 1.00, 1.000, 1.0000\",\n        \"pluralRule-count-other\": \" @integer 0, 2~16, 100, 1000, 10000, 100000, 1000000, … @decimal 0.0~0.9, 1.1~1.6, 10.0, 100.0, 1000.0, 10000.0, 100000.0, 1"

/-- intl_pluralrules/cldr_data/cldr_pluralrules_cardinals.json, part 59. -/
def cardinals_59 : Str := c!"000000.0, …\"\n      },\n      \"pt\": {\n        \"pluralRule-count-one\": \"i = 0..1 @integer 0, 1 @decimal 0.0~1.5\",\n        \"pluralRule-count-other\": \" @integer 2~17, 100, 1000, 10000, 100000, 1000000, … @decimal 2.0~3.5, 10.0, 100.0, 1000.0, 10000.0, 100000.0, 1000000.0, …\"\n      },\n      \"pt-PT\": {\n        \"pluralRule-count-one\": \"i = 1 and v = 0 @integer 1\",\n        \"pluralRule-count-other\": \" @integer 0, 2~16, 100, 1000, 10000, 100000, 1000000, … @decimal 0.0~1.5, 10.0, 100.0, 1000.0, 10000.0, 100000.0, 1000000.0, …\"\n      },\n      \"rm\": {\n        \"pluralRule-count-one\": \"n = 1 @integer 1 @decimal 1.0, 1.00, 1.000, 1.0000\",\n        \"pluralRule-count-other\": \" @integer 0, 2~16, 100, 1000, 10000, 100000, 1000000, … @decimal 0.0~0.9, 1.1~1.6, 10.0, 100.0, 1000.0, 10000.0, 100000.0, 1000000.0, "

/-- intl_pluralrules/cldr_data/cldr_pluralrules_cardinals.json, part 60. -/
def cardinals_60 : Str := c!"…\"\n      },\n      \"ro\": {\n        \"pluralRule-count-one\": \"i = 1 and v = 0 @integer 1\",\n        \"pluralRule-count-few\": \"v != 0 or n = 0 or n % 100 = 2..19 @integer 0, 2~16, 102, 1002, … @decimal 0.0~1.5, 10.0, 100.0, 1000.0, 10000.0, 100000.0, 1000000.0, …\",\n        \"pluralRule-count-other\": \" @integer 20~35, 100, 1000, 10000, 100000, 1000000, …\"\n      },\n      \"rof\": {\n        \"pluralRule-count-one\": \"n = 1 @integer 1 @decimal 1.0, 1.00, 1.000, 1.0000\",\n        \"pluralRule-count-other\": \" @integer 0, 2~16, 100, 1000, 10000, 100000, 1000000, … @decimal 0.0~0.9, 1.1~1.6, 10.0, 100.0, 1000.0, 10000.0, 100000.0, 1000000.0, …\"\n      },\n      \"root\": {\n        \"pluralRule-count-other\": \" @integer 0~15, 100, 1000, 10000, 100000, 1000000, … @decimal 0.0~1.5, 10.0, 100.0, 1000.0, 10000.0, 100000."

/-- intl_pluralrules/cldr_data/cldr_pluralrules_cardinals.json, part 61. -/
def cardinals_61 : Str := c!"0, 1000000.0, …\"\n      },\n      \"ru\": {\n        \"pluralRule-count-one\": \"v = 0 and i % 10 = 1 and i % 100 != 11 @integer 1, 21, 31, 41, 51, 61, 71, 81, 101, 1001, …\",\n        \"pluralRule-count-few\": \"v = 0 and i % 10 = 2..4 and i % 100 != 12..14 @integer 2~4, 22~24, 32~34, 42~44, 52~54, 62, 102, 1002, …\",\n        \"pluralRule-count-many\": \"v = 0 and i % 10 = 0 or v = 0 and i % 10 = 5..9 or v = 0 and i % 100 = 11..14 @integer 0, 5~19, 100, 1000, 10000, 100000, 1000000, …\",\n        \"pluralRule-count-other\": \"   @decimal 0.0~1.5, 10.0, 100.0, 1000.0, 10000.0, 100000.0, 1000000.0, …\"\n      },\n      \"rwk\": {\n        \"pluralRule-count-one\": \"n = 1 @integer 1 @decimal 1.0, 1.00, 1.000, 1.0000\",\n        \"pluralRule-count-other\": \" @integer 0, 2~16, 100, 1000, 10000, 100000, 1000000, … @decimal 0.0~"

/-- intl_pluralrules/cldr_data/cldr_pluralrules_cardinals.json, part 62. -/
def cardinals_62 : Str := c!"0.9, 1.1~1.6, 10.0, 100.0, 1000.0, 10000.0, 100000.0, 1000000.0, …\"\n      },\n      \"sah\": {\n        \"pluralRule-count-other\": \" @integer 0~15, 100, 1000, 10000, 100000, 1000000, … @decimal 0.0~1.5, 10.0, 100.0, 1000.0, 10000.0, 100000.0, 1000000.0, …\"\n      },\n      \"saq\": {\n        \"pluralRule-count-one\": \"n = 1 @integer 1 @decimal 1.0, 1.00, 1.000, 1.0000\",\n        \"pluralRule-count-other\": \" @integer 0, 2~16, 100, 1000, 10000, 100000, 1000000, … @decimal 0.0~0.9, 1.1~1.6, 10.0, 100.0, 1000.0, 10000.0, 100000.0, 1000000.0, …\"\n      },\n      \"sat\": {\n        \"pluralRule-count-one\": \"n = 1 @integer 1 @decimal 1.0, 1.00, 1.000, 1.0000\",\n        \"pluralRule-count-two\": \"n = 2 @integer 2 @decimal 2.0, 2.00, 2.000, 2.0000\",\n        \"pluralRule-count-other\": \" @integer 0, 3~17, 100, 1000, 10000"

/-- intl_pluralrules/cldr_data/cldr_pluralrules_cardinals.json, part 63. -/
def cardinals_63 : Str := c!", 100000, 1000000, … @decimal 0.0~0.9, 1.1~1.6, 10.0, 100.0, 1000.0, 10000.0, 100000.0, 1000000.0, …\"\n      },\n      \"sc\": {\n        \"pluralRule-count-one\": \"i = 1 and v = 0 @integer 1\",\n        \"pluralRule-count-other\": \" @integer 0, 2~16, 100, 1000, 10000, 100000, 1000000, … @decimal 0.0~1.5, 10.0, 100.0, 1000.0, 10000.0, 100000.0, 1000000.0, …\"\n      },\n      \"scn\": {\n        \"pluralRule-count-one\": \"i = 1 and v = 0 @integer 1\",\n        \"pluralRule-count-other\": \" @integer 0, 2~16, 100, 1000, 10000, 100000, 1000000, … @decimal 0.0~1.5, 10.0, 100.0, 1000.0, 10000.0, 100000.0, 1000000.0, …\"\n      },\n      \"sd\": {\n        \"pluralRule-count-one\": \"n = 1 @integer 1 @decimal 1.0, 1.00, 1.000, 1.0000\",\n        \"pluralRule-count-other\": \" @integer 0, 2~16, 100, 1000, 10000, 100000, 1000000, … @"

/-- intl_pluralrules/cldr_data/cldr_pluralrules_cardinals.json, part 64. -/
def cardinals_64 : Str := c!"decimal 0.0~0.9, 1.1~1.6, 10.0, 100.0, 1000.0, 10000.0, 100000.0, 1000000.0, …\"\n      },\n      \"sdh\": {\n        \"pluralRule-count-one\": \"n = 1 @integer 1 @decimal 1.0, 1.00, 1.000, 1.0000\",\n        \"pluralRule-count-other\": \" @integer 0, 2~16, 100, 1000, 10000, 100000, 1000000, … @decimal 0.0~0.9, 1.1~1.6, 10.0, 100.0, 1000.0, 10000.0, 100000.0, 1000000.0, …\"\n      },\n      \"se\": {\n        \"pluralRule-count-one\": \"n = 1 @integer 1 @decimal 1.0, 1.00, 1.000, 1.0000\",\n        \"pluralRule-count-two\": \"n = 2 @integer 2 @decimal 2.0, 2.00, 2.000, 2.0000\",\n        \"pluralRule-count-other\": \" @integer 0, 3~17, 100, 1000, 10000, 100000, 1000000, … @decimal 0.0~0.9, 1.1~1.6, 10.0, 100.0, 1000.0, 10000.0, 100000.0, 1000000.0, …\"\n      },\n      \"seh\": {\n        \"pluralRule-count-one\": \"n = 1 @integer"

/-- intl_pluralrules/cldr_data/cldr_pluralrules_cardinals.json, part 65. -/
def cardinals_65 : Str := c!" 1 @decimal 1.0, 1.00, 1.000, 1.0000\",\n        \"pluralRule-count-other\": \" @integer 0, 2~16, 100, 1000, 10000, 100000, 1000000, … @decimal 0.0~0.9, 1.1~1.6, 10.0, 100.0, 1000.0, 10000.0, 100000.0, 1000000.0, …\"\n      },\n      \"ses\": {\n        \"pluralRule-count-other\": \" @integer 0~15, 100, 1000, 10000, 100000, 1000000, … @decimal 0.0~1.5, 10.0, 100.0, 1000.0, 10000.0, 100000.0, 1000000.0, …\"\n      },\n      \"sg\": {\n        \"pluralRule-count-other\": \" @integer 0~15, 100, 1000, 10000, 100000, 1000000, … @decimal 0.0~1.5, 10.0, 100.0, 1000.0, 10000.0, 100000.0, 1000000.0, …\"\n      },\n      \"sh\": {\n        \"pluralRule-count-one\": \"v = 0 and i % 10 = 1 and i % 100 != 11 or f % 10 = 1 and f % 100 != 11 @integer 1, 21, 31, 41, 51, 61, 71, 81, 101, 1001, … @decimal 0.1, 1.1, 2.1, 3.1, 4.1, 5.1, 6.1"

/-- intl_pluralrules/cldr_data/cldr_pluralrules_cardinals.json, part 66. -/
def cardinals_66 : Str := c!", 7.1, 10.1, 100.1, 1000.1, …\",\n        \"pluralRule-count-few\": \"v = 0 and i % 10 = 2..4 and i % 100 != 12..14 or f % 10 = 2..4 and f % 100 != 12..14 @integer 2~4, 22~24, 32~34, 42~44, 52~54, 62, 102, 1002, … @decimal 0.2~0.4, 1.2~1.4, 2.2~2.4, 3.2~3.4, 4.2~4.4, 5.2, 10.2, 100.2, 1000.2, …\",\n        \"pluralRule-count-other\": \" @integer 0, 5~19, 100, 1000, 10000, 100000, 1000000, … @decimal 0.0, 0.5~1.0, 1.5~2.0, 2.5~2.7, 10.0, 100.0, 1000.0, 10000.0, 100000.0, 1000000.0, …\"\n      },\n      \"shi\": {\n        \"pluralRule-count-one\": \"i = 0 or n = 1 @integer 0, 1 @decimal 0.0~1.0, 0.00~0.04\",\n        \"pluralRule-count-few\": \"n = 2..10 @integer 2~10 @decimal 2.0, 3.0, 4.0, 5.0, 6.0, 7.0, 8.0, 9.0, 10.0, 2.00, 3.00, 4.00, 5.00, 6.00, 7.00, 8.00\",\n        \"pluralRule-count-other\": \" @integer 11~26"

/-- intl_pluralrules/cldr_data/cldr_pluralrules_cardinals.json, part 67. -/
def cardinals_67 : Str := c!", 100, 1000, 10000, 100000, 1000000, … @decimal 1.1~1.9, 2.1~2.7, 10.1, 100.0, 1000.0, 10000.0, 100000.0, 1000000.0, …\"\n      },\n      \"si\": {\n        \"pluralRule-count-one\": \"n = 0,1 or i = 0 and f = 1 @integer 0, 1 @decimal 0.0, 0.1, 1.0, 0.00, 0.01, 1.00, 0.000, 0.001, 1.000, 0.0000, 0.0001, 1.0000\",\n        \"pluralRule-count-other\": \" @integer 2~17, 100, 1000, 10000, 100000, 1000000, … @decimal 0.2~0.9, 1.1~1.8, 10.0, 100.0, 1000.0, 10000.0, 100000.0, 1000000.0, …\"\n      },\n      \"sk\": {\n        \"pluralRule-count-one\": \"i = 1 and v = 0 @integer 1\",\n        \"pluralRule-count-few\": \"i = 2..4 and v = 0 @integer 2~4\",\n        \"pluralRule-count-many\": \"v != 0   @decimal 0.0~1.5, 10.0, 100.0, 1000.0, 10000.0, 100000.0, 1000000.0, …\",\n        \"pluralRule-count-other\": \" @integer 0, 5~19, 100,"

/-- intl_pluralrules/cldr_data/cldr_pluralrules_cardinals.json, part 68. -/
def cardinals_68 : Str := c!" 1000, 10000, 100000, 1000000, …\"\n      },\n      \"sl\": {\n        \"pluralRule-count-one\": \"v = 0 and i % 100 = 1 @integer 1, 101, 201, 301, 401, 501, 601, 701, 1001, …\",\n        \"pluralRule-count-two\": \"v = 0 and i % 100 = 2 @integer 2, 102, 202, 302, 402, 502, 602, 702, 1002, …\",\n        \"pluralRule-count-few\": \"v = 0 and i % 100 = 3..4 or v != 0 @integer 3, 4, 103, 104, 203, 204, 303, 304, 403, 404, 503, 504, 603, 604, 703, 704, 1003, … @decimal 0.0~1.5, 10.0, 100.0, 1000.0, 10000.0, 100000.0, 1000000.0, …\",\n        \"pluralRule-count-other\": \" @integer 0, 5~19, 100, 1000, 10000, 100000, 1000000, …\"\n      },\n      \"sma\": {\n        \"pluralRule-count-one\": \"n = 1 @integer 1 @decimal 1.0, 1.00, 1.000, 1.0000\",\n        \"pluralRule-count-two\": \"n = 2 @integer 2 @decimal 2.0, 2.00, 2.000, 2.0000"

/-- intl_pluralrules/cldr_data/cldr_pluralrules_cardinals.json, part 69. -/
def cardinals_69 : Str := c!"\",\n        \"pluralRule-count-other\": \" @integer 0, 3~17, 100, 1000, 10000, 100000, 1000000, … @decimal 0.0~0.9, 1.1~1.6, 10.0, 100.0, 1000.0, 10000.0, 100000.0, 1000000.0, …\"\n      },\n      \"smi\": {\n        \"pluralRule-count-one\": \"n = 1 @integer 1 @decimal 1.0, 1.00, 1.000, 1.0000\",\n        \"pluralRule-count-two\": \"n = 2 @integer 2 @decimal 2.0, 2.00, 2.000, 2.0000\",\n        \"pluralRule-count-other\": \" @integer 0, 3~17, 100, 1000, 10000, 100000, 1000000, … @decimal 0.0~0.9, 1.1~1.6, 10.0, 100.0, 1000.0, 10000.0, 100000.0, 1000000.0, …\"\n      },\n      \"smj\": {\n        \"pluralRule-count-one\": \"n = 1 @integer 1 @decimal 1.0, 1.00, 1.000, 1.0000\",\n        \"pluralRule-count-two\": \"n = 2 @integer 2 @decimal 2.0, 2.00, 2.000, 2.0000\",\n        \"pluralRule-count-other\": \" @integer 0, 3~17, 100, 10"

/-- intl_pluralrules/cldr_data/cldr_pluralrules_cardinals.json, part 70. -/
def cardinals_70 : Str := c!"00, 10000, 100000, 1000000, … @decimal 0.0~0.9, 1.1~1.6, 10.0, 100.0, 1000.0, 10000.0, 100000.0, 1000000.0, …\"\n      },\n      \"smn\": {\n        \"pluralRule-count-one\": \"n = 1 @integer 1 @decimal 1.0, 1.00, 1.000, 1.0000\",\n        \"pluralRule-count-two\": \"n = 2 @integer 2 @decimal 2.0, 2.00, 2.000, 2.0000\",\n        \"pluralRule-count-other\": \" @integer 0, 3~17, 100, 1000, 10000, 100000, 1000000, … @decimal 0.0~0.9, 1.1~1.6, 10.0, 100.0, 1000.0, 10000.0, 100000.0, 1000000.0, …\"\n      },\n      \"sms\": {\n        \"pluralRule-count-one\": \"n = 1 @integer 1 @decimal 1.0, 1.00, 1.000, 1.0000\",\n        \"pluralRule-count-two\": \"n = 2 @integer 2 @decimal 2.0, 2.00, 2.000, 2.0000\",\n        \"pluralRule-count-other\": \" @integer 0, 3~17, 100, 1000, 10000, 100000, 1000000, … @decimal 0.0~0.9, 1.1~1.6, 10.0, 1"

/-- intl_pluralrules/cldr_data/cldr_pluralrules_cardinals.json, part 71. -/
def cardinals_71 : Str := c!"00.0, 1000.0, 10000.0, 100000.0, 1000000.0, …\"\n      },\n      \"sn\": {\n        \"pluralRule-count-one\": \"n = 1 @integer 1 @decimal 1.0, 1.00, 1.000, 1.0000\",\n        \"pluralRule-count-other\": \" @integer 0, 2~16, 100, 1000, 10000, 100000, 1000000, … @decimal 0.0~0.9, 1.1~1.6, 10.0, 100.0, 1000.0, 10000.0, 100000.0, 1000000.0, …\"\n      },\n      \"so\": {\n        \"pluralRule-count-one\": \"n = 1 @integer 1 @decimal 1.0, 1.00, 1.000, 1.0000\",\n        \"pluralRule-count-other\": \" @integer 0, 2~16, 100, 1000, 10000, 100000, 1000000, … @decimal 0.0~0.9, 1.1~1.6, 10.0, 100.0, 1000.0, 10000.0, 100000.0, 1000000.0, …\"\n      },\n      \"sq\": {\n        \"pluralRule-count-one\": \"n = 1 @integer 1 @decimal 1.0, 1.00, 1.000, 1.0000\",\n        \"pluralRule-count-other\": \" @integer 0, 2~16, 100, 1000, 10000, 100000, 10"

/-- intl_pluralrules/cldr_data/cldr_pluralrules_cardinals.json, part 72. -/
def cardinals_72 : Str := c!"00000, … @decimal 0.0~0.9, 1.1~1.6, 10.0, 100.0, 1000.0, 10000.0, 100000.0, 1000000.0, …\"\n      },\n      \"sr\": {\n        \"pluralRule-count-one\": \"v = 0 and i % 10 = 1 and i % 100 != 11 or f % 10 = 1 and f % 100 != 11 @integer 1, 21, 31, 41, 51, 61, 71, 81, 101, 1001, … @decimal 0.1, 1.1, 2.1, 3.1, 4.1, 5.1, 6.1, 7.1, 10.1, 100.1, 1000.1, …\",\n        \"pluralRule-count-few\": \"v = 0 and i % 10 = 2..4 and i % 100 != 12..14 or f % 10 = 2..4 and f % 100 != 12..14 @integer 2~4, 22~24, 32~34, 42~44, 52~54, 62, 102, 1002, … @decimal 0.2~0.4, 1.2~1.4, 2.2~2.4, 3.2~3.4, 4.2~4.4, 5.2, 10.2, 100.2, 1000.2, …\",\n        \"pluralRule-count-other\": \" @integer 0, 5~19, 100, 1000, 10000, 100000, 1000000, … @decimal 0.0, 0.5~1.0, 1.5~2.0, 2.5~2.7, 10.0, 100.0, 1000.0, 10000.0, 100000.0, 1000000.0, …\"\n      },\n"

/-- intl_pluralrules/cldr_data/cldr_pluralrules_cardinals.json, part 73. -/
def cardinals_73 : Str := c!"      \"ss\": {\n        \"pluralRule-count-one\": \"n = 1 @integer 1 @decimal 1.0, 1.00, 1.000, 1.0000\",\n        \"pluralRule-count-other\": \" @integer 0, 2~16, 100, 1000, 10000, 100000, 1000000, … @decimal 0.0~0.9, 1.1~1.6, 10.0, 100.0, 1000.0, 10000.0, 100000.0, 1000000.0, …\"\n      },\n      \"ssy\": {\n        \"pluralRule-count-one\": \"n = 1 @integer 1 @decimal 1.0, 1.00, 1.000, 1.0000\",\n        \"pluralRule-count-other\": \" @integer 0, 2~16, 100, 1000, 10000, 100000, 1000000, … @decimal 0.0~0.9, 1.1~1.6, 10.0, 100.0, 1000.0, 10000.0, 100000.0, 1000000.0, …\"\n      },\n      \"st\": {\n        \"pluralRule-count-one\": \"n = 1 @integer 1 @decimal 1.0, 1.00, 1.000, 1.0000\",\n        \"pluralRule-count-other\": \" @integer 0, 2~16, 100, 1000, 10000, 100000, 1000000, … @decimal 0.0~0.9, 1.1~1.6, 10.0, 100.0, 1000.0"

/-- intl_pluralrules/cldr_data/cldr_pluralrules_cardinals.json, part 74. -/
def cardinals_74 : Str := c!", 10000.0, 100000.0, 1000000.0, …\"\n      },\n      \"su\": {\n        \"pluralRule-count-other\": \" @integer 0~15, 100, 1000, 10000, 100000, 1000000, … @decimal 0.0~1.5, 10.0, 100.0, 1000.0, 10000.0, 100000.0, 1000000.0, …\"\n      },\n      \"sv\": {\n        \"pluralRule-count-one\": \"i = 1 and v = 0 @integer 1\",\n        \"pluralRule-count-other\": \" @integer 0, 2~16, 100, 1000, 10000, 100000, 1000000, … @decimal 0.0~1.5, 10.0, 100.0, 1000.0, 10000.0, 100000.0, 1000000.0, …\"\n      },\n      \"sw\": {\n        \"pluralRule-count-one\": \"i = 1 and v = 0 @integer 1\",\n        \"pluralRule-count-other\": \" @integer 0, 2~16, 100, 1000, 10000, 100000, 1000000, … @decimal 0.0~1.5, 10.0, 100.0, 1000.0, 10000.0, 100000.0, 1000000.0, …\"\n      },\n      \"syr\": {\n        \"pluralRule-count-one\": \"n = 1 @integer 1 @decimal 1.0"

/-- intl_pluralrules/cldr_data/cldr_pluralrules_cardinals.json, part 75. -/
def cardinals_75 : Str := c!", 1.00, 1.000, 1.0000\",\n        \"pluralRule-count-other\": \" @integer 0, 2~16, 100, 1000, 10000, 100000, 1000000, … @decimal 0.0~0.9, 1.1~1.6, 10.0, 100.0, 1000.0, 10000.0, 100000.0, 1000000.0, …\"\n      },\n      \"ta\": {\n        \"pluralRule-count-one\": \"n = 1 @integer 1 @decimal 1.0, 1.00, 1.000, 1.0000\",\n        \"pluralRule-count-other\": \" @integer 0, 2~16, 100, 1000, 10000, 100000, 1000000, … @decimal 0.0~0.9, 1.1~1.6, 10.0, 100.0, 1000.0, 10000.0, 100000.0, 1000000.0, …\"\n      },\n      \"te\": {\n        \"pluralRule-count-one\": \"n = 1 @integer 1 @decimal 1.0, 1.00, 1.000, 1.0000\",\n        \"pluralRule-count-other\": \" @integer 0, 2~16, 100, 1000, 10000, 100000, 1000000, … @decimal 0.0~0.9, 1.1~1.6, 10.0, 100.0, 1000.0, 10000.0, 100000.0, 1000000.0, …\"\n      },\n      \"teo\": {\n        \"pluralRul"

/-- intl_pluralrules/cldr_data/cldr_pluralrules_cardinals.json, part 76. -/
def cardinals_76 : Str := c!"e-count-one\": \"n = 1 @integer 1 @decimal 1.0, 1.00, 1.000, 1.0000\",\n        \"pluralRule-count-other\": \" @integer 0, 2~16, 100, 1000, 10000, 100000, 1000000, … @decimal 0.0~0.9, 1.1~1.6, 10.0, 100.0, 1000.0, 10000.0, 100000.0, 1000000.0, …\"\n      },\n      \"th\": {\n        \"pluralRule-count-other\": \" @integer 0~15, 100, 1000, 10000, 100000, 1000000, … @decimal 0.0~1.5, 10.0, 100.0, 1000.0, 10000.0, 100000.0, 1000000.0, …\"\n      },\n      \"ti\": {\n        \"pluralRule-count-one\": \"n = 0..1 @integer 0, 1 @decimal 0.0, 1.0, 0.00, 1.00, 0.000, 1.000, 0.0000, 1.0000\",\n        \"pluralRule-count-other\": \" @integer 2~17, 100, 1000, 10000, 100000, 1000000, … @decimal 0.1~0.9, 1.1~1.7, 10.0, 100.0, 1000.0, 10000.0, 100000.0, 1000000.0, …\"\n      },\n      \"tig\": {\n        \"pluralRule-count-one\": \"n = 1 @int"

/-- intl_pluralrules/cldr_data/cldr_pluralrules_cardinals.json, part 77. -/
def cardinals_77 : Str := c!"eger 1 @decimal 1.0, 1.00, 1.000, 1.0000\",\n        \"pluralRule-count-other\": \" @integer 0, 2~16, 100, 1000, 10000, 100000, 1000000, … @decimal 0.0~0.9, 1.1~1.6, 10.0, 100.0, 1000.0, 10000.0, 100000.0, 1000000.0, …\"\n      },\n      \"tk\": {\n        \"pluralRule-count-one\": \"n = 1 @integer 1 @decimal 1.0, 1.00, 1.000, 1.0000\",\n        \"pluralRule-count-other\": \" @integer 0, 2~16, 100, 1000, 10000, 100000, 1000000, … @decimal 0.0~0.9, 1.1~1.6, 10.0, 100.0, 1000.0, 10000.0, 100000.0, 1000000.0, …\"\n      },\n      \"tl\": {\n        \"pluralRule-count-one\": \"v = 0 and i = 1,2,3 or v = 0 and i % 10 != 4,6,9 or v != 0 and f % 10 != 4,6,9 @integer 0~3, 5, 7, 8, 10~13, 15, 17, 18, 20, 21, 100, 1000, 10000, 100000, 1000000, … @decimal 0.0~0.3, 0.5, 0.7, 0.8, 1.0~1.3, 1.5, 1.7, 1.8, 2.0, 2.1, 10.0, 100.0, 10"

/-- intl_pluralrules/cldr_data/cldr_pluralrules_cardinals.json, part 78. -/
def cardinals_78 : Str := c!"00.0, 10000.0, 100000.0, 1000000.0, …\",\n        \"pluralRule-count-other\": \" @integer 4, 6, 9, 14, 16, 19, 24, 26, 104, 1004, … @decimal 0.4, 0.6, 0.9, 1.4, 1.6, 1.9, 2.4, 2.6, 10.4, 100.4, 1000.4, …\"\n      },\n      \"tn\": {\n        \"pluralRule-count-one\": \"n = 1 @integer 1 @decimal 1.0, 1.00, 1.000, 1.0000\",\n        \"pluralRule-count-other\": \" @integer 0, 2~16, 100, 1000, 10000, 100000, 1000000, … @decimal 0.0~0.9, 1.1~1.6, 10.0, 100.0, 1000.0, 10000.0, 100000.0, 1000000.0, …\"\n      },\n      \"to\": {\n        \"pluralRule-count-other\": \" @integer 0~15, 100, 1000, 10000, 100000, 1000000, … @decimal 0.0~1.5, 10.0, 100.0, 1000.0, 10000.0, 100000.0, 1000000.0, …\"\n      },\n      \"tr\": {\n        \"pluralRule-count-one\": \"n = 1 @integer 1 @decimal 1.0, 1.00, 1.000, 1.0000\",\n        \"pluralRule-count-o"

/-- intl_pluralrules/cldr_data/cldr_pluralrules_cardinals.json, part 79. -/
def cardinals_79 : Str := c!"ther\": \" @integer 0, 2~16, 100, 1000, 10000, 100000, 1000000, … @decimal 0.0~0.9, 1.1~1.6, 10.0, 100.0, 1000.0, 10000.0, 100000.0, 1000000.0, …\"\n      },\n      \"ts\": {\n        \"pluralRule-count-one\": \"n = 1 @integer 1 @decimal 1.0, 1.00, 1.000, 1.0000\",\n        \"pluralRule-count-other\": \" @integer 0, 2~16, 100, 1000, 10000, 100000, 1000000, … @decimal 0.0~0.9, 1.1~1.6, 10.0, 100.0, 1000.0, 10000.0, 100000.0, 1000000.0, …\"\n      },\n      \"tzm\": {\n        \"pluralRule-count-one\": \"n = 0..1 or n = 11..99 @integer 0, 1, 11~24 @decimal 0.0, 1.0, 11.0, 12.0, 13.0, 14.0, 15.0, 16.0, 17.0, 18.0, 19.0, 20.0, 21.0, 22.0, 23.0, 24.0\",\n        \"pluralRule-count-other\": \" @integer 2~10, 100~106, 1000, 10000, 100000, 1000000, … @decimal 0.1~0.9, 1.1~1.7, 10.0, 100.0, 1000.0, 10000.0, 100000.0, 1000000.0,"

/-- intl_pluralrules/cldr_data/cldr_pluralrules_cardinals.json, part 80. -/
def cardinals_80 : Str := c!" …\"\n      },\n      \"ug\": {\n        \"pluralRule-count-one\": \"n = 1 @integer 1 @decimal 1.0, 1.00, 1.000, 1.0000\",\n        \"pluralRule-count-other\": \" @integer 0, 2~16, 100, 1000, 10000, 100000, 1000000, … @decimal 0.0~0.9, 1.1~1.6, 10.0, 100.0, 1000.0, 10000.0, 100000.0, 1000000.0, …\"\n      },\n      \"uk\": {\n        \"pluralRule-count-one\": \"v = 0 and i % 10 = 1 and i % 100 != 11 @integer 1, 21, 31, 41, 51, 61, 71, 81, 101, 1001, …\",\n        \"pluralRule-count-few\": \"v = 0 and i % 10 = 2..4 and i % 100 != 12..14 @integer 2~4, 22~24, 32~34, 42~44, 52~54, 62, 102, 1002, …\",\n        \"pluralRule-count-many\": \"v = 0 and i % 10 = 0 or v = 0 and i % 10 = 5..9 or v = 0 and i % 100 = 11..14 @integer 0, 5~19, 100, 1000, 10000, 100000, 1000000, …\",\n        \"pluralRule-count-other\": \"   @decimal 0.0~1.5, "

/-- intl_pluralrules/cldr_data/cldr_pluralrules_cardinals.json, part 81. -/
def cardinals_81 : Str := c!"10.0, 100.0, 1000.0, 10000.0, 100000.0, 1000000.0, …\"\n      },\n      \"ur\": {\n        \"pluralRule-count-one\": \"i = 1 and v = 0 @integer 1\",\n        \"pluralRule-count-other\": \" @integer 0, 2~16, 100, 1000, 10000, 100000, 1000000, … @decimal 0.0~1.5, 10.0, 100.0, 1000.0, 10000.0, 100000.0, 1000000.0, …\"\n      },\n      \"uz\": {\n        \"pluralRule-count-one\": \"n = 1 @integer 1 @decimal 1.0, 1.00, 1.000, 1.0000\",\n        \"pluralRule-count-other\": \" @integer 0, 2~16, 100, 1000, 10000, 100000, 1000000, … @decimal 0.0~0.9, 1.1~1.6, 10.0, 100.0, 1000.0, 10000.0, 100000.0, 1000000.0, …\"\n      },\n      \"ve\": {\n        \"pluralRule-count-one\": \"n = 1 @integer 1 @decimal 1.0, 1.00, 1.000, 1.0000\",\n        \"pluralRule-count-other\": \" @integer 0, 2~16, 100, 1000, 10000, 100000, 1000000, … @decimal 0.0~0.9,"

/-- intl_pluralrules/cldr_data/cldr_pluralrules_cardinals.json, part 82. -/
def cardinals_82 : Str := c!" 1.1~1.6, 10.0, 100.0, 1000.0, 10000.0, 100000.0, 1000000.0, …\"\n      },\n      \"vi\": {\n        \"pluralRule-count-other\": \" @integer 0~15, 100, 1000, 10000, 100000, 1000000, … @decimal 0.0~1.5, 10.0, 100.0, 1000.0, 10000.0, 100000.0, 1000000.0, …\"\n      },\n      \"vo\": {\n        \"pluralRule-count-one\": \"n = 1 @integer 1 @decimal 1.0, 1.00, 1.000, 1.0000\",\n        \"pluralRule-count-other\": \" @integer 0, 2~16, 100, 1000, 10000, 100000, 1000000, … @decimal 0.0~0.9, 1.1~1.6, 10.0, 100.0, 1000.0, 10000.0, 100000.0, 1000000.0, …\"\n      },\n      \"vun\": {\n        \"pluralRule-count-one\": \"n = 1 @integer 1 @decimal 1.0, 1.00, 1.000, 1.0000\",\n        \"pluralRule-count-other\": \" @integer 0, 2~16, 100, 1000, 10000, 100000, 1000000, … @decimal 0.0~0.9, 1.1~1.6, 10.0, 100.0, 1000.0, 10000.0, 100000.0, 1000"

/-- intl_pluralrules/cldr_data/cldr_pluralrules_cardinals.json, part 83. -/
def cardinals_83 : Str := c!"000.0, …\"\n      },\n      \"wa\": {\n        \"pluralRule-count-one\": \"n = 0..1 @integer 0, 1 @decimal 0.0, 1.0, 0.00, 1.00, 0.000, 1.000, 0.0000, 1.0000\",\n        \"pluralRule-count-other\": \" @integer 2~17, 100, 1000, 10000, 100000, 1000000, … @decimal 0.1~0.9, 1.1~1.7, 10.0, 100.0, 1000.0, 10000.0, 100000.0, 1000000.0, …\"\n      },\n      \"wae\": {\n        \"pluralRule-count-one\": \"n = 1 @integer 1 @decimal 1.0, 1.00, 1.000, 1.0000\",\n        \"pluralRule-count-other\": \" @integer 0, 2~16, 100, 1000, 10000, 100000, 1000000, … @decimal 0.0~0.9, 1.1~1.6, 10.0, 100.0, 1000.0, 10000.0, 100000.0, 1000000.0, …\"\n      },\n      \"wo\": {\n        \"pluralRule-count-other\": \" @integer 0~15, 100, 1000, 10000, 100000, 1000000, … @decimal 0.0~1.5, 10.0, 100.0, 1000.0, 10000.0, 100000.0, 1000000.0, …\"\n      },\n      "

/-- intl_pluralrules/cldr_data/cldr_pluralrules_cardinals.json, part 84. -/
def cardinals_84 : Str := c!"\"xh\": {\n        \"pluralRule-count-one\": \"n = 1 @integer 1 @decimal 1.0, 1.00, 1.000, 1.0000\",\n        \"pluralRule-count-other\": \" @integer 0, 2~16, 100, 1000, 10000, 100000, 1000000, … @decimal 0.0~0.9, 1.1~1.6, 10.0, 100.0, 1000.0, 10000.0, 100000.0, 1000000.0, …\"\n      },\n      \"xog\": {\n        \"pluralRule-count-one\": \"n = 1 @integer 1 @decimal 1.0, 1.00, 1.000, 1.0000\",\n        \"pluralRule-count-other\": \" @integer 0, 2~16, 100, 1000, 10000, 100000, 1000000, … @decimal 0.0~0.9, 1.1~1.6, 10.0, 100.0, 1000.0, 10000.0, 100000.0, 1000000.0, …\"\n      },\n      \"yi\": {\n        \"pluralRule-count-one\": \"i = 1 and v = 0 @integer 1\",\n        \"pluralRule-count-other\": \" @integer 0, 2~16, 100, 1000, 10000, 100000, 1000000, … @decimal 0.0~1.5, 10.0, 100.0, 1000.0, 10000.0, 100000.0, 1000000.0, …\"\n    "

/-- intl_pluralrules/cldr_data/cldr_pluralrules_cardinals.json, part 85. -/
def cardinals_85 : Str := c!"  },\n      \"yo\": {\n        \"pluralRule-count-other\": \" @integer 0~15, 100, 1000, 10000, 100000, 1000000, … @decimal 0.0~1.5, 10.0, 100.0, 1000.0, 10000.0, 100000.0, 1000000.0, …\"\n      },\n      \"yue\": {\n        \"pluralRule-count-other\": \" @integer 0~15, 100, 1000, 10000, 100000, 1000000, … @decimal 0.0~1.5, 10.0, 100.0, 1000.0, 10000.0, 100000.0, 1000000.0, …\"\n      },\n      \"zh\": {\n        \"pluralRule-count-other\": \" @integer 0~15, 100, 1000, 10000, 100000, 1000000, … @decimal 0.0~1.5, 10.0, 100.0, 1000.0, 10000.0, 100000.0, 1000000.0, …\"\n      },\n      \"zu\": {\n        \"pluralRule-count-one\": \"i = 0 or n = 1 @integer 0, 1 @decimal 0.0~1.0, 0.00~0.04\",\n        \"pluralRule-count-other\": \" @integer 2~17, 100, 1000, 10000, 100000, 1000000, … @decimal 1.1~2.6, 10.0, 100.0, 1000.0, 10000.0, 100"

/-- intl_pluralrules/cldr_data/cldr_pluralrules_cardinals.json, part 86. -/
def cardinals_86 : Str := c!"000.0, 1000000.0, …\"\n      }\n    }\n  }\n}\n"

/-- intl_pluralrules/cldr_data/cldr_pluralrules_cardinals.json. -/
def cardinals : Str := List.flatten [
  cardinals_0, cardinals_1, cardinals_2, cardinals_3, cardinals_4, cardinals_5, cardinals_6, cardinals_7,
  cardinals_8, cardinals_9, cardinals_10, cardinals_11, cardinals_12, cardinals_13, cardinals_14, cardinals_15,
  cardinals_16, cardinals_17, cardinals_18, cardinals_19, cardinals_20, cardinals_21, cardinals_22, cardinals_23,
  cardinals_24, cardinals_25, cardinals_26, cardinals_27, cardinals_28, cardinals_29, cardinals_30, cardinals_31,
  cardinals_32, cardinals_33, cardinals_34, cardinals_35, cardinals_36, cardinals_37, cardinals_38, cardinals_39,
  cardinals_40, cardinals_41, cardinals_42, cardinals_43, cardinals_44, cardinals_45, cardinals_46, cardinals_47,
  cardinals_48, cardinals_49, cardinals_50, cardinals_51, cardinals_52, cardinals_53, cardinals_54, cardinals_55,
  cardinals_56, cardinals_57, cardinals_58, cardinals_59, cardinals_60, cardinals_61, cardinals_62, cardinals_63,
  cardinals_64, cardinals_65, cardinals_66, cardinals_67, cardinals_68, cardinals_69, cardinals_70, cardinals_71,
  cardinals_72, cardinals_73, cardinals_74, cardinals_75, cardinals_76, cardinals_77, cardinals_78, cardinals_79,
  cardinals_80, cardinals_81, cardinals_82, cardinals_83, cardinals_84, cardinals_85, cardinals_86]

/-- intl_pluralrules/cldr_data/cldr_pluralrules_ordinals.json, part 0. -/
def ordinals_0 : Str := c!"{\n  \"supplemental\": {\n    \"version\": {\n      \"_unicodeVersion\": \"13.0.0\",\n      \"_cldrVersion\": \"37\"\n    },\n    \"plurals-type-ordinal\": {\n      \"af\": {\n        \"pluralRule-count-other\": \" @integer 0~15, 100, 1000, 10000, 100000, 1000000, …\"\n      },\n      \"am\": {\n        \"pluralRule-count-other\": \" @integer 0~15, 100, 1000, 10000, 100000, 1000000, …\"\n      },\n      \"an\": {\n        \"pluralRule-count-other\": \" @integer 0~15, 100, 1000, 10000, 100000, 1000000, …\"\n      },\n      \"ar\": {\n        \"pluralRule-count-other\": \" @integer 0~15, 100, 1000, 10000, 100000, 1000000, …\"\n      },\n      \"as\": {\n        \"pluralRule-count-one\": \"n = 1,5,7,8,9,10 @integer 1, 5, 7~10\",\n        \"pluralRule-count-two\": \"n = 2,3 @integer 2, 3\",\n        \"pluralRule-count-few\": \"n = 4 @integer 4\",\n        \"pluralRule"

/-- intl_pluralrules/cldr_data/cldr_pluralrules_ordinals.json, part 1. -/
def ordinals_1 : Str := c!"-count-many\": \"n = 6 @integer 6\",\n        \"pluralRule-count-other\": \" @integer 0, 11~25, 100, 1000, 10000, 100000, 1000000, …\"\n      },\n      \"az\": {\n        \"pluralRule-count-one\": \"i % 10 = 1,2,5,7,8 or i % 100 = 20,50,70,80 @integer 1, 2, 5, 7, 8, 11, 12, 15, 17, 18, 20~22, 25, 101, 1001, …\",\n        \"pluralRule-count-few\": \"i % 10 = 3,4 or i % 1000 = 100,200,300,400,500,600,700,800,900 @integer 3, 4, 13, 14, 23, 24, 33, 34, 43, 44, 53, 54, 63, 64, 73, 74, 100, 1003, …\",\n        \"pluralRule-count-many\": \"i = 0 or i % 10 = 6 or i % 100 = 40,60,90 @integer 0, 6, 16, 26, 36, 40, 46, 56, 106, 1006, …\",\n        \"pluralRule-count-other\": \" @integer 9, 10, 19, 29, 30, 39, 49, 59, 69, 79, 109, 1000, 10000, 100000, 1000000, …\"\n      },\n      \"be\": {\n        \"pluralRule-count-few\": \"n % 10 = 2,3 "

/-- intl_pluralrules/cldr_data/cldr_pluralrules_ordinals.json, part 2. -/
def ordinals_2 : Str := c!"and n % 100 != 12,13 @integer 2, 3, 22, 23, 32, 33, 42, 43, 52, 53, 62, 63, 72, 73, 82, 83, 102, 1002, …\",\n        \"pluralRule-count-other\": \" @integer 0, 1, 4~17, 100, 1000, 10000, 100000, 1000000, …\"\n      },\n      \"bg\": {\n        \"pluralRule-count-other\": \" @integer 0~15, 100, 1000, 10000, 100000, 1000000, …\"\n      },\n      \"bn\": {\n        \"pluralRule-count-one\": \"n = 1,5,7,8,9,10 @integer 1, 5, 7~10\",\n        \"pluralRule-count-two\": \"n = 2,3 @integer 2, 3\",\n        \"pluralRule-count-few\": \"n = 4 @integer 4\",\n        \"pluralRule-count-many\": \"n = 6 @integer 6\",\n        \"pluralRule-count-other\": \" @integer 0, 11~25, 100, 1000, 10000, 100000, 1000000, …\"\n      },\n      \"bs\": {\n        \"pluralRule-count-other\": \" @integer 0~15, 100, 1000, 10000, 100000, 1000000, …\"\n      },\n      \"ca\": {\n "

/-- intl_pluralrules/cldr_data/cldr_pluralrules_ordinals.json, part 3. -/
def ordinals_3 : Str := c!"       \"pluralRule-count-one\": \"n = 1,3 @integer 1, 3\",\n        \"pluralRule-count-two\": \"n = 2 @integer 2\",\n        \"pluralRule-count-few\": \"n = 4 @integer 4\",\n        \"pluralRule-count-other\": \" @integer 0, 5~19, 100, 1000, 10000, 100000, 1000000, …\"\n      },\n      \"ce\": {\n        \"pluralRule-count-other\": \" @integer 0~15, 100, 1000, 10000, 100000, 1000000, …\"\n      },\n      \"cs\": {\n        \"pluralRule-count-other\": \" @integer 0~15, 100, 1000, 10000, 100000, 1000000, …\"\n      },\n      \"cy\": {\n        \"pluralRule-count-zero\": \"n = 0,7,8,9 @integer 0, 7~9\",\n        \"pluralRule-count-one\": \"n = 1 @integer 1\",\n        \"pluralRule-count-two\": \"n = 2 @integer 2\",\n        \"pluralRule-count-few\": \"n = 3,4 @integer 3, 4\",\n        \"pluralRule-count-many\": \"n = 5,6 @integer 5, 6\",\n        \"pluralRul"

/-- intl_pluralrules/cldr_data/cldr_pluralrules_ordinals.json, part 4. -/
def ordinals_4 : Str := c!"e-count-other\": \" @integer 10~25, 100, 1000, 10000, 100000, 1000000, …\"\n      },\n      \"da\": {\n        \"pluralRule-count-other\": \" @integer 0~15, 100, 1000, 10000, 100000, 1000000, …\"\n      },\n      \"de\": {\n        \"pluralRule-count-other\": \" @integer 0~15, 100, 1000, 10000, 100000, 1000000, …\"\n      },\n      \"dsb\": {\n        \"pluralRule-count-other\": \" @integer 0~15, 100, 1000, 10000, 100000, 1000000, …\"\n      },\n      \"el\": {\n        \"pluralRule-count-other\": \" @integer 0~15, 100, 1000, 10000, 100000, 1000000, …\"\n      },\n      \"en\": {\n        \"pluralRule-count-one\": \"n % 10 = 1 and n % 100 != 11 @integer 1, 21, 31, 41, 51, 61, 71, 81, 101, 1001, …\",\n        \"pluralRule-count-two\": \"n % 10 = 2 and n % 100 != 12 @integer 2, 22, 32, 42, 52, 62, 72, 82, 102, 1002, …\",\n        \"pluralRule-co"

/-- intl_pluralrules/cldr_data/cldr_pluralrules_ordinals.json, part 5. -/
def ordinals_5 : Str := c!"unt-few\": \"n % 10 = 3 and n % 100 != 13 @integer 3, 23, 33, 43, 53, 63, 73, 83, 103, 1003, …\",\n        \"pluralRule-count-other\": \" @integer 0, 4~18, 100, 1000, 10000, 100000, 1000000, …\"\n      },\n      \"es\": {\n        \"pluralRule-count-other\": \" @integer 0~15, 100, 1000, 10000, 100000, 1000000, …\"\n      },\n      \"et\": {\n        \"pluralRule-count-other\": \" @integer 0~15, 100, 1000, 10000, 100000, 1000000, …\"\n      },\n      \"eu\": {\n        \"pluralRule-count-other\": \" @integer 0~15, 100, 1000, 10000, 100000, 1000000, …\"\n      },\n      \"fa\": {\n        \"pluralRule-count-other\": \" @integer 0~15, 100, 1000, 10000, 100000, 1000000, …\"\n      },\n      \"fi\": {\n        \"pluralRule-count-other\": \" @integer 0~15, 100, 1000, 10000, 100000, 1000000, …\"\n      },\n      \"fil\": {\n        \"pluralRule-count-one"

/-- intl_pluralrules/cldr_data/cldr_pluralrules_ordinals.json, part 6. -/
def ordinals_6 : Str := c!"\": \"n = 1 @integer 1\",\n        \"pluralRule-count-other\": \" @integer 0, 2~16, 100, 1000, 10000, 100000, 1000000, …\"\n      },\n      \"fr\": {\n        \"pluralRule-count-one\": \"n = 1 @integer 1\",\n        \"pluralRule-count-other\": \" @integer 0, 2~16, 100, 1000, 10000, 100000, 1000000, …\"\n      },\n      \"fy\": {\n        \"pluralRule-count-other\": \" @integer 0~15, 100, 1000, 10000, 100000, 1000000, …\"\n      },\n      \"ga\": {\n        \"pluralRule-count-one\": \"n = 1 @integer 1\",\n        \"pluralRule-count-other\": \" @integer 0, 2~16, 100, 1000, 10000, 100000, 1000000, …\"\n      },\n      \"gd\": {\n        \"pluralRule-count-one\": \"n = 1,11 @integer 1, 11\",\n        \"pluralRule-count-two\": \"n = 2,12 @integer 2, 12\",\n        \"pluralRule-count-few\": \"n = 3,13 @integer 3, 13\",\n        \"pluralRule-count-other\": \" @in"

/-- intl_pluralrules/cldr_data/cldr_pluralrules_ordinals.json, part 7. -/
def ordinals_7 : Str := c!"teger 0, 4~10, 14~21, 100, 1000, 10000, 100000, 1000000, …\"\n      },\n      \"gl\": {\n        \"pluralRule-count-other\": \" @integer 0~15, 100, 1000, 10000, 100000, 1000000, …\"\n      },\n      \"gsw\": {\n        \"pluralRule-count-other\": \" @integer 0~15, 100, 1000, 10000, 100000, 1000000, …\"\n      },\n      \"gu\": {\n        \"pluralRule-count-one\": \"n = 1 @integer 1\",\n        \"pluralRule-count-two\": \"n = 2,3 @integer 2, 3\",\n        \"pluralRule-count-few\": \"n = 4 @integer 4\",\n        \"pluralRule-count-many\": \"n = 6 @integer 6\",\n        \"pluralRule-count-other\": \" @integer 0, 5, 7~20, 100, 1000, 10000, 100000, 1000000, …\"\n      },\n      \"he\": {\n        \"pluralRule-count-other\": \" @integer 0~15, 100, 1000, 10000, 100000, 1000000, …\"\n      },\n      \"hi\": {\n        \"pluralRule-count-one\": \"n = 1 @integer "

/-- intl_pluralrules/cldr_data/cldr_pluralrules_ordinals.json, part 8. -/
def ordinals_8 : Str := c!"1\",\n        \"pluralRule-count-two\": \"n = 2,3 @integer 2, 3\",\n        \"pluralRule-count-few\": \"n = 4 @integer 4\",\n        \"pluralRule-count-many\": \"n = 6 @integer 6\",\n        \"pluralRule-count-other\": \" @integer 0, 5, 7~20, 100, 1000, 10000, 100000, 1000000, …\"\n      },\n      \"hr\": {\n        \"pluralRule-count-other\": \" @integer 0~15, 100, 1000, 10000, 100000, 1000000, …\"\n      },\n      \"hsb\": {\n        \"pluralRule-count-other\": \" @integer 0~15, 100, 1000, 10000, 100000, 1000000, …\"\n      },\n      \"hu\": {\n        \"pluralRule-count-one\": \"n = 1,5 @integer 1, 5\",\n        \"pluralRule-count-other\": \" @integer 0, 2~4, 6~17, 100, 1000, 10000, 100000, 1000000, …\"\n      },\n      \"hy\": {\n        \"pluralRule-count-one\": \"n = 1 @integer 1\",\n        \"pluralRule-count-other\": \" @integer 0, 2~16, 100, 100"

/-- intl_pluralrules/cldr_data/cldr_pluralrules_ordinals.json, part 9. -/
def ordinals_9 : Str := c!"0, 10000, 100000, 1000000, …\"\n      },\n      \"ia\": {\n        \"pluralRule-count-other\": \" @integer 0~15, 100, 1000, 10000, 100000, 1000000, …\"\n      },\n      \"id\": {\n        \"pluralRule-count-other\": \" @integer 0~15, 100, 1000, 10000, 100000, 1000000, …\"\n      },\n      \"in\": {\n        \"pluralRule-count-other\": \" @integer 0~15, 100, 1000, 10000, 100000, 1000000, …\"\n      },\n      \"is\": {\n        \"pluralRule-count-other\": \" @integer 0~15, 100, 1000, 10000, 100000, 1000000, …\"\n      },\n      \"it\": {\n        \"pluralRule-count-many\": \"n = 11,8,80,800 @integer 8, 11, 80, 800\",\n        \"pluralRule-count-other\": \" @integer 0~7, 9, 10, 12~17, 100, 1000, 10000, 100000, 1000000, …\"\n      },\n      \"iw\": {\n        \"pluralRule-count-other\": \" @integer 0~15, 100, 1000, 10000, 100000, 1000000, …\"\n      },\n"

/-- intl_pluralrules/cldr_data/cldr_pluralrules_ordinals.json, part 10. -/
def ordinals_10 : Str := c!"      \"ja\": {\n        \"pluralRule-count-other\": \" @integer 0~15, 100, 1000, 10000, 100000, 1000000, …\"\n      },\n      \"ka\": {\n        \"pluralRule-count-one\": \"i = 1 @integer 1\",\n        \"pluralRule-count-many\": \"i = 0 or i % 100 = 2..20,40,60,80 @integer 0, 2~16, 102, 1002, …\",\n        \"pluralRule-count-other\": \" @integer 21~36, 100, 1000, 10000, 100000, 1000000, …\"\n      },\n      \"kk\": {\n        \"pluralRule-count-many\": \"n % 10 = 6 or n % 10 = 9 or n % 10 = 0 and n != 0 @integer 6, 9, 10, 16, 19, 20, 26, 29, 30, 36, 39, 40, 100, 1000, 10000, 100000, 1000000, …\",\n        \"pluralRule-count-other\": \" @integer 0~5, 7, 8, 11~15, 17, 18, 21, 101, 1001, …\"\n      },\n      \"km\": {\n        \"pluralRule-count-other\": \" @integer 0~15, 100, 1000, 10000, 100000, 1000000, …\"\n      },\n      \"kn\": {\n      "

/-- intl_pluralrules/cldr_data/cldr_pluralrules_ordinals.json, part 11. -/
def ordinals_11 : Str := c!"  \"pluralRule-count-other\": \" @integer 0~15, 100, 1000, 10000, 100000, 1000000, …\"\n      },\n      \"ko\": {\n        \"pluralRule-count-other\": \" @integer 0~15, 100, 1000, 10000, 100000, 1000000, …\"\n      },\n      \"kw\": {\n        \"pluralRule-count-one\": \"n = 1..4 or n % 100 = 1..4,21..24,41..44,61..64,81..84 @integer 1~4, 21~24, 41~44, 61~64, 101, 1001, …\",\n        \"pluralRule-count-many\": \"n = 5 or n % 100 = 5 @integer 5, 105, 205, 305, 405, 505, 605, 705, 1005, …\",\n        \"pluralRule-count-other\": \" @integer 0, 6~20, 100, 1000, 10000, 100000, 1000000, …\"\n      },\n      \"ky\": {\n        \"pluralRule-count-other\": \" @integer 0~15, 100, 1000, 10000, 100000, 1000000, …\"\n      },\n      \"lo\": {\n        \"pluralRule-count-one\": \"n = 1 @integer 1\",\n        \"pluralRule-count-other\": \" @integer 0, 2~16,"

/-- intl_pluralrules/cldr_data/cldr_pluralrules_ordinals.json, part 12. -/
def ordinals_12 : Str := c!" 100, 1000, 10000, 100000, 1000000, …\"\n      },\n      \"lt\": {\n        \"pluralRule-count-other\": \" @integer 0~15, 100, 1000, 10000, 100000, 1000000, …\"\n      },\n      \"lv\": {\n        \"pluralRule-count-other\": \" @integer 0~15, 100, 1000, 10000, 100000, 1000000, …\"\n      },\n      \"mk\": {\n        \"pluralRule-count-one\": \"i % 10 = 1 and i % 100 != 11 @integer 1, 21, 31, 41, 51, 61, 71, 81, 101, 1001, …\",\n        \"pluralRule-count-two\": \"i % 10 = 2 and i % 100 != 12 @integer 2, 22, 32, 42, 52, 62, 72, 82, 102, 1002, …\",\n        \"pluralRule-count-many\": \"i % 10 = 7,8 and i % 100 != 17,18 @integer 7, 8, 27, 28, 37, 38, 47, 48, 57, 58, 67, 68, 77, 78, 87, 88, 107, 1007, …\",\n        \"pluralRule-count-other\": \" @integer 0, 3~6, 9~19, 100, 1000, 10000, 100000, 1000000, …\"\n      },\n      \"ml\": {\n      "

/-- intl_pluralrules/cldr_data/cldr_pluralrules_ordinals.json, part 13. -/
def ordinals_13 : Str := c!"  \"pluralRule-count-other\": \" @integer 0~15, 100, 1000, 10000, 100000, 1000000, …\"\n      },\n      \"mn\": {\n        \"pluralRule-count-other\": \" @integer 0~15, 100, 1000, 10000, 100000, 1000000, …\"\n      },\n      \"mo\": {\n        \"pluralRule-count-one\": \"n = 1 @integer 1\",\n        \"pluralRule-count-other\": \" @integer 0, 2~16, 100, 1000, 10000, 100000, 1000000, …\"\n      },\n      \"mr\": {\n        \"pluralRule-count-one\": \"n = 1 @integer 1\",\n        \"pluralRule-count-two\": \"n = 2,3 @integer 2, 3\",\n        \"pluralRule-count-few\": \"n = 4 @integer 4\",\n        \"pluralRule-count-other\": \" @integer 0, 5~19, 100, 1000, 10000, 100000, 1000000, …\"\n      },\n      \"ms\": {\n        \"pluralRule-count-one\": \"n = 1 @integer 1\",\n        \"pluralRule-count-other\": \" @integer 0, 2~16, 100, 1000, 10000, 100000, 1000000"

/-- intl_pluralrules/cldr_data/cldr_pluralrules_ordinals.json, part 14. -/
def ordinals_14 : Str := c!", …\"\n      },\n      \"my\": {\n        \"pluralRule-count-other\": \" @integer 0~15, 100, 1000, 10000, 100000, 1000000, …\"\n      },\n      \"nb\": {\n        \"pluralRule-count-other\": \" @integer 0~15, 100, 1000, 10000, 100000, 1000000, …\"\n      },\n      \"ne\": {\n        \"pluralRule-count-one\": \"n = 1..4 @integer 1~4\",\n        \"pluralRule-count-other\": \" @integer 0, 5~19, 100, 1000, 10000, 100000, 1000000, …\"\n      },\n      \"nl\": {\n        \"pluralRule-count-other\": \" @integer 0~15, 100, 1000, 10000, 100000, 1000000, …\"\n      },\n      \"or\": {\n        \"pluralRule-count-one\": \"n = 1,5,7..9 @integer 1, 5, 7~9\",\n        \"pluralRule-count-two\": \"n = 2,3 @integer 2, 3\",\n        \"pluralRule-count-few\": \"n = 4 @integer 4\",\n        \"pluralRule-count-many\": \"n = 6 @integer 6\",\n        \"pluralRule-count-other\": \""

/-- intl_pluralrules/cldr_data/cldr_pluralrules_ordinals.json, part 15. -/
def ordinals_15 : Str := c!" @integer 0, 10~24, 100, 1000, 10000, 100000, 1000000, …\"\n      },\n      \"pa\": {\n        \"pluralRule-count-other\": \" @integer 0~15, 100, 1000, 10000, 100000, 1000000, …\"\n      },\n      \"pl\": {\n        \"pluralRule-count-other\": \" @integer 0~15, 100, 1000, 10000, 100000, 1000000, …\"\n      },\n      \"prg\": {\n        \"pluralRule-count-other\": \" @integer 0~15, 100, 1000, 10000, 100000, 1000000, …\"\n      },\n      \"ps\": {\n        \"pluralRule-count-other\": \" @integer 0~15, 100, 1000, 10000, 100000, 1000000, …\"\n      },\n      \"pt\": {\n        \"pluralRule-count-other\": \" @integer 0~15, 100, 1000, 10000, 100000, 1000000, …\"\n      },\n      \"ro\": {\n        \"pluralRule-count-one\": \"n = 1 @integer 1\",\n        \"pluralRule-count-other\": \" @integer 0, 2~16, 100, 1000, 10000, 100000, 1000000, …\"\n      },\n     "

/-- intl_pluralrules/cldr_data/cldr_pluralrules_ordinals.json, part 16. -/
def ordinals_16 : Str := c!" \"root\": {\n        \"pluralRule-count-other\": \" @integer 0~15, 100, 1000, 10000, 100000, 1000000, …\"\n      },\n      \"ru\": {\n        \"pluralRule-count-other\": \" @integer 0~15, 100, 1000, 10000, 100000, 1000000, …\"\n      },\n      \"sc\": {\n        \"pluralRule-count-many\": \"n = 11,8,80,800 @integer 8, 11, 80, 800\",\n        \"pluralRule-count-other\": \" @integer 0~7, 9, 10, 12~17, 100, 1000, 10000, 100000, 1000000, …\"\n      },\n      \"scn\": {\n        \"pluralRule-count-many\": \"n = 11,8,80,800 @integer 8, 11, 80, 800\",\n        \"pluralRule-count-other\": \" @integer 0~7, 9, 10, 12~17, 100, 1000, 10000, 100000, 1000000, …\"\n      },\n      \"sd\": {\n        \"pluralRule-count-other\": \" @integer 0~15, 100, 1000, 10000, 100000, 1000000, …\"\n      },\n      \"sh\": {\n        \"pluralRule-count-other\": \" @integer 0~15,"

/-- intl_pluralrules/cldr_data/cldr_pluralrules_ordinals.json, part 17. -/
def ordinals_17 : Str := c!" 100, 1000, 10000, 100000, 1000000, …\"\n      },\n      \"si\": {\n        \"pluralRule-count-other\": \" @integer 0~15, 100, 1000, 10000, 100000, 1000000, …\"\n      },\n      \"sk\": {\n        \"pluralRule-count-other\": \" @integer 0~15, 100, 1000, 10000, 100000, 1000000, …\"\n      },\n      \"sl\": {\n        \"pluralRule-count-other\": \" @integer 0~15, 100, 1000, 10000, 100000, 1000000, …\"\n      },\n      \"sq\": {\n        \"pluralRule-count-one\": \"n = 1 @integer 1\",\n        \"pluralRule-count-many\": \"n % 10 = 4 and n % 100 != 14 @integer 4, 24, 34, 44, 54, 64, 74, 84, 104, 1004, …\",\n        \"pluralRule-count-other\": \" @integer 0, 2, 3, 5~17, 100, 1000, 10000, 100000, 1000000, …\"\n      },\n      \"sr\": {\n        \"pluralRule-count-other\": \" @integer 0~15, 100, 1000, 10000, 100000, 1000000, …\"\n      },\n      \"sv\": {"

/-- intl_pluralrules/cldr_data/cldr_pluralrules_ordinals.json, part 18. -/
def ordinals_18 : Str := c!"\n        \"pluralRule-count-one\": \"n % 10 = 1,2 and n % 100 != 11,12 @integer 1, 2, 21, 22, 31, 32, 41, 42, 51, 52, 61, 62, 71, 72, 81, 82, 101, 1001, …\",\n        \"pluralRule-count-other\": \" @integer 0, 3~17, 100, 1000, 10000, 100000, 1000000, …\"\n      },\n      \"sw\": {\n        \"pluralRule-count-other\": \" @integer 0~15, 100, 1000, 10000, 100000, 1000000, …\"\n      },\n      \"ta\": {\n        \"pluralRule-count-other\": \" @integer 0~15, 100, 1000, 10000, 100000, 1000000, …\"\n      },\n      \"te\": {\n        \"pluralRule-count-other\": \" @integer 0~15, 100, 1000, 10000, 100000, 1000000, …\"\n      },\n      \"th\": {\n        \"pluralRule-count-other\": \" @integer 0~15, 100, 1000, 10000, 100000, 1000000, …\"\n      },\n      \"tk\": {\n        \"pluralRule-count-few\": \"n % 10 = 6,9 or n = 10 @integer 6, 9, 10, 16, 19, "

/-- intl_pluralrules/cldr_data/cldr_pluralrules_ordinals.json, part 19. -/
def ordinals_19 : Str := c!"26, 29, 36, 39, 106, 1006, …\",\n        \"pluralRule-count-other\": \" @integer 0~5, 7, 8, 11~15, 17, 18, 20, 100, 1000, 10000, 100000, 1000000, …\"\n      },\n      \"tl\": {\n        \"pluralRule-count-one\": \"n = 1 @integer 1\",\n        \"pluralRule-count-other\": \" @integer 0, 2~16, 100, 1000, 10000, 100000, 1000000, …\"\n      },\n      \"tr\": {\n        \"pluralRule-count-other\": \" @integer 0~15, 100, 1000, 10000, 100000, 1000000, …\"\n      },\n      \"uk\": {\n        \"pluralRule-count-few\": \"n % 10 = 3 and n % 100 != 13 @integer 3, 23, 33, 43, 53, 63, 73, 83, 103, 1003, …\",\n        \"pluralRule-count-other\": \" @integer 0~2, 4~16, 100, 1000, 10000, 100000, 1000000, …\"\n      },\n      \"ur\": {\n        \"pluralRule-count-other\": \" @integer 0~15, 100, 1000, 10000, 100000, 1000000, …\"\n      },\n      \"uz\": {\n        "

/-- intl_pluralrules/cldr_data/cldr_pluralrules_ordinals.json, part 20. -/
def ordinals_20 : Str := c!"\"pluralRule-count-other\": \" @integer 0~15, 100, 1000, 10000, 100000, 1000000, …\"\n      },\n      \"vi\": {\n        \"pluralRule-count-one\": \"n = 1 @integer 1\",\n        \"pluralRule-count-other\": \" @integer 0, 2~16, 100, 1000, 10000, 100000, 1000000, …\"\n      },\n      \"yue\": {\n        \"pluralRule-count-other\": \" @integer 0~15, 100, 1000, 10000, 100000, 1000000, …\"\n      },\n      \"zh\": {\n        \"pluralRule-count-other\": \" @integer 0~15, 100, 1000, 10000, 100000, 1000000, …\"\n      },\n      \"zu\": {\n        \"pluralRule-count-other\": \" @integer 0~15, 100, 1000, 10000, 100000, 1000000, …\"\n      }\n    }\n  }\n}\n"

/-- intl_pluralrules/cldr_data/cldr_pluralrules_ordinals.json. -/
def ordinals : Str := List.flatten [
  ordinals_0, ordinals_1, ordinals_2, ordinals_3, ordinals_4, ordinals_5, ordinals_6, ordinals_7,
  ordinals_8, ordinals_9, ordinals_10, ordinals_11, ordinals_12, ordinals_13, ordinals_14, ordinals_15,
  ordinals_16, ordinals_17, ordinals_18, ordinals_19, ordinals_20]

end Verif.CldrText
