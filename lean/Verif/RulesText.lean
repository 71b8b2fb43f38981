import Verif.Chars

/-!
# `intl_pluralrules/src/rules.rs`, verbatim

Written by tools/gen_tables.py, in parts of 800 characters.
-/

namespace Verif.RulesText
open Verif

/-- intl_pluralrules/src/rules.rs, part 0. -/
def rules_0 : Str := c!"#![allow(unused_variables, unused_parens)]\n#![cfg_attr(feature = \"cargo-clippy\", allow(clippy::float_cmp))]\n#![cfg_attr(feature = \"cargo-clippy\", allow(clippy::unreadable_literal))]\n#![cfg_attr(feature = \"cargo-clippy\", allow(clippy::nonminimal_bool))]\nuse super::operands::PluralOperands;\nuse super::PluralCategory;\nuse unic_langid::subtags;\nuse unic_langid::LanguageIdentifier;\npub type PluralRule = fn(&PluralOperands) -> PluralCategory;\npub static CLDR_VERSION: usize = 37;\nmacro_rules! langid {\n    ( $ lang : expr , $ script : expr , $ region : expr ) => {{\n        unsafe { LanguageIdentifier::from_raw_parts_unchecked($lang, $script, $region, None) }\n    }};\n}\npub const PRS_CARDINAL: &[(LanguageIdentifier, PluralRule)] = &[\n    (\n        langid!(subtags::Language::from_raw_unchecked(26209u"

/-- intl_pluralrules/src/rules.rs, part 1. -/
def rules_1 : Str := c!"64), None, None),\n        |po| {\n            if (po.n == 1.0) {\n                PluralCategory::ONE\n            } else {\n                PluralCategory::OTHER\n            }\n        },\n    ),\n    (\n        langid!(subtags::Language::from_raw_unchecked(27489u64), None, None),\n        |po| {\n            if ((0..=1).contains(&(po.i)) && po.f == 0) {\n                PluralCategory::ONE\n            } else {\n                PluralCategory::OTHER\n            }\n        },\n    ),\n    (\n        langid!(subtags::Language::from_raw_unchecked(28001u64), None, None),\n        |po| {\n            if (po.i == 0) || (po.n == 1.0) {\n                PluralCategory::ONE\n            } else {\n                PluralCategory::OTHER\n            }\n        },\n    ),\n    (\n        langid!(subtags::Language::from_raw_unc"

/-- intl_pluralrules/src/rules.rs, part 2. -/
def rules_2 : Str := c!"hecked(28257u64), None, None),\n        |po| {\n            if (po.n == 1.0) {\n                PluralCategory::ONE\n            } else {\n                PluralCategory::OTHER\n            }\n        },\n    ),\n    (\n        langid!(subtags::Language::from_raw_unchecked(29281u64), None, None),\n        |po| {\n            if ((3..=10).contains(&(po.i))) {\n                PluralCategory::FEW\n            } else if ((11..=99).contains(&(po.i))) {\n                PluralCategory::MANY\n            } else if (po.n == 1.0) {\n                PluralCategory::ONE\n            } else if (po.n == 2.0) {\n                PluralCategory::TWO\n            } else if (po.n == 0.0) {\n                PluralCategory::ZERO\n            } else {\n                PluralCategory::OTHER\n            }\n        },\n    ),\n    (\n    "

/-- intl_pluralrules/src/rules.rs, part 3. -/
def rules_3 : Str := c!"    langid!(\n            subtags::Language::from_raw_unchecked(7565921u64),\n            None,\n            None\n        ),\n        |po| {\n            if ((3..=10).contains(&(po.i))) {\n                PluralCategory::FEW\n            } else if ((11..=99).contains(&(po.i))) {\n                PluralCategory::MANY\n            } else if (po.n == 1.0) {\n                PluralCategory::ONE\n            } else if (po.n == 2.0) {\n                PluralCategory::TWO\n            } else if (po.n == 0.0) {\n                PluralCategory::ZERO\n            } else {\n                PluralCategory::OTHER\n            }\n        },\n    ),\n    (\n        langid!(subtags::Language::from_raw_unchecked(29537u64), None, None),\n        |po| {\n            if (po.i == 0) || (po.n == 1.0) {\n                PluralCategory:"

/-- intl_pluralrules/src/rules.rs, part 4. -/
def rules_4 : Str := c!":ONE\n            } else {\n                PluralCategory::OTHER\n            }\n        },\n    ),\n    (\n        langid!(\n            subtags::Language::from_raw_unchecked(6386529u64),\n            None,\n            None\n        ),\n        |po| {\n            if (po.n == 1.0) {\n                PluralCategory::ONE\n            } else {\n                PluralCategory::OTHER\n            }\n        },\n    ),\n    (\n        langid!(\n            subtags::Language::from_raw_unchecked(7631713u64),\n            None,\n            None\n        ),\n        |po| {\n            if (po.i == 1 && po.v == 0) {\n                PluralCategory::ONE\n            } else {\n                PluralCategory::OTHER\n            }\n        },\n    ),\n    (\n        langid!(subtags::Language::from_raw_unchecked(31329u64), None, None),"

/-- intl_pluralrules/src/rules.rs, part 5. -/
def rules_5 : Str := c!"\n        |po| {\n            if (po.n == 1.0) {\n                PluralCategory::ONE\n            } else {\n                PluralCategory::OTHER\n            }\n        },\n    ),\n    (\n        langid!(subtags::Language::from_raw_unchecked(25954u64), None, None),\n        |po| {\n            if ((2..=4).contains(&(po.i)) && !(12..=14).contains(&(po.i))) {\n                PluralCategory::FEW\n            } else if (po.i % 10 == 0)\n                || ((5..=9).contains(&(po.i)))\n                || ((11..=14).contains(&(po.i)))\n            {\n                PluralCategory::MANY\n            } else if (po.i % 10 == 1 && po.i % 100 != 11) {\n                PluralCategory::ONE\n            } else {\n                PluralCategory::OTHER\n            }\n        },\n    ),\n    (\n        langid!(\n            subta"

/-- intl_pluralrules/src/rules.rs, part 6. -/
def rules_6 : Str := c!"gs::Language::from_raw_unchecked(7169378u64),\n            None,\n            None\n        ),\n        |po| {\n            if (po.n == 1.0) {\n                PluralCategory::ONE\n            } else {\n                PluralCategory::OTHER\n            }\n        },\n    ),\n    (\n        langid!(\n            subtags::Language::from_raw_unchecked(8021346u64),\n            None,\n            None\n        ),\n        |po| {\n            if (po.n == 1.0) {\n                PluralCategory::ONE\n            } else {\n                PluralCategory::OTHER\n            }\n        },\n    ),\n    (\n        langid!(subtags::Language::from_raw_unchecked(26466u64), None, None),\n        |po| {\n            if (po.n == 1.0) {\n                PluralCategory::ONE\n            } else {\n                PluralCategory::OTHER\n     "

/-- intl_pluralrules/src/rules.rs, part 7. -/
def rules_7 : Str := c!"       }\n        },\n    ),\n    (\n        langid!(\n            subtags::Language::from_raw_unchecked(7301218u64),\n            None,\n            None\n        ),\n        |po| {\n            if ((0..=1).contains(&(po.i)) && po.f == 0) {\n                PluralCategory::ONE\n            } else {\n                PluralCategory::OTHER\n            }\n        },\n    ),\n    (\n        langid!(subtags::Language::from_raw_unchecked(28002u64), None, None),\n        |po| PluralCategory::OTHER,\n    ),\n    (\n        langid!(subtags::Language::from_raw_unchecked(28258u64), None, None),\n        |po| {\n            if (po.i == 0) || (po.n == 1.0) {\n                PluralCategory::ONE\n            } else {\n                PluralCategory::OTHER\n            }\n        },\n    ),\n    (\n        langid!(subtags::Language::f"

/-- intl_pluralrules/src/rules.rs, part 8. -/
def rules_8 : Str := c!"rom_raw_unchecked(28514u64), None, None),\n        |po| PluralCategory::OTHER,\n    ),\n    (\n        langid!(subtags::Language::from_raw_unchecked(29282u64), None, None),\n        |po| {\n            if ((po.i % 10 == 9 || (3..=4).contains(&(po.i)))\n                && !(10..=19).contains(&(po.i))\n                && !(70..=79).contains(&(po.i))\n                && !(90..=99).contains(&(po.i)))\n            {\n                PluralCategory::FEW\n            } else if (po.n != 0.0 && po.i % 1000000 == 0) {\n                PluralCategory::MANY\n            } else if (po.i % 10 == 1 && po.i % 100 != 11 && po.i % 100 != 71 && po.i % 100 != 91) {\n                PluralCategory::ONE\n            } else if (po.i % 10 == 2 && po.i % 100 != 12 && po.i % 100 != 72 && po.i % 100 != 92) {\n                PluralC"

/-- intl_pluralrules/src/rules.rs, part 9. -/
def rules_9 : Str := c!"ategory::TWO\n            } else {\n                PluralCategory::OTHER\n            }\n        },\n    ),\n    (\n        langid!(\n            subtags::Language::from_raw_unchecked(7893602u64),\n            None,\n            None\n        ),\n        |po| {\n            if (po.n == 1.0) {\n                PluralCategory::ONE\n            } else {\n                PluralCategory::OTHER\n            }\n        },\n    ),\n    (\n        langid!(subtags::Language::from_raw_unchecked(29538u64), None, None),\n        |po| {\n            if (po.v == 0 && (2..=4).contains(&(po.i % 10)) && !(12..=14).contains(&(po.i % 100)))\n                || ((2..=4).contains(&(po.f % 10)) && !(12..=14).contains(&(po.f % 100)))\n            {\n                PluralCategory::FEW\n            } else if (po.v == 0 && po.i % 10 == 1 &&"

/-- intl_pluralrules/src/rules.rs, part 10. -/
def rules_10 : Str := c!" po.i % 100 != 11)\n                || (po.f % 10 == 1 && po.f % 100 != 11)\n            {\n                PluralCategory::ONE\n            } else {\n                PluralCategory::OTHER\n            }\n        },\n    ),\n    (\n        langid!(subtags::Language::from_raw_unchecked(24931u64), None, None),\n        |po| {\n            if (po.i == 1 && po.v == 0) {\n                PluralCategory::ONE\n            } else {\n                PluralCategory::OTHER\n            }\n        },\n    ),\n    (\n        langid!(subtags::Language::from_raw_unchecked(25955u64), None, None),\n        |po| {\n            if (po.n == 1.0) {\n                PluralCategory::ONE\n            } else {\n                PluralCategory::OTHER\n            }\n        },\n    ),\n    (\n        langid!(\n            subtags::Language::from_"

/-- intl_pluralrules/src/rules.rs, part 11. -/
def rules_11 : Str := c!"raw_unchecked(6448483u64),\n            None,\n            None\n        ),\n        |po| {\n            if (po.v == 0 && (po.i == 1 || po.i == 2 || po.i == 3))\n                || (po.v == 0 && po.i % 10 != 4 && po.i % 10 != 6 && po.i % 10 != 9)\n                || (po.v != 0 && po.f % 10 != 4 && po.f % 10 != 6 && po.f % 10 != 9)\n            {\n                PluralCategory::ONE\n            } else {\n                PluralCategory::OTHER\n            }\n        },\n    ),\n    (\n        langid!(\n            subtags::Language::from_raw_unchecked(6776675u64),\n            None,\n            None\n        ),\n        |po| {\n            if (po.n == 1.0) {\n                PluralCategory::ONE\n            } else {\n                PluralCategory::OTHER\n            }\n        },\n    ),\n    (\n        langid!(\n     "

/-- intl_pluralrules/src/rules.rs, part 12. -/
def rules_12 : Str := c!"       subtags::Language::from_raw_unchecked(7497827u64),\n            None,\n            None\n        ),\n        |po| {\n            if (po.n == 1.0) {\n                PluralCategory::ONE\n            } else {\n                PluralCategory::OTHER\n            }\n        },\n    ),\n    (\n        langid!(\n            subtags::Language::from_raw_unchecked(6450019u64),\n            None,\n            None\n        ),\n        |po| {\n            if (po.n == 1.0) {\n                PluralCategory::ONE\n            } else {\n                PluralCategory::OTHER\n            }\n        },\n    ),\n    (\n        langid!(subtags::Language::from_raw_unchecked(29539u64), None, None),\n        |po| {\n            if ((2..=4).contains(&(po.i)) && po.v == 0) {\n                PluralCategory::FEW\n            } else if (po"

/-- intl_pluralrules/src/rules.rs, part 13. -/
def rules_13 : Str := c!".v != 0) {\n                PluralCategory::MANY\n            } else if (po.i == 1 && po.v == 0) {\n                PluralCategory::ONE\n            } else {\n                PluralCategory::OTHER\n            }\n        },\n    ),\n    (\n        langid!(subtags::Language::from_raw_unchecked(31075u64), None, None),\n        |po| {\n            if (po.n == 3.0) {\n                PluralCategory::FEW\n            } else if (po.n == 6.0) {\n                PluralCategory::MANY\n            } else if (po.n == 1.0) {\n                PluralCategory::ONE\n            } else if (po.n == 2.0) {\n                PluralCategory::TWO\n            } else if (po.n == 0.0) {\n                PluralCategory::ZERO\n            } else {\n                PluralCategory::OTHER\n            }\n        },\n    ),\n    (\n        langid!"

/-- intl_pluralrules/src/rules.rs, part 14. -/
def rules_14 : Str := c!"(subtags::Language::from_raw_unchecked(24932u64), None, None),\n        |po| {\n            if (po.n == 1.0) || (po.t != 0 && (po.i == 0 || po.i == 1)) {\n                PluralCategory::ONE\n            } else {\n                PluralCategory::OTHER\n            }\n        },\n    ),\n    (\n        langid!(subtags::Language::from_raw_unchecked(25956u64), None, None),\n        |po| {\n            if (po.i == 1 && po.v == 0) {\n                PluralCategory::ONE\n            } else {\n                PluralCategory::OTHER\n            }\n        },\n    ),\n    (\n        langid!(\n            subtags::Language::from_raw_unchecked(6452068u64),\n            None,\n            None\n        ),\n        |po| {\n            if (po.v == 0 && (3..=4).contains(&(po.i % 100))) || ((3..=4).contains(&(po.f % 100))) {\n     "

/-- intl_pluralrules/src/rules.rs, part 15. -/
def rules_15 : Str := c!"           PluralCategory::FEW\n            } else if (po.v == 0 && po.i % 100 == 1) || (po.f % 100 == 1) {\n                PluralCategory::ONE\n            } else if (po.v == 0 && po.i % 100 == 2) || (po.f % 100 == 2) {\n                PluralCategory::TWO\n            } else {\n                PluralCategory::OTHER\n            }\n        },\n    ),\n    (\n        langid!(subtags::Language::from_raw_unchecked(30308u64), None, None),\n        |po| {\n            if (po.n == 1.0) {\n                PluralCategory::ONE\n            } else {\n                PluralCategory::OTHER\n            }\n        },\n    ),\n    (\n        langid!(subtags::Language::from_raw_unchecked(31332u64), None, None),\n        |po| PluralCategory::OTHER,\n    ),\n    (\n        langid!(subtags::Language::from_raw_unchecked(25957u64),"

/-- intl_pluralrules/src/rules.rs, part 16. -/
def rules_16 : Str := c!" None, None),\n        |po| {\n            if (po.n == 1.0) {\n                PluralCategory::ONE\n            } else {\n                PluralCategory::OTHER\n            }\n        },\n    ),\n    (\n        langid!(subtags::Language::from_raw_unchecked(27749u64), None, None),\n        |po| {\n            if (po.n == 1.0) {\n                PluralCategory::ONE\n            } else {\n                PluralCategory::OTHER\n            }\n        },\n    ),\n    (\n        langid!(subtags::Language::from_raw_unchecked(28261u64), None, None),\n        |po| {\n            if (po.i == 1 && po.v == 0) {\n                PluralCategory::ONE\n            } else {\n                PluralCategory::OTHER\n            }\n        },\n    ),\n    (\n        langid!(subtags::Language::from_raw_unchecked(28517u64), None, None),\n    "

/-- intl_pluralrules/src/rules.rs, part 17. -/
def rules_17 : Str := c!"    |po| {\n            if (po.n == 1.0) {\n                PluralCategory::ONE\n            } else {\n                PluralCategory::OTHER\n            }\n        },\n    ),\n    (\n        langid!(subtags::Language::from_raw_unchecked(29541u64), None, None),\n        |po| {\n            if (po.n == 1.0) {\n                PluralCategory::ONE\n            } else {\n                PluralCategory::OTHER\n            }\n        },\n    ),\n    (\n        langid!(subtags::Language::from_raw_unchecked(29797u64), None, None),\n        |po| {\n            if (po.i == 1 && po.v == 0) {\n                PluralCategory::ONE\n            } else {\n                PluralCategory::OTHER\n            }\n        },\n    ),\n    (\n        langid!(subtags::Language::from_raw_unchecked(30053u64), None, None),\n        |po| {\n       "

/-- intl_pluralrules/src/rules.rs, part 18. -/
def rules_18 : Str := c!"     if (po.n == 1.0) {\n                PluralCategory::ONE\n            } else {\n                PluralCategory::OTHER\n            }\n        },\n    ),\n    (\n        langid!(subtags::Language::from_raw_unchecked(24934u64), None, None),\n        |po| {\n            if (po.i == 0) || (po.n == 1.0) {\n                PluralCategory::ONE\n            } else {\n                PluralCategory::OTHER\n            }\n        },\n    ),\n    (\n        langid!(subtags::Language::from_raw_unchecked(26214u64), None, None),\n        |po| {\n            if (po.i == 0 || po.i == 1) {\n                PluralCategory::ONE\n            } else {\n                PluralCategory::OTHER\n            }\n        },\n    ),\n    (\n        langid!(subtags::Language::from_raw_unchecked(26982u64), None, None),\n        |po| {\n          "

/-- intl_pluralrules/src/rules.rs, part 19. -/
def rules_19 : Str := c!"  if (po.i == 1 && po.v == 0) {\n                PluralCategory::ONE\n            } else {\n                PluralCategory::OTHER\n            }\n        },\n    ),\n    (\n        langid!(\n            subtags::Language::from_raw_unchecked(7104870u64),\n            None,\n            None\n        ),\n        |po| {\n            if (po.v == 0 && (po.i == 1 || po.i == 2 || po.i == 3))\n                || (po.v == 0 && po.i % 10 != 4 && po.i % 10 != 6 && po.i % 10 != 9)\n                || (po.v != 0 && po.f % 10 != 4 && po.f % 10 != 6 && po.f % 10 != 9)\n            {\n                PluralCategory::ONE\n            } else {\n                PluralCategory::OTHER\n            }\n        },\n    ),\n    (\n        langid!(subtags::Language::from_raw_unchecked(28518u64), None, None),\n        |po| {\n            if ("

/-- intl_pluralrules/src/rules.rs, part 20. -/
def rules_20 : Str := c!"po.n == 1.0) {\n                PluralCategory::ONE\n            } else {\n                PluralCategory::OTHER\n            }\n        },\n    ),\n    (\n        langid!(subtags::Language::from_raw_unchecked(29286u64), None, None),\n        |po| {\n            if (po.i == 0 || po.i == 1) {\n                PluralCategory::ONE\n            } else {\n                PluralCategory::OTHER\n            }\n        },\n    ),\n    (\n        langid!(\n            subtags::Language::from_raw_unchecked(7501158u64),\n            None,\n            None\n        ),\n        |po| {\n            if (po.n == 1.0) {\n                PluralCategory::ONE\n            } else {\n                PluralCategory::OTHER\n            }\n        },\n    ),\n    (\n        langid!(subtags::Language::from_raw_unchecked(31078u64), None, None),\n "

/-- intl_pluralrules/src/rules.rs, part 21. -/
def rules_21 : Str := c!"       |po| {\n            if (po.i == 1 && po.v == 0) {\n                PluralCategory::ONE\n            } else {\n                PluralCategory::OTHER\n            }\n        },\n    ),\n    (\n        langid!(subtags::Language::from_raw_unchecked(24935u64), None, None),\n        |po| {\n            if ((3..=6).contains(&(po.i)) && po.f == 0) {\n                PluralCategory::FEW\n            } else if ((7..=10).contains(&(po.i)) && po.f == 0) {\n                PluralCategory::MANY\n            } else if (po.n == 1.0) {\n                PluralCategory::ONE\n            } else if (po.n == 2.0) {\n                PluralCategory::TWO\n            } else {\n                PluralCategory::OTHER\n            }\n        },\n    ),\n    (\n        langid!(subtags::Language::from_raw_unchecked(25703u64), None, None)"

/-- intl_pluralrules/src/rules.rs, part 22. -/
def rules_22 : Str := c!",\n        |po| {\n            if ((3..=10).contains(&(po.i)) && po.f == 0 || (13..=19).contains(&(po.i)) && po.f == 0)\n            {\n                PluralCategory::FEW\n            } else if (po.n == 1.0 || po.n == 11.0) {\n                PluralCategory::ONE\n            } else if (po.n == 2.0 || po.n == 12.0) {\n                PluralCategory::TWO\n            } else {\n                PluralCategory::OTHER\n            }\n        },\n    ),\n    (\n        langid!(subtags::Language::from_raw_unchecked(27751u64), None, None),\n        |po| {\n            if (po.i == 1 && po.v == 0) {\n                PluralCategory::ONE\n            } else {\n                PluralCategory::OTHER\n            }\n        },\n    ),\n    (\n        langid!(\n            subtags::Language::from_raw_unchecked(7828327u64),\n       "

/-- intl_pluralrules/src/rules.rs, part 23. -/
def rules_23 : Str := c!"     None,\n            None\n        ),\n        |po| {\n            if (po.n == 1.0) {\n                PluralCategory::ONE\n            } else {\n                PluralCategory::OTHER\n            }\n        },\n    ),\n    (\n        langid!(subtags::Language::from_raw_unchecked(30055u64), None, None),\n        |po| {\n            if (po.i == 0) || (po.n == 1.0) {\n                PluralCategory::ONE\n            } else {\n                PluralCategory::OTHER\n            }\n        },\n    ),\n    (\n        langid!(\n            subtags::Language::from_raw_unchecked(7828839u64),\n            None,\n            None\n        ),\n        |po| {\n            if ((0..=1).contains(&(po.i)) && po.f == 0) {\n                PluralCategory::ONE\n            } else {\n                PluralCategory::OTHER\n            }\n  "

/-- intl_pluralrules/src/rules.rs, part 24. -/
def rules_24 : Str := c!"      },\n    ),\n    (\n        langid!(subtags::Language::from_raw_unchecked(30311u64), None, None),\n        |po| {\n            if (po.v == 0\n                && (po.i % 100 == 0\n                    || po.i % 100 == 20\n                    || po.i % 100 == 40\n                    || po.i % 100 == 60\n                    || po.i % 100 == 80))\n            {\n                PluralCategory::FEW\n            } else if (po.v != 0) {\n                PluralCategory::MANY\n            } else if (po.v == 0 && po.i % 10 == 1) {\n                PluralCategory::ONE\n            } else if (po.v == 0 && po.i % 10 == 2) {\n                PluralCategory::TWO\n            } else {\n                PluralCategory::OTHER\n            }\n        },\n    ),\n    (\n        langid!(subtags::Language::from_raw_unchecked(24936u6"

/-- intl_pluralrules/src/rules.rs, part 25. -/
def rules_25 : Str := c!"4), None, None),\n        |po| {\n            if (po.n == 1.0) {\n                PluralCategory::ONE\n            } else {\n                PluralCategory::OTHER\n            }\n        },\n    ),\n    (\n        langid!(\n            subtags::Language::from_raw_unchecked(7823720u64),\n            None,\n            None\n        ),\n        |po| {\n            if (po.n == 1.0) {\n                PluralCategory::ONE\n            } else {\n                PluralCategory::OTHER\n            }\n        },\n    ),\n    (\n        langid!(subtags::Language::from_raw_unchecked(25960u64), None, None),\n        |po| {\n            if (po.v == 0 && !(0..=10).contains(&(po.i)) && po.f == 0 && po.i % 10 == 0) {\n                PluralCategory::MANY\n            } else if (po.i == 1 && po.v == 0) {\n                PluralCategor"

/-- intl_pluralrules/src/rules.rs, part 26. -/
def rules_26 : Str := c!"y::ONE\n            } else if (po.i == 2 && po.v == 0) {\n                PluralCategory::TWO\n            } else {\n                PluralCategory::OTHER\n            }\n        },\n    ),\n    (\n        langid!(subtags::Language::from_raw_unchecked(26984u64), None, None),\n        |po| {\n            if (po.i == 0) || (po.n == 1.0) {\n                PluralCategory::ONE\n            } else {\n                PluralCategory::OTHER\n            }\n        },\n    ),\n    (\n        langid!(subtags::Language::from_raw_unchecked(29288u64), None, None),\n        |po| {\n            if (po.v == 0 && (2..=4).contains(&(po.i % 10)) && !(12..=14).contains(&(po.i % 100)))\n                || ((2..=4).contains(&(po.f % 10)) && !(12..=14).contains(&(po.f % 100)))\n            {\n                PluralCategory::FEW\n       "

/-- intl_pluralrules/src/rules.rs, part 27. -/
def rules_27 : Str := c!"     } else if (po.v == 0 && po.i % 10 == 1 && po.i % 100 != 11)\n                || (po.f % 10 == 1 && po.f % 100 != 11)\n            {\n                PluralCategory::ONE\n            } else {\n                PluralCategory::OTHER\n            }\n        },\n    ),\n    (\n        langid!(\n            subtags::Language::from_raw_unchecked(6452072u64),\n            None,\n            None\n        ),\n        |po| {\n            if (po.v == 0 && (3..=4).contains(&(po.i % 100))) || ((3..=4).contains(&(po.f % 100))) {\n                PluralCategory::FEW\n            } else if (po.v == 0 && po.i % 100 == 1) || (po.f % 100 == 1) {\n                PluralCategory::ONE\n            } else if (po.v == 0 && po.i % 100 == 2) || (po.f % 100 == 2) {\n                PluralCategory::TWO\n            } else {\n         "

/-- intl_pluralrules/src/rules.rs, part 28. -/
def rules_28 : Str := c!"       PluralCategory::OTHER\n            }\n        },\n    ),\n    (\n        langid!(subtags::Language::from_raw_unchecked(30056u64), None, None),\n        |po| {\n            if (po.n == 1.0) {\n                PluralCategory::ONE\n            } else {\n                PluralCategory::OTHER\n            }\n        },\n    ),\n    (\n        langid!(subtags::Language::from_raw_unchecked(31080u64), None, None),\n        |po| {\n            if (po.i == 0 || po.i == 1) {\n                PluralCategory::ONE\n            } else {\n                PluralCategory::OTHER\n            }\n        },\n    ),\n    (\n        langid!(subtags::Language::from_raw_unchecked(24937u64), None, None),\n        |po| {\n            if (po.i == 1 && po.v == 0) {\n                PluralCategory::ONE\n            } else {\n                "

/-- intl_pluralrules/src/rules.rs, part 29. -/
def rules_29 : Str := c!"PluralCategory::OTHER\n            }\n        },\n    ),\n    (\n        langid!(subtags::Language::from_raw_unchecked(25705u64), None, None),\n        |po| PluralCategory::OTHER,\n    ),\n    (\n        langid!(subtags::Language::from_raw_unchecked(26473u64), None, None),\n        |po| PluralCategory::OTHER,\n    ),\n    (\n        langid!(subtags::Language::from_raw_unchecked(26985u64), None, None),\n        |po| PluralCategory::OTHER,\n    ),\n    (\n        langid!(subtags::Language::from_raw_unchecked(28265u64), None, None),\n        |po| PluralCategory::OTHER,\n    ),\n    (\n        langid!(subtags::Language::from_raw_unchecked(28521u64), None, None),\n        |po| {\n            if (po.i == 1 && po.v == 0) {\n                PluralCategory::ONE\n            } else {\n                PluralCategory::OTHER\n  "

/-- intl_pluralrules/src/rules.rs, part 30. -/
def rules_30 : Str := c!"          }\n        },\n    ),\n    (\n        langid!(subtags::Language::from_raw_unchecked(29545u64), None, None),\n        |po| {\n            if (po.t == 0 && po.i % 10 == 1 && po.i % 100 != 11) || (po.t != 0) {\n                PluralCategory::ONE\n            } else {\n                PluralCategory::OTHER\n            }\n        },\n    ),\n    (\n        langid!(subtags::Language::from_raw_unchecked(29801u64), None, None),\n        |po| {\n            if (po.i == 1 && po.v == 0) {\n                PluralCategory::ONE\n            } else {\n                PluralCategory::OTHER\n            }\n        },\n    ),\n    (\n        langid!(subtags::Language::from_raw_unchecked(30057u64), None, None),\n        |po| {\n            if (po.n == 1.0) {\n                PluralCategory::ONE\n            } else if (po.n "

/-- intl_pluralrules/src/rules.rs, part 31. -/
def rules_31 : Str := c!"== 2.0) {\n                PluralCategory::TWO\n            } else {\n                PluralCategory::OTHER\n            }\n        },\n    ),\n    (\n        langid!(subtags::Language::from_raw_unchecked(30569u64), None, None),\n        |po| {\n            if (po.v == 0 && !(0..=10).contains(&(po.i)) && po.f == 0 && po.i % 10 == 0) {\n                PluralCategory::MANY\n            } else if (po.i == 1 && po.v == 0) {\n                PluralCategory::ONE\n            } else if (po.i == 2 && po.v == 0) {\n                PluralCategory::TWO\n            } else {\n                PluralCategory::OTHER\n            }\n        },\n    ),\n    (\n        langid!(subtags::Language::from_raw_unchecked(24938u64), None, None),\n        |po| PluralCategory::OTHER,\n    ),\n    (\n        langid!(\n            subtags::Lang"

/-- intl_pluralrules/src/rules.rs, part 32. -/
def rules_32 : Str := c!"uage::from_raw_unchecked(7299690u64),\n            None,\n            None\n        ),\n        |po| PluralCategory::OTHER,\n    ),\n    (\n        langid!(\n            subtags::Language::from_raw_unchecked(7300970u64),\n            None,\n            None\n        ),\n        |po| {\n            if (po.n == 1.0) {\n                PluralCategory::ONE\n            } else {\n                PluralCategory::OTHER\n            }\n        },\n    ),\n    (\n        langid!(subtags::Language::from_raw_unchecked(26986u64), None, None),\n        |po| {\n            if (po.i == 1 && po.v == 0) {\n                PluralCategory::ONE\n            } else {\n                PluralCategory::OTHER\n            }\n        },\n    ),\n    (\n        langid!(\n            subtags::Language::from_raw_unchecked(6516074u64),\n            No"

/-- intl_pluralrules/src/rules.rs, part 33. -/
def rules_33 : Str := c!"ne,\n            None\n        ),\n        |po| {\n            if (po.n == 1.0) {\n                PluralCategory::ONE\n            } else {\n                PluralCategory::OTHER\n            }\n        },\n    ),\n    (\n        langid!(subtags::Language::from_raw_unchecked(30314u64), None, None),\n        |po| PluralCategory::OTHER,\n    ),\n    (\n        langid!(subtags::Language::from_raw_unchecked(30570u64), None, None),\n        |po| PluralCategory::OTHER,\n    ),\n    (\n        langid!(subtags::Language::from_raw_unchecked(24939u64), None, None),\n        |po| {\n            if (po.n == 1.0) {\n                PluralCategory::ONE\n            } else {\n                PluralCategory::OTHER\n            }\n        },\n    ),\n    (\n        langid!(\n            subtags::Language::from_raw_unchecked(6447467u64)"

/-- intl_pluralrules/src/rules.rs, part 34. -/
def rules_34 : Str := c!",\n            None,\n            None\n        ),\n        |po| {\n            if (po.i == 0 || po.i == 1) {\n                PluralCategory::ONE\n            } else {\n                PluralCategory::OTHER\n            }\n        },\n    ),\n    (\n        langid!(\n            subtags::Language::from_raw_unchecked(6971755u64),\n            None,\n            None\n        ),\n        |po| {\n            if (po.n == 1.0) {\n                PluralCategory::ONE\n            } else {\n                PluralCategory::OTHER\n            }\n        },\n    ),\n    (\n        langid!(\n            subtags::Language::from_raw_unchecked(6775659u64),\n            None,\n            None\n        ),\n        |po| {\n            if (po.n == 1.0) {\n                PluralCategory::ONE\n            } else {\n                PluralCatego"

/-- intl_pluralrules/src/rules.rs, part 35. -/
def rules_35 : Str := c!"ry::OTHER\n            }\n        },\n    ),\n    (\n        langid!(\n            subtags::Language::from_raw_unchecked(6644843u64),\n            None,\n            None\n        ),\n        |po| PluralCategory::OTHER,\n    ),\n    (\n        langid!(\n            subtags::Language::from_raw_unchecked(6382955u64),\n            None,\n            None\n        ),\n        |po| PluralCategory::OTHER,\n    ),\n    (\n        langid!(subtags::Language::from_raw_unchecked(27499u64), None, None),\n        |po| {\n            if (po.n == 1.0) {\n                PluralCategory::ONE\n            } else {\n                PluralCategory::OTHER\n            }\n        },\n    ),\n    (\n        langid!(\n            subtags::Language::from_raw_unchecked(6974315u64),\n            None,\n            None\n        ),\n        |po| {\n    "

/-- intl_pluralrules/src/rules.rs, part 36. -/
def rules_36 : Str := c!"        if (po.n == 1.0) {\n                PluralCategory::ONE\n            } else {\n                PluralCategory::OTHER\n            }\n        },\n    ),\n    (\n        langid!(subtags::Language::from_raw_unchecked(27755u64), None, None),\n        |po| {\n            if (po.n == 1.0) {\n                PluralCategory::ONE\n            } else {\n                PluralCategory::OTHER\n            }\n        },\n    ),\n    (\n        langid!(subtags::Language::from_raw_unchecked(28011u64), None, None),\n        |po| PluralCategory::OTHER,\n    ),\n    (\n        langid!(subtags::Language::from_raw_unchecked(28267u64), None, None),\n        |po| {\n            if (po.i == 0) || (po.n == 1.0) {\n                PluralCategory::ONE\n            } else {\n                PluralCategory::OTHER\n            }\n        "

/-- intl_pluralrules/src/rules.rs, part 37. -/
def rules_37 : Str := c!"},\n    ),\n    (\n        langid!(subtags::Language::from_raw_unchecked(28523u64), None, None),\n        |po| PluralCategory::OTHER,\n    ),\n    (\n        langid!(subtags::Language::from_raw_unchecked(29547u64), None, None),\n        |po| {\n            if (po.n == 1.0) {\n                PluralCategory::ONE\n            } else {\n                PluralCategory::OTHER\n            }\n        },\n    ),\n    (\n        langid!(\n            subtags::Language::from_raw_unchecked(6452075u64),\n            None,\n            None\n        ),\n        |po| {\n            if (po.n == 1.0) {\n                PluralCategory::ONE\n            } else {\n                PluralCategory::OTHER\n            }\n        },\n    ),\n    (\n        langid!(\n            subtags::Language::from_raw_unchecked(6845291u64),\n            Non"

/-- intl_pluralrules/src/rules.rs, part 38. -/
def rules_38 : Str := c!"e,\n            None\n        ),\n        |po| {\n            if (po.n == 1.0) {\n                PluralCategory::ONE\n            } else if (po.n == 0.0) {\n                PluralCategory::ZERO\n            } else {\n                PluralCategory::OTHER\n            }\n        },\n    ),\n    (\n        langid!(subtags::Language::from_raw_unchecked(30059u64), None, None),\n        |po| {\n            if (po.n == 1.0) {\n                PluralCategory::ONE\n            } else {\n                PluralCategory::OTHER\n            }\n        },\n    ),\n    (\n        langid!(subtags::Language::from_raw_unchecked(30571u64), None, None),\n        |po| {\n            if (po.i % 100 == 3\n                || po.i % 100 == 23\n                || po.i % 100 == 43\n                || po.i % 100 == 63\n                || po.i %"

/-- intl_pluralrules/src/rules.rs, part 39. -/
def rules_39 : Str := c!" 100 == 83)\n            {\n                PluralCategory::FEW\n            } else if (po.n != 1.0\n                && (po.i % 100 == 1\n                    || po.i % 100 == 21\n                    || po.i % 100 == 41\n                    || po.i % 100 == 61\n                    || po.i % 100 == 81))\n            {\n                PluralCategory::MANY\n            } else if (po.n == 1.0) {\n                PluralCategory::ONE\n            } else if (po.i % 100 == 2\n                || po.i % 100 == 22\n                || po.i % 100 == 42\n                || po.i % 100 == 62\n                || po.i % 100 == 82)\n                || (po.i % 1000 == 0\n                    && (po.i % 100000 == 40000\n                        || po.i % 100000 == 60000\n                        || po.i % 100000 == 80000\n            "

/-- intl_pluralrules/src/rules.rs, part 40. -/
def rules_40 : Str := c!"            || (1000..=20000).contains(&(po.i))))\n                || (po.n != 0.0 && po.i % 1000000 == 100000)\n            {\n                PluralCategory::TWO\n            } else if (po.n == 0.0) {\n                PluralCategory::ZERO\n            } else {\n                PluralCategory::OTHER\n            }\n        },\n    ),\n    (\n        langid!(subtags::Language::from_raw_unchecked(31083u64), None, None),\n        |po| {\n            if (po.n == 1.0) {\n                PluralCategory::ONE\n            } else {\n                PluralCategory::OTHER\n            }\n        },\n    ),\n    (\n        langid!(\n            subtags::Language::from_raw_unchecked(6775148u64),\n            None,\n            None\n        ),\n        |po| {\n            if ((po.i == 0 || po.i == 1) && po.n != 0.0) {\n          "

/-- intl_pluralrules/src/rules.rs, part 41. -/
def rules_41 : Str := c!"      PluralCategory::ONE\n            } else if (po.n == 0.0) {\n                PluralCategory::ZERO\n            } else {\n                PluralCategory::OTHER\n            }\n        },\n    ),\n    (\n        langid!(subtags::Language::from_raw_unchecked(25196u64), None, None),\n        |po| {\n            if (po.n == 1.0) {\n                PluralCategory::ONE\n            } else {\n                PluralCategory::OTHER\n            }\n        },\n    ),\n    (\n        langid!(subtags::Language::from_raw_unchecked(26476u64), None, None),\n        |po| {\n            if (po.n == 1.0) {\n                PluralCategory::ONE\n            } else {\n                PluralCategory::OTHER\n            }\n        },\n    ),\n    (\n        langid!(\n            subtags::Language::from_raw_unchecked(7629676u64),\n        "

/-- intl_pluralrules/src/rules.rs, part 42. -/
def rules_42 : Str := c!"    None,\n            None\n        ),\n        |po| PluralCategory::OTHER,\n    ),\n    (\n        langid!(subtags::Language::from_raw_unchecked(28268u64), None, None),\n        |po| {\n            if ((0..=1).contains(&(po.i)) && po.f == 0) {\n                PluralCategory::ONE\n            } else {\n                PluralCategory::OTHER\n            }\n        },\n    ),\n    (\n        langid!(subtags::Language::from_raw_unchecked(28524u64), None, None),\n        |po| PluralCategory::OTHER,\n    ),\n    (\n        langid!(subtags::Language::from_raw_unchecked(29804u64), None, None),\n        |po| {\n            if ((2..=9).contains(&(po.i)) && !(11..=19).contains(&(po.i))) {\n                PluralCategory::FEW\n            } else if (po.f != 0) {\n                PluralCategory::MANY\n            } else if ("

/-- intl_pluralrules/src/rules.rs, part 43. -/
def rules_43 : Str := c!"po.i % 10 == 1 && !(11..=19).contains(&(po.i))) {\n                PluralCategory::ONE\n            } else {\n                PluralCategory::OTHER\n            }\n        },\n    ),\n    (\n        langid!(subtags::Language::from_raw_unchecked(30316u64), None, None),\n        |po| {\n            if (po.i % 10 == 1 && po.i % 100 != 11)\n                || (po.v == 2 && po.f % 10 == 1 && po.f % 100 != 11)\n                || (po.v != 2 && po.f % 10 == 1)\n            {\n                PluralCategory::ONE\n            } else if (po.i % 10 == 0)\n                || ((11..=19).contains(&(po.i)))\n                || (po.v == 2 && (11..=19).contains(&(po.f % 100)))\n            {\n                PluralCategory::ZERO\n            } else {\n                PluralCategory::OTHER\n            }\n        },\n    ),\n    (\n"

/-- intl_pluralrules/src/rules.rs, part 44. -/
def rules_44 : Str := c!"        langid!(\n            subtags::Language::from_raw_unchecked(7561581u64),\n            None,\n            None\n        ),\n        |po| {\n            if (po.n == 1.0) {\n                PluralCategory::ONE\n            } else {\n                PluralCategory::OTHER\n            }\n        },\n    ),\n    (\n        langid!(subtags::Language::from_raw_unchecked(26477u64), None, None),\n        |po| {\n            if ((0..=1).contains(&(po.i)) && po.f == 0) {\n                PluralCategory::ONE\n            } else {\n                PluralCategory::OTHER\n            }\n        },\n    ),\n    (\n        langid!(\n            subtags::Language::from_raw_unchecked(7300973u64),\n            None,\n            None\n        ),\n        |po| {\n            if (po.n == 1.0) {\n                PluralCategory::ONE\n   "

/-- intl_pluralrules/src/rules.rs, part 45. -/
def rules_45 : Str := c!"         } else {\n                PluralCategory::OTHER\n            }\n        },\n    ),\n    (\n        langid!(subtags::Language::from_raw_unchecked(27501u64), None, None),\n        |po| {\n            if (po.v == 0 && po.i % 10 == 1 && po.i % 100 != 11)\n                || (po.f % 10 == 1 && po.f % 100 != 11)\n            {\n                PluralCategory::ONE\n            } else {\n                PluralCategory::OTHER\n            }\n        },\n    ),\n    (\n        langid!(subtags::Language::from_raw_unchecked(27757u64), None, None),\n        |po| {\n            if (po.n == 1.0) {\n                PluralCategory::ONE\n            } else {\n                PluralCategory::OTHER\n            }\n        },\n    ),\n    (\n        langid!(subtags::Language::from_raw_unchecked(28269u64), None, None),\n        |p"

/-- intl_pluralrules/src/rules.rs, part 46. -/
def rules_46 : Str := c!"o| {\n            if (po.n == 1.0) {\n                PluralCategory::ONE\n            } else {\n                PluralCategory::OTHER\n            }\n        },\n    ),\n    (\n        langid!(subtags::Language::from_raw_unchecked(28525u64), None, None),\n        |po| {\n            if (po.v != 0) || (po.n == 0.0) || ((2..=19).contains(&(po.i))) {\n                PluralCategory::FEW\n            } else if (po.i == 1 && po.v == 0) {\n                PluralCategory::ONE\n            } else {\n                PluralCategory::OTHER\n            }\n        },\n    ),\n    (\n        langid!(subtags::Language::from_raw_unchecked(29293u64), None, None),\n        |po| {\n            if (po.n == 1.0) {\n                PluralCategory::ONE\n            } else {\n                PluralCategory::OTHER\n            }\n        }"

/-- intl_pluralrules/src/rules.rs, part 47. -/
def rules_47 : Str := c!",\n    ),\n    (\n        langid!(subtags::Language::from_raw_unchecked(29549u64), None, None),\n        |po| PluralCategory::OTHER,\n    ),\n    (\n        langid!(subtags::Language::from_raw_unchecked(29805u64), None, None),\n        |po| {\n            if (po.n == 0.0) || ((2..=10).contains(&(po.i))) {\n                PluralCategory::FEW\n            } else if ((11..=19).contains(&(po.i))) {\n                PluralCategory::MANY\n            } else if (po.n == 1.0) {\n                PluralCategory::ONE\n            } else {\n                PluralCategory::OTHER\n            }\n        },\n    ),\n    (\n        langid!(subtags::Language::from_raw_unchecked(31085u64), None, None),\n        |po| PluralCategory::OTHER,\n    ),\n    (\n        langid!(\n            subtags::Language::from_raw_unchecked(6840686u64"

/-- intl_pluralrules/src/rules.rs, part 48. -/
def rules_48 : Str := c!"),\n            None,\n            None\n        ),\n        |po| {\n            if (po.n == 1.0) {\n                PluralCategory::ONE\n            } else {\n                PluralCategory::OTHER\n            }\n        },\n    ),\n    (\n        langid!(\n            subtags::Language::from_raw_unchecked(7430510u64),\n            None,\n            None\n        ),\n        |po| {\n            if (po.n == 1.0) {\n                PluralCategory::ONE\n            } else if (po.n == 2.0) {\n                PluralCategory::TWO\n            } else {\n                PluralCategory::OTHER\n            }\n        },\n    ),\n    (\n        langid!(subtags::Language::from_raw_unchecked(25198u64), None, None),\n        |po| {\n            if (po.n == 1.0) {\n                PluralCategory::ONE\n            } else {\n            "

/-- intl_pluralrules/src/rules.rs, part 49. -/
def rules_49 : Str := c!"    PluralCategory::OTHER\n            }\n        },\n    ),\n    (\n        langid!(subtags::Language::from_raw_unchecked(25710u64), None, None),\n        |po| {\n            if (po.n == 1.0) {\n                PluralCategory::ONE\n            } else {\n                PluralCategory::OTHER\n            }\n        },\n    ),\n    (\n        langid!(subtags::Language::from_raw_unchecked(25966u64), None, None),\n        |po| {\n            if (po.n == 1.0) {\n                PluralCategory::ONE\n            } else {\n                PluralCategory::OTHER\n            }\n        },\n    ),\n    (\n        langid!(subtags::Language::from_raw_unchecked(27758u64), None, None),\n        |po| {\n            if (po.i == 1 && po.v == 0) {\n                PluralCategory::ONE\n            } else {\n                PluralCategory"

/-- intl_pluralrules/src/rules.rs, part 50. -/
def rules_50 : Str := c!"::OTHER\n            }\n        },\n    ),\n    (\n        langid!(subtags::Language::from_raw_unchecked(28270u64), None, None),\n        |po| {\n            if (po.n == 1.0) {\n                PluralCategory::ONE\n            } else {\n                PluralCategory::OTHER\n            }\n        },\n    ),\n    (\n        langid!(\n            subtags::Language::from_raw_unchecked(6844014u64),\n            None,\n            None\n        ),\n        |po| {\n            if (po.n == 1.0) {\n                PluralCategory::ONE\n            } else {\n                PluralCategory::OTHER\n            }\n        },\n    ),\n    (\n        langid!(subtags::Language::from_raw_unchecked(28526u64), None, None),\n        |po| {\n            if (po.n == 1.0) {\n                PluralCategory::ONE\n            } else {\n           "

/-- intl_pluralrules/src/rules.rs, part 51. -/
def rules_51 : Str := c!"     PluralCategory::OTHER\n            }\n        },\n    ),\n    (\n        langid!(\n            subtags::Language::from_raw_unchecked(7303534u64),\n            None,\n            None\n        ),\n        |po| PluralCategory::OTHER,\n    ),\n    (\n        langid!(subtags::Language::from_raw_unchecked(29294u64), None, None),\n        |po| {\n            if (po.n == 1.0) {\n                PluralCategory::ONE\n            } else {\n                PluralCategory::OTHER\n            }\n        },\n    ),\n    (\n        langid!(\n            subtags::Language::from_raw_unchecked(7304046u64),\n            None,\n            None\n        ),\n        |po| {\n            if ((0..=1).contains(&(po.i)) && po.f == 0) {\n                PluralCategory::ONE\n            } else {\n                PluralCategory::OTHER\n         "

/-- intl_pluralrules/src/rules.rs, part 52. -/
def rules_52 : Str := c!"   }\n        },\n    ),\n    (\n        langid!(subtags::Language::from_raw_unchecked(31086u64), None, None),\n        |po| {\n            if (po.n == 1.0) {\n                PluralCategory::ONE\n            } else {\n                PluralCategory::OTHER\n            }\n        },\n    ),\n    (\n        langid!(\n            subtags::Language::from_raw_unchecked(7240046u64),\n            None,\n            None\n        ),\n        |po| {\n            if (po.n == 1.0) {\n                PluralCategory::ONE\n            } else {\n                PluralCategory::OTHER\n            }\n        },\n    ),\n    (\n        langid!(subtags::Language::from_raw_unchecked(28015u64), None, None),\n        |po| {\n            if (po.n == 1.0) {\n                PluralCategory::ONE\n            } else {\n                PluralCatego"

/-- intl_pluralrules/src/rules.rs, part 53. -/
def rules_53 : Str := c!"ry::OTHER\n            }\n        },\n    ),\n    (\n        langid!(subtags::Language::from_raw_unchecked(29295u64), None, None),\n        |po| {\n            if (po.n == 1.0) {\n                PluralCategory::ONE\n            } else {\n                PluralCategory::OTHER\n            }\n        },\n    ),\n    (\n        langid!(subtags::Language::from_raw_unchecked(29551u64), None, None),\n        |po| {\n            if (po.n == 1.0) {\n                PluralCategory::ONE\n            } else {\n                PluralCategory::OTHER\n            }\n        },\n    ),\n    (\n        langid!(\n            subtags::Language::from_raw_unchecked(6386543u64),\n            None,\n            None\n        ),\n        |po| PluralCategory::OTHER,\n    ),\n    (\n        langid!(subtags::Language::from_raw_unchecked(24944u64)"

/-- intl_pluralrules/src/rules.rs, part 54. -/
def rules_54 : Str := c!", None, None),\n        |po| {\n            if ((0..=1).contains(&(po.i)) && po.f == 0) {\n                PluralCategory::ONE\n            } else {\n                PluralCategory::OTHER\n            }\n        },\n    ),\n    (\n        langid!(\n            subtags::Language::from_raw_unchecked(7364976u64),\n            None,\n            None\n        ),\n        |po| {\n            if (po.n == 1.0) {\n                PluralCategory::ONE\n            } else {\n                PluralCategory::OTHER\n            }\n        },\n    ),\n    (\n        langid!(\n            subtags::Language::from_raw_unchecked(7168880u64),\n            None,\n            None\n        ),\n        |po| {\n            if (po.i == 0) || (po.n == 1.0) {\n                PluralCategory::ONE\n            } else {\n                PluralCategory"

/-- intl_pluralrules/src/rules.rs, part 55. -/
def rules_55 : Str := c!"::OTHER\n            }\n        },\n    ),\n    (\n        langid!(subtags::Language::from_raw_unchecked(27760u64), None, None),\n        |po| {\n            if (po.v == 0 && (2..=4).contains(&(po.i % 10)) && !(12..=14).contains(&(po.i % 100))) {\n                PluralCategory::FEW\n            } else if (po.v == 0 && po.i != 1 && (0..=1).contains(&(po.i % 10)))\n                || (po.v == 0 && (5..=9).contains(&(po.i % 10)))\n                || (po.v == 0 && (12..=14).contains(&(po.i % 100)))\n            {\n                PluralCategory::MANY\n            } else if (po.i == 1 && po.v == 0) {\n                PluralCategory::ONE\n            } else {\n                PluralCategory::OTHER\n            }\n        },\n    ),\n    (\n        langid!(\n            subtags::Language::from_raw_unchecked(6779504u64"

/-- intl_pluralrules/src/rules.rs, part 56. -/
def rules_56 : Str := c!"),\n            None,\n            None\n        ),\n        |po| {\n            if (po.i % 10 == 1 && po.i % 100 != 11)\n                || (po.v == 2 && po.f % 10 == 1 && po.f % 100 != 11)\n                || (po.v != 2 && po.f % 10 == 1)\n            {\n                PluralCategory::ONE\n            } else if (po.i % 10 == 0)\n                || ((11..=19).contains(&(po.i)))\n                || (po.v == 2 && (11..=19).contains(&(po.f % 100)))\n            {\n                PluralCategory::ZERO\n            } else {\n                PluralCategory::OTHER\n            }\n        },\n    ),\n    (\n        langid!(subtags::Language::from_raw_unchecked(29552u64), None, None),\n        |po| {\n            if (po.n == 1.0) {\n                PluralCategory::ONE\n            } else {\n                PluralCategory:"

/-- intl_pluralrules/src/rules.rs, part 57. -/
def rules_57 : Str := c!":OTHER\n            }\n        },\n    ),\n    (\n        langid!(subtags::Language::from_raw_unchecked(29808u64), None, None),\n        |po| {\n            if ((0..=1).contains(&(po.i))) {\n                PluralCategory::ONE\n            } else {\n                PluralCategory::OTHER\n            }\n        },\n    ),\n    (\n        langid!(\n            subtags::Language::from_raw_unchecked(29808u64),\n            None,\n            Some(subtags::Region::from_raw_unchecked(21584u32))\n        ),\n        |po| {\n            if (po.i == 1 && po.v == 0) {\n                PluralCategory::ONE\n            } else {\n                PluralCategory::OTHER\n            }\n        },\n    ),\n    (\n        langid!(subtags::Language::from_raw_unchecked(28018u64), None, None),\n        |po| {\n            if (po.n == 1.0) {"

/-- intl_pluralrules/src/rules.rs, part 58. -/
def rules_58 : Str := c!"\n                PluralCategory::ONE\n            } else {\n                PluralCategory::OTHER\n            }\n        },\n    ),\n    (\n        langid!(subtags::Language::from_raw_unchecked(28530u64), None, None),\n        |po| {\n            if (po.v != 0) || (po.n == 0.0) || ((2..=19).contains(&(po.i))) {\n                PluralCategory::FEW\n            } else if (po.i == 1 && po.v == 0) {\n                PluralCategory::ONE\n            } else {\n                PluralCategory::OTHER\n            }\n        },\n    ),\n    (\n        langid!(\n            subtags::Language::from_raw_unchecked(6713202u64),\n            None,\n            None\n        ),\n        |po| {\n            if (po.n == 1.0) {\n                PluralCategory::ONE\n            } else {\n                PluralCategory::OTHER\n          "

/-- intl_pluralrules/src/rules.rs, part 59. -/
def rules_59 : Str := c!"  }\n        },\n    ),\n    (\n        langid!(subtags::Language::from_raw_unchecked(30066u64), None, None),\n        |po| {\n            if (po.v == 0 && (2..=4).contains(&(po.i % 10)) && !(12..=14).contains(&(po.i % 100))) {\n                PluralCategory::FEW\n            } else if (po.v == 0 && po.i % 10 == 0)\n                || (po.v == 0 && (5..=9).contains(&(po.i % 10)))\n                || (po.v == 0 && (11..=14).contains(&(po.i % 100)))\n            {\n                PluralCategory::MANY\n            } else if (po.v == 0 && po.i % 10 == 1 && po.i % 100 != 11) {\n                PluralCategory::ONE\n            } else {\n                PluralCategory::OTHER\n            }\n        },\n    ),\n    (\n        langid!(\n            subtags::Language::from_raw_unchecked(7042930u64),\n            None,\n "

/-- intl_pluralrules/src/rules.rs, part 60. -/
def rules_60 : Str := c!"           None\n        ),\n        |po| {\n            if (po.n == 1.0) {\n                PluralCategory::ONE\n            } else {\n                PluralCategory::OTHER\n            }\n        },\n    ),\n    (\n        langid!(\n            subtags::Language::from_raw_unchecked(6840691u64),\n            None,\n            None\n        ),\n        |po| PluralCategory::OTHER,\n    ),\n    (\n        langid!(\n            subtags::Language::from_raw_unchecked(7430515u64),\n            None,\n            None\n        ),\n        |po| {\n            if (po.n == 1.0) {\n                PluralCategory::ONE\n            } else {\n                PluralCategory::OTHER\n            }\n        },\n    ),\n    (\n        langid!(\n            subtags::Language::from_raw_unchecked(7627123u64),\n            None,\n            None"

/-- intl_pluralrules/src/rules.rs, part 61. -/
def rules_61 : Str := c!"\n        ),\n        |po| {\n            if (po.n == 1.0) {\n                PluralCategory::ONE\n            } else if (po.n == 2.0) {\n                PluralCategory::TWO\n            } else {\n                PluralCategory::OTHER\n            }\n        },\n    ),\n    (\n        langid!(subtags::Language::from_raw_unchecked(25459u64), None, None),\n        |po| {\n            if (po.i == 1 && po.v == 0) {\n                PluralCategory::ONE\n            } else {\n                PluralCategory::OTHER\n            }\n        },\n    ),\n    (\n        langid!(\n            subtags::Language::from_raw_unchecked(7234419u64),\n            None,\n            None\n        ),\n        |po| {\n            if (po.i == 1 && po.v == 0) {\n                PluralCategory::ONE\n            } else {\n                PluralCateg"

/-- intl_pluralrules/src/rules.rs, part 62. -/
def rules_62 : Str := c!"ory::OTHER\n            }\n        },\n    ),\n    (\n        langid!(subtags::Language::from_raw_unchecked(25715u64), None, None),\n        |po| {\n            if (po.n == 1.0) {\n                PluralCategory::ONE\n            } else {\n                PluralCategory::OTHER\n            }\n        },\n    ),\n    (\n        langid!(\n            subtags::Language::from_raw_unchecked(6841459u64),\n            None,\n            None\n        ),\n        |po| {\n            if (po.n == 1.0) {\n                PluralCategory::ONE\n            } else {\n                PluralCategory::OTHER\n            }\n        },\n    ),\n    (\n        langid!(subtags::Language::from_raw_unchecked(25971u64), None, None),\n        |po| {\n            if (po.n == 1.0) {\n                PluralCategory::ONE\n            } else if (po.n ="

/-- intl_pluralrules/src/rules.rs, part 63. -/
def rules_63 : Str := c!"= 2.0) {\n                PluralCategory::TWO\n            } else {\n                PluralCategory::OTHER\n            }\n        },\n    ),\n    (\n        langid!(\n            subtags::Language::from_raw_unchecked(6841715u64),\n            None,\n            None\n        ),\n        |po| {\n            if (po.n == 1.0) {\n                PluralCategory::ONE\n            } else {\n                PluralCategory::OTHER\n            }\n        },\n    ),\n    (\n        langid!(\n            subtags::Language::from_raw_unchecked(7562611u64),\n            None,\n            None\n        ),\n        |po| PluralCategory::OTHER,\n    ),\n    (\n        langid!(subtags::Language::from_raw_unchecked(26483u64), None, None),\n        |po| PluralCategory::OTHER,\n    ),\n    (\n        langid!(subtags::Language::from_raw_uncheck"

/-- intl_pluralrules/src/rules.rs, part 64. -/
def rules_64 : Str := c!"ed(26739u64), None, None),\n        |po| {\n            if (po.v == 0 && (2..=4).contains(&(po.i % 10)) && !(12..=14).contains(&(po.i % 100)))\n                || ((2..=4).contains(&(po.f % 10)) && !(12..=14).contains(&(po.f % 100)))\n            {\n                PluralCategory::FEW\n            } else if (po.v == 0 && po.i % 10 == 1 && po.i % 100 != 11)\n                || (po.f % 10 == 1 && po.f % 100 != 11)\n            {\n                PluralCategory::ONE\n            } else {\n                PluralCategory::OTHER\n            }\n        },\n    ),\n    (\n        langid!(\n            subtags::Language::from_raw_unchecked(6908019u64),\n            None,\n            None\n        ),\n        |po| {\n            if ((2..=10).contains(&(po.i)) && po.f == 0) {\n                PluralCategory::FEW\n        "

/-- intl_pluralrules/src/rules.rs, part 65. -/
def rules_65 : Str := c!"    } else if (po.i == 0) || (po.n == 1.0) {\n                PluralCategory::ONE\n            } else {\n                PluralCategory::OTHER\n            }\n        },\n    ),\n    (\n        langid!(subtags::Language::from_raw_unchecked(26995u64), None, None),\n        |po| {\n            if (po.n == 0.0 || po.n == 1.0) || (po.i == 0 && po.f == 1) {\n                PluralCategory::ONE\n            } else {\n                PluralCategory::OTHER\n            }\n        },\n    ),\n    (\n        langid!(subtags::Language::from_raw_unchecked(27507u64), None, None),\n        |po| {\n            if ((2..=4).contains(&(po.i)) && po.v == 0) {\n                PluralCategory::FEW\n            } else if (po.v != 0) {\n                PluralCategory::MANY\n            } else if (po.i == 1 && po.v == 0) {\n             "

/-- intl_pluralrules/src/rules.rs, part 66. -/
def rules_66 : Str := c!"   PluralCategory::ONE\n            } else {\n                PluralCategory::OTHER\n            }\n        },\n    ),\n    (\n        langid!(subtags::Language::from_raw_unchecked(27763u64), None, None),\n        |po| {\n            if (po.v == 0 && (3..=4).contains(&(po.i % 100))) || (po.v != 0) {\n                PluralCategory::FEW\n            } else if (po.v == 0 && po.i % 100 == 1) {\n                PluralCategory::ONE\n            } else if (po.v == 0 && po.i % 100 == 2) {\n                PluralCategory::TWO\n            } else {\n                PluralCategory::OTHER\n            }\n        },\n    ),\n    (\n        langid!(\n            subtags::Language::from_raw_unchecked(6385011u64),\n            None,\n            None\n        ),\n        |po| {\n            if (po.n == 1.0) {\n                Plura"

/-- intl_pluralrules/src/rules.rs, part 67. -/
def rules_67 : Str := c!"lCategory::ONE\n            } else if (po.n == 2.0) {\n                PluralCategory::TWO\n            } else {\n                PluralCategory::OTHER\n            }\n        },\n    ),\n    (\n        langid!(\n            subtags::Language::from_raw_unchecked(6909299u64),\n            None,\n            None\n        ),\n        |po| {\n            if (po.n == 1.0) {\n                PluralCategory::ONE\n            } else if (po.n == 2.0) {\n                PluralCategory::TWO\n            } else {\n                PluralCategory::OTHER\n            }\n        },\n    ),\n    (\n        langid!(\n            subtags::Language::from_raw_unchecked(6974835u64),\n            None,\n            None\n        ),\n        |po| {\n            if (po.n == 1.0) {\n                PluralCategory::ONE\n            } else if (po.n"

/-- intl_pluralrules/src/rules.rs, part 68. -/
def rules_68 : Str := c!" == 2.0) {\n                PluralCategory::TWO\n            } else {\n                PluralCategory::OTHER\n            }\n        },\n    ),\n    (\n        langid!(\n            subtags::Language::from_raw_unchecked(7236979u64),\n            None,\n            None\n        ),\n        |po| {\n            if (po.n == 1.0) {\n                PluralCategory::ONE\n            } else if (po.n == 2.0) {\n                PluralCategory::TWO\n            } else {\n                PluralCategory::OTHER\n            }\n        },\n    ),\n    (\n        langid!(\n            subtags::Language::from_raw_unchecked(7564659u64),\n            None,\n            None\n        ),\n        |po| {\n            if (po.n == 1.0) {\n                PluralCategory::ONE\n            } else if (po.n == 2.0) {\n                PluralCategory:"

/-- intl_pluralrules/src/rules.rs, part 69. -/
def rules_69 : Str := c!":TWO\n            } else {\n                PluralCategory::OTHER\n            }\n        },\n    ),\n    (\n        langid!(subtags::Language::from_raw_unchecked(28275u64), None, None),\n        |po| {\n            if (po.n == 1.0) {\n                PluralCategory::ONE\n            } else {\n                PluralCategory::OTHER\n            }\n        },\n    ),\n    (\n        langid!(subtags::Language::from_raw_unchecked(28531u64), None, None),\n        |po| {\n            if (po.n == 1.0) {\n                PluralCategory::ONE\n            } else {\n                PluralCategory::OTHER\n            }\n        },\n    ),\n    (\n        langid!(subtags::Language::from_raw_unchecked(29043u64), None, None),\n        |po| {\n            if (po.n == 1.0) {\n                PluralCategory::ONE\n            } else {\n   "

/-- intl_pluralrules/src/rules.rs, part 70. -/
def rules_70 : Str := c!"             PluralCategory::OTHER\n            }\n        },\n    ),\n    (\n        langid!(subtags::Language::from_raw_unchecked(29299u64), None, None),\n        |po| {\n            if (po.v == 0 && (2..=4).contains(&(po.i % 10)) && !(12..=14).contains(&(po.i % 100)))\n                || ((2..=4).contains(&(po.f % 10)) && !(12..=14).contains(&(po.f % 100)))\n            {\n                PluralCategory::FEW\n            } else if (po.v == 0 && po.i % 10 == 1 && po.i % 100 != 11)\n                || (po.f % 10 == 1 && po.f % 100 != 11)\n            {\n                PluralCategory::ONE\n            } else {\n                PluralCategory::OTHER\n            }\n        },\n    ),\n    (\n        langid!(subtags::Language::from_raw_unchecked(29555u64), None, None),\n        |po| {\n            if (po.n == 1.0"

/-- intl_pluralrules/src/rules.rs, part 71. -/
def rules_71 : Str := c!") {\n                PluralCategory::ONE\n            } else {\n                PluralCategory::OTHER\n            }\n        },\n    ),\n    (\n        langid!(\n            subtags::Language::from_raw_unchecked(7959411u64),\n            None,\n            None\n        ),\n        |po| {\n            if (po.n == 1.0) {\n                PluralCategory::ONE\n            } else {\n                PluralCategory::OTHER\n            }\n        },\n    ),\n    (\n        langid!(subtags::Language::from_raw_unchecked(29811u64), None, None),\n        |po| {\n            if (po.n == 1.0) {\n                PluralCategory::ONE\n            } else {\n                PluralCategory::OTHER\n            }\n        },\n    ),\n    (\n        langid!(subtags::Language::from_raw_unchecked(30067u64), None, None),\n        |po| PluralCate"

/-- intl_pluralrules/src/rules.rs, part 72. -/
def rules_72 : Str := c!"gory::OTHER,\n    ),\n    (\n        langid!(subtags::Language::from_raw_unchecked(30323u64), None, None),\n        |po| {\n            if (po.i == 1 && po.v == 0) {\n                PluralCategory::ONE\n            } else {\n                PluralCategory::OTHER\n            }\n        },\n    ),\n    (\n        langid!(subtags::Language::from_raw_unchecked(30579u64), None, None),\n        |po| {\n            if (po.i == 1 && po.v == 0) {\n                PluralCategory::ONE\n            } else {\n                PluralCategory::OTHER\n            }\n        },\n    ),\n    (\n        langid!(\n            subtags::Language::from_raw_unchecked(7502195u64),\n            None,\n            None\n        ),\n        |po| {\n            if (po.n == 1.0) {\n                PluralCategory::ONE\n            } else {\n         "

/-- intl_pluralrules/src/rules.rs, part 73. -/
def rules_73 : Str := c!"       PluralCategory::OTHER\n            }\n        },\n    ),\n    (\n        langid!(subtags::Language::from_raw_unchecked(24948u64), None, None),\n        |po| {\n            if (po.n == 1.0) {\n                PluralCategory::ONE\n            } else {\n                PluralCategory::OTHER\n            }\n        },\n    ),\n    (\n        langid!(subtags::Language::from_raw_unchecked(25972u64), None, None),\n        |po| {\n            if (po.n == 1.0) {\n                PluralCategory::ONE\n            } else {\n                PluralCategory::OTHER\n            }\n        },\n    ),\n    (\n        langid!(\n            subtags::Language::from_raw_unchecked(7300468u64),\n            None,\n            None\n        ),\n        |po| {\n            if (po.n == 1.0) {\n                PluralCategory::ONE\n           "

/-- intl_pluralrules/src/rules.rs, part 74. -/
def rules_74 : Str := c!" } else {\n                PluralCategory::OTHER\n            }\n        },\n    ),\n    (\n        langid!(subtags::Language::from_raw_unchecked(26740u64), None, None),\n        |po| PluralCategory::OTHER,\n    ),\n    (\n        langid!(subtags::Language::from_raw_unchecked(26996u64), None, None),\n        |po| {\n            if ((0..=1).contains(&(po.i)) && po.f == 0) {\n                PluralCategory::ONE\n            } else {\n                PluralCategory::OTHER\n            }\n        },\n    ),\n    (\n        langid!(\n            subtags::Language::from_raw_unchecked(6777204u64),\n            None,\n            None\n        ),\n        |po| {\n            if (po.n == 1.0) {\n                PluralCategory::ONE\n            } else {\n                PluralCategory::OTHER\n            }\n        },\n    ),\n    "

/-- intl_pluralrules/src/rules.rs, part 75. -/
def rules_75 : Str := c!"(\n        langid!(subtags::Language::from_raw_unchecked(27508u64), None, None),\n        |po| {\n            if (po.n == 1.0) {\n                PluralCategory::ONE\n            } else {\n                PluralCategory::OTHER\n            }\n        },\n    ),\n    (\n        langid!(subtags::Language::from_raw_unchecked(27764u64), None, None),\n        |po| {\n            if (po.v == 0 && (po.i == 1 || po.i == 2 || po.i == 3))\n                || (po.v == 0 && po.i % 10 != 4 && po.i % 10 != 6 && po.i % 10 != 9)\n                || (po.v != 0 && po.f % 10 != 4 && po.f % 10 != 6 && po.f % 10 != 9)\n            {\n                PluralCategory::ONE\n            } else {\n                PluralCategory::OTHER\n            }\n        },\n    ),\n    (\n        langid!(subtags::Language::from_raw_unchecked(28276u64)"

/-- intl_pluralrules/src/rules.rs, part 76. -/
def rules_76 : Str := c!", None, None),\n        |po| {\n            if (po.n == 1.0) {\n                PluralCategory::ONE\n            } else {\n                PluralCategory::OTHER\n            }\n        },\n    ),\n    (\n        langid!(subtags::Language::from_raw_unchecked(28532u64), None, None),\n        |po| PluralCategory::OTHER,\n    ),\n    (\n        langid!(subtags::Language::from_raw_unchecked(29300u64), None, None),\n        |po| {\n            if (po.n == 1.0) {\n                PluralCategory::ONE\n            } else {\n                PluralCategory::OTHER\n            }\n        },\n    ),\n    (\n        langid!(subtags::Language::from_raw_unchecked(29556u64), None, None),\n        |po| {\n            if (po.n == 1.0) {\n                PluralCategory::ONE\n            } else {\n                PluralCategory::OTHER\n   "

/-- intl_pluralrules/src/rules.rs, part 77. -/
def rules_77 : Str := c!"         }\n        },\n    ),\n    (\n        langid!(\n            subtags::Language::from_raw_unchecked(7174772u64),\n            None,\n            None\n        ),\n        |po| {\n            if ((0..=1).contains(&(po.i)) && po.f == 0)\n                || ((11..=99).contains(&(po.i)) && po.f == 0)\n            {\n                PluralCategory::ONE\n            } else {\n                PluralCategory::OTHER\n            }\n        },\n    ),\n    (\n        langid!(subtags::Language::from_raw_unchecked(26485u64), None, None),\n        |po| {\n            if (po.n == 1.0) {\n                PluralCategory::ONE\n            } else {\n                PluralCategory::OTHER\n            }\n        },\n    ),\n    (\n        langid!(subtags::Language::from_raw_unchecked(27509u64), None, None),\n        |po| {\n         "

/-- intl_pluralrules/src/rules.rs, part 78. -/
def rules_78 : Str := c!"   if (po.v == 0 && (2..=4).contains(&(po.i % 10)) && !(12..=14).contains(&(po.i % 100))) {\n                PluralCategory::FEW\n            } else if (po.v == 0 && po.i % 10 == 0)\n                || (po.v == 0 && (5..=9).contains(&(po.i % 10)))\n                || (po.v == 0 && (11..=14).contains(&(po.i % 100)))\n            {\n                PluralCategory::MANY\n            } else if (po.v == 0 && po.i % 10 == 1 && po.i % 100 != 11) {\n                PluralCategory::ONE\n            } else {\n                PluralCategory::OTHER\n            }\n        },\n    ),\n    (\n        langid!(subtags::Language::from_raw_unchecked(29301u64), None, None),\n        |po| {\n            if (po.i == 1 && po.v == 0) {\n                PluralCategory::ONE\n            } else {\n                PluralCategory::OTHER"

/-- intl_pluralrules/src/rules.rs, part 79. -/
def rules_79 : Str := c!"\n            }\n        },\n    ),\n    (\n        langid!(subtags::Language::from_raw_unchecked(31349u64), None, None),\n        |po| {\n            if (po.n == 1.0) {\n                PluralCategory::ONE\n            } else {\n                PluralCategory::OTHER\n            }\n        },\n    ),\n    (\n        langid!(subtags::Language::from_raw_unchecked(25974u64), None, None),\n        |po| {\n            if (po.n == 1.0) {\n                PluralCategory::ONE\n            } else {\n                PluralCategory::OTHER\n            }\n        },\n    ),\n    (\n        langid!(subtags::Language::from_raw_unchecked(26998u64), None, None),\n        |po| PluralCategory::OTHER,\n    ),\n    (\n        langid!(subtags::Language::from_raw_unchecked(28534u64), None, None),\n        |po| {\n            if (po.n == 1.0"

/-- intl_pluralrules/src/rules.rs, part 80. -/
def rules_80 : Str := c!") {\n                PluralCategory::ONE\n            } else {\n                PluralCategory::OTHER\n            }\n        },\n    ),\n    (\n        langid!(\n            subtags::Language::from_raw_unchecked(7239030u64),\n            None,\n            None\n        ),\n        |po| {\n            if (po.n == 1.0) {\n                PluralCategory::ONE\n            } else {\n                PluralCategory::OTHER\n            }\n        },\n    ),\n    (\n        langid!(subtags::Language::from_raw_unchecked(24951u64), None, None),\n        |po| {\n            if ((0..=1).contains(&(po.i)) && po.f == 0) {\n                PluralCategory::ONE\n            } else {\n                PluralCategory::OTHER\n            }\n        },\n    ),\n    (\n        langid!(\n            subtags::Language::from_raw_unchecked(6644087"

/-- intl_pluralrules/src/rules.rs, part 81. -/
def rules_81 : Str := c!"u64),\n            None,\n            None\n        ),\n        |po| {\n            if (po.n == 1.0) {\n                PluralCategory::ONE\n            } else {\n                PluralCategory::OTHER\n            }\n        },\n    ),\n    (\n        langid!(subtags::Language::from_raw_unchecked(28535u64), None, None),\n        |po| PluralCategory::OTHER,\n    ),\n    (\n        langid!(subtags::Language::from_raw_unchecked(26744u64), None, None),\n        |po| {\n            if (po.n == 1.0) {\n                PluralCategory::ONE\n            } else {\n                PluralCategory::OTHER\n            }\n        },\n    ),\n    (\n        langid!(\n            subtags::Language::from_raw_unchecked(6778744u64),\n            None,\n            None\n        ),\n        |po| {\n            if (po.n == 1.0) {\n             "

/-- intl_pluralrules/src/rules.rs, part 82. -/
def rules_82 : Str := c!"   PluralCategory::ONE\n            } else {\n                PluralCategory::OTHER\n            }\n        },\n    ),\n    (\n        langid!(subtags::Language::from_raw_unchecked(27001u64), None, None),\n        |po| {\n            if (po.i == 1 && po.v == 0) {\n                PluralCategory::ONE\n            } else {\n                PluralCategory::OTHER\n            }\n        },\n    ),\n    (\n        langid!(subtags::Language::from_raw_unchecked(28537u64), None, None),\n        |po| PluralCategory::OTHER,\n    ),\n    (\n        langid!(\n            subtags::Language::from_raw_unchecked(6649209u64),\n            None,\n            None\n        ),\n        |po| PluralCategory::OTHER,\n    ),\n    (\n        langid!(subtags::Language::from_raw_unchecked(26746u64), None, None),\n        |po| PluralCategory::OTH"

/-- intl_pluralrules/src/rules.rs, part 83. -/
def rules_83 : Str := c!"ER,\n    ),\n    (\n        langid!(subtags::Language::from_raw_unchecked(30074u64), None, None),\n        |po| {\n            if (po.i == 0) || (po.n == 1.0) {\n                PluralCategory::ONE\n            } else {\n                PluralCategory::OTHER\n            }\n        },\n    ),\n];\npub const PRS_ORDINAL: &[(LanguageIdentifier, PluralRule)] = &[\n    (\n        langid!(subtags::Language::from_raw_unchecked(26209u64), None, None),\n        |po| PluralCategory::OTHER,\n    ),\n    (\n        langid!(subtags::Language::from_raw_unchecked(28001u64), None, None),\n        |po| PluralCategory::OTHER,\n    ),\n    (\n        langid!(subtags::Language::from_raw_unchecked(28257u64), None, None),\n        |po| PluralCategory::OTHER,\n    ),\n    (\n        langid!(subtags::Language::from_raw_unchecked(29281u64)"

/-- intl_pluralrules/src/rules.rs, part 84. -/
def rules_84 : Str := c!", None, None),\n        |po| PluralCategory::OTHER,\n    ),\n    (\n        langid!(subtags::Language::from_raw_unchecked(29537u64), None, None),\n        |po| {\n            if (po.n == 4.0) {\n                PluralCategory::FEW\n            } else if (po.n == 6.0) {\n                PluralCategory::MANY\n            } else if (po.n == 1.0\n                || po.n == 5.0\n                || po.n == 7.0\n                || po.n == 8.0\n                || po.n == 9.0\n                || po.n == 10.0)\n            {\n                PluralCategory::ONE\n            } else if (po.n == 2.0 || po.n == 3.0) {\n                PluralCategory::TWO\n            } else {\n                PluralCategory::OTHER\n            }\n        },\n    ),\n    (\n        langid!(subtags::Language::from_raw_unchecked(31329u64), None, No"

/-- intl_pluralrules/src/rules.rs, part 85. -/
def rules_85 : Str := c!"ne),\n        |po| {\n            if (po.i % 10 == 3 || po.i % 10 == 4)\n                || (po.i % 1000 == 100\n                    || po.i % 1000 == 200\n                    || po.i % 1000 == 300\n                    || po.i % 1000 == 400\n                    || po.i % 1000 == 500\n                    || po.i % 1000 == 600\n                    || po.i % 1000 == 700\n                    || po.i % 1000 == 800\n                    || po.i % 1000 == 900)\n            {\n                PluralCategory::FEW\n            } else if (po.i == 0)\n                || (po.i % 10 == 6)\n                || (po.i % 100 == 40 || po.i % 100 == 60 || po.i % 100 == 90)\n            {\n                PluralCategory::MANY\n            } else if (po.i % 10 == 1\n                || po.i % 10 == 2\n                || po.i % 10 == 5"

/-- intl_pluralrules/src/rules.rs, part 86. -/
def rules_86 : Str := c!"\n                || po.i % 10 == 7\n                || po.i % 10 == 8)\n                || (po.i % 100 == 20 || po.i % 100 == 50 || po.i % 100 == 70 || po.i % 100 == 80)\n            {\n                PluralCategory::ONE\n            } else {\n                PluralCategory::OTHER\n            }\n        },\n    ),\n    (\n        langid!(subtags::Language::from_raw_unchecked(25954u64), None, None),\n        |po| {\n            if ((po.i % 10 == 2 || po.i % 10 == 3) && po.i % 100 != 12 && po.i % 100 != 13) {\n                PluralCategory::FEW\n            } else {\n                PluralCategory::OTHER\n            }\n        },\n    ),\n    (\n        langid!(subtags::Language::from_raw_unchecked(26466u64), None, None),\n        |po| PluralCategory::OTHER,\n    ),\n    (\n        langid!(subtags::Language::fro"

/-- intl_pluralrules/src/rules.rs, part 87. -/
def rules_87 : Str := c!"m_raw_unchecked(28258u64), None, None),\n        |po| {\n            if (po.n == 4.0) {\n                PluralCategory::FEW\n            } else if (po.n == 6.0) {\n                PluralCategory::MANY\n            } else if (po.n == 1.0\n                || po.n == 5.0\n                || po.n == 7.0\n                || po.n == 8.0\n                || po.n == 9.0\n                || po.n == 10.0)\n            {\n                PluralCategory::ONE\n            } else if (po.n == 2.0 || po.n == 3.0) {\n                PluralCategory::TWO\n            } else {\n                PluralCategory::OTHER\n            }\n        },\n    ),\n    (\n        langid!(subtags::Language::from_raw_unchecked(29538u64), None, None),\n        |po| PluralCategory::OTHER,\n    ),\n    (\n        langid!(subtags::Language::from_raw_unch"

/-- intl_pluralrules/src/rules.rs, part 88. -/
def rules_88 : Str := c!"ecked(24931u64), None, None),\n        |po| {\n            if (po.n == 4.0) {\n                PluralCategory::FEW\n            } else if (po.n == 1.0 || po.n == 3.0) {\n                PluralCategory::ONE\n            } else if (po.n == 2.0) {\n                PluralCategory::TWO\n            } else {\n                PluralCategory::OTHER\n            }\n        },\n    ),\n    (\n        langid!(subtags::Language::from_raw_unchecked(25955u64), None, None),\n        |po| PluralCategory::OTHER,\n    ),\n    (\n        langid!(subtags::Language::from_raw_unchecked(29539u64), None, None),\n        |po| PluralCategory::OTHER,\n    ),\n    (\n        langid!(subtags::Language::from_raw_unchecked(31075u64), None, None),\n        |po| {\n            if (po.n == 3.0 || po.n == 4.0) {\n                PluralCategory::FEW"

/-- intl_pluralrules/src/rules.rs, part 89. -/
def rules_89 : Str := c!"\n            } else if (po.n == 5.0 || po.n == 6.0) {\n                PluralCategory::MANY\n            } else if (po.n == 1.0) {\n                PluralCategory::ONE\n            } else if (po.n == 2.0) {\n                PluralCategory::TWO\n            } else if (po.n == 0.0 || po.n == 7.0 || po.n == 8.0 || po.n == 9.0) {\n                PluralCategory::ZERO\n            } else {\n                PluralCategory::OTHER\n            }\n        },\n    ),\n    (\n        langid!(subtags::Language::from_raw_unchecked(24932u64), None, None),\n        |po| PluralCategory::OTHER,\n    ),\n    (\n        langid!(subtags::Language::from_raw_unchecked(25956u64), None, None),\n        |po| PluralCategory::OTHER,\n    ),\n    (\n        langid!(\n            subtags::Language::from_raw_unchecked(6452068u64),\n          "

/-- intl_pluralrules/src/rules.rs, part 90. -/
def rules_90 : Str := c!"  None,\n            None\n        ),\n        |po| PluralCategory::OTHER,\n    ),\n    (\n        langid!(subtags::Language::from_raw_unchecked(27749u64), None, None),\n        |po| PluralCategory::OTHER,\n    ),\n    (\n        langid!(subtags::Language::from_raw_unchecked(28261u64), None, None),\n        |po| {\n            if (po.i % 10 == 3 && po.i % 100 != 13) {\n                PluralCategory::FEW\n            } else if (po.i % 10 == 1 && po.i % 100 != 11) {\n                PluralCategory::ONE\n            } else if (po.i % 10 == 2 && po.i % 100 != 12) {\n                PluralCategory::TWO\n            } else {\n                PluralCategory::OTHER\n            }\n        },\n    ),\n    (\n        langid!(subtags::Language::from_raw_unchecked(29541u64), None, None),\n        |po| PluralCategory::OTHER,\n"

/-- intl_pluralrules/src/rules.rs, part 91. -/
def rules_91 : Str := c!"    ),\n    (\n        langid!(subtags::Language::from_raw_unchecked(29797u64), None, None),\n        |po| PluralCategory::OTHER,\n    ),\n    (\n        langid!(subtags::Language::from_raw_unchecked(30053u64), None, None),\n        |po| PluralCategory::OTHER,\n    ),\n    (\n        langid!(subtags::Language::from_raw_unchecked(24934u64), None, None),\n        |po| PluralCategory::OTHER,\n    ),\n    (\n        langid!(subtags::Language::from_raw_unchecked(26982u64), None, None),\n        |po| PluralCategory::OTHER,\n    ),\n    (\n        langid!(\n            subtags::Language::from_raw_unchecked(7104870u64),\n            None,\n            None\n        ),\n        |po| {\n            if (po.n == 1.0) {\n                PluralCategory::ONE\n            } else {\n                PluralCategory::OTHER\n            "

/-- intl_pluralrules/src/rules.rs, part 92. -/
def rules_92 : Str := c!"}\n        },\n    ),\n    (\n        langid!(subtags::Language::from_raw_unchecked(29286u64), None, None),\n        |po| {\n            if (po.n == 1.0) {\n                PluralCategory::ONE\n            } else {\n                PluralCategory::OTHER\n            }\n        },\n    ),\n    (\n        langid!(subtags::Language::from_raw_unchecked(31078u64), None, None),\n        |po| PluralCategory::OTHER,\n    ),\n    (\n        langid!(subtags::Language::from_raw_unchecked(24935u64), None, None),\n        |po| {\n            if (po.n == 1.0) {\n                PluralCategory::ONE\n            } else {\n                PluralCategory::OTHER\n            }\n        },\n    ),\n    (\n        langid!(subtags::Language::from_raw_unchecked(25703u64), None, None),\n        |po| {\n            if (po.n == 3.0 || po.n == 1"

/-- intl_pluralrules/src/rules.rs, part 93. -/
def rules_93 : Str := c!"3.0) {\n                PluralCategory::FEW\n            } else if (po.n == 1.0 || po.n == 11.0) {\n                PluralCategory::ONE\n            } else if (po.n == 2.0 || po.n == 12.0) {\n                PluralCategory::TWO\n            } else {\n                PluralCategory::OTHER\n            }\n        },\n    ),\n    (\n        langid!(subtags::Language::from_raw_unchecked(27751u64), None, None),\n        |po| PluralCategory::OTHER,\n    ),\n    (\n        langid!(\n            subtags::Language::from_raw_unchecked(7828327u64),\n            None,\n            None\n        ),\n        |po| PluralCategory::OTHER,\n    ),\n    (\n        langid!(subtags::Language::from_raw_unchecked(30055u64), None, None),\n        |po| {\n            if (po.n == 4.0) {\n                PluralCategory::FEW\n            } else"

/-- intl_pluralrules/src/rules.rs, part 94. -/
def rules_94 : Str := c!" if (po.n == 6.0) {\n                PluralCategory::MANY\n            } else if (po.n == 1.0) {\n                PluralCategory::ONE\n            } else if (po.n == 2.0 || po.n == 3.0) {\n                PluralCategory::TWO\n            } else {\n                PluralCategory::OTHER\n            }\n        },\n    ),\n    (\n        langid!(subtags::Language::from_raw_unchecked(25960u64), None, None),\n        |po| PluralCategory::OTHER,\n    ),\n    (\n        langid!(subtags::Language::from_raw_unchecked(26984u64), None, None),\n        |po| {\n            if (po.n == 4.0) {\n                PluralCategory::FEW\n            } else if (po.n == 6.0) {\n                PluralCategory::MANY\n            } else if (po.n == 1.0) {\n                PluralCategory::ONE\n            } else if (po.n == 2.0 || po.n == 3"

/-- intl_pluralrules/src/rules.rs, part 95. -/
def rules_95 : Str := c!".0) {\n                PluralCategory::TWO\n            } else {\n                PluralCategory::OTHER\n            }\n        },\n    ),\n    (\n        langid!(subtags::Language::from_raw_unchecked(29288u64), None, None),\n        |po| PluralCategory::OTHER,\n    ),\n    (\n        langid!(\n            subtags::Language::from_raw_unchecked(6452072u64),\n            None,\n            None\n        ),\n        |po| PluralCategory::OTHER,\n    ),\n    (\n        langid!(subtags::Language::from_raw_unchecked(30056u64), None, None),\n        |po| {\n            if (po.n == 1.0 || po.n == 5.0) {\n                PluralCategory::ONE\n            } else {\n                PluralCategory::OTHER\n            }\n        },\n    ),\n    (\n        langid!(subtags::Language::from_raw_unchecked(31080u64), None, None),\n        |"

/-- intl_pluralrules/src/rules.rs, part 96. -/
def rules_96 : Str := c!"po| {\n            if (po.n == 1.0) {\n                PluralCategory::ONE\n            } else {\n                PluralCategory::OTHER\n            }\n        },\n    ),\n    (\n        langid!(subtags::Language::from_raw_unchecked(24937u64), None, None),\n        |po| PluralCategory::OTHER,\n    ),\n    (\n        langid!(subtags::Language::from_raw_unchecked(25705u64), None, None),\n        |po| PluralCategory::OTHER,\n    ),\n    (\n        langid!(subtags::Language::from_raw_unchecked(28265u64), None, None),\n        |po| PluralCategory::OTHER,\n    ),\n    (\n        langid!(subtags::Language::from_raw_unchecked(29545u64), None, None),\n        |po| PluralCategory::OTHER,\n    ),\n    (\n        langid!(subtags::Language::from_raw_unchecked(29801u64), None, None),\n        |po| {\n            if (po.n == 11.0 "

/-- intl_pluralrules/src/rules.rs, part 97. -/
def rules_97 : Str := c!"|| po.n == 8.0 || po.n == 80.0 || po.n == 800.0) {\n                PluralCategory::MANY\n            } else {\n                PluralCategory::OTHER\n            }\n        },\n    ),\n    (\n        langid!(subtags::Language::from_raw_unchecked(30569u64), None, None),\n        |po| PluralCategory::OTHER,\n    ),\n    (\n        langid!(subtags::Language::from_raw_unchecked(24938u64), None, None),\n        |po| PluralCategory::OTHER,\n    ),\n    (\n        langid!(subtags::Language::from_raw_unchecked(24939u64), None, None),\n        |po| {\n            if (po.i == 0)\n                || (po.i % 100 == 40\n                    || po.i % 100 == 60\n                    || po.i % 100 == 80\n                    || (2..=20).contains(&(po.i % 100)))\n            {\n                PluralCategory::MANY\n            } el"

/-- intl_pluralrules/src/rules.rs, part 98. -/
def rules_98 : Str := c!"se if (po.i == 1) {\n                PluralCategory::ONE\n            } else {\n                PluralCategory::OTHER\n            }\n        },\n    ),\n    (\n        langid!(subtags::Language::from_raw_unchecked(27499u64), None, None),\n        |po| {\n            if (po.i % 10 == 6) || (po.i % 10 == 9) || (po.i % 10 == 0 && po.n != 0.0) {\n                PluralCategory::MANY\n            } else {\n                PluralCategory::OTHER\n            }\n        },\n    ),\n    (\n        langid!(subtags::Language::from_raw_unchecked(28011u64), None, None),\n        |po| PluralCategory::OTHER,\n    ),\n    (\n        langid!(subtags::Language::from_raw_unchecked(28267u64), None, None),\n        |po| PluralCategory::OTHER,\n    ),\n    (\n        langid!(subtags::Language::from_raw_unchecked(28523u64), None, None),"

/-- intl_pluralrules/src/rules.rs, part 99. -/
def rules_99 : Str := c!"\n        |po| PluralCategory::OTHER,\n    ),\n    (\n        langid!(subtags::Language::from_raw_unchecked(30571u64), None, None),\n        |po| {\n            if (po.n == 5.0) || (po.i % 100 == 5) {\n                PluralCategory::MANY\n            } else if ((1..=4).contains(&(po.i)) && po.f == 0)\n                || ((1..=4).contains(&(po.i))\n                    || (21..=24).contains(&(po.i))\n                    || (41..=44).contains(&(po.i))\n                    || (61..=64).contains(&(po.i))\n                    || (81..=84).contains(&(po.i)))\n            {\n                PluralCategory::ONE\n            } else {\n                PluralCategory::OTHER\n            }\n        },\n    ),\n    (\n        langid!(subtags::Language::from_raw_unchecked(31083u64), None, None),\n        |po| PluralCategory::"

/-- intl_pluralrules/src/rules.rs, part 100. -/
def rules_100 : Str := c!"OTHER,\n    ),\n    (\n        langid!(subtags::Language::from_raw_unchecked(28524u64), None, None),\n        |po| {\n            if (po.n == 1.0) {\n                PluralCategory::ONE\n            } else {\n                PluralCategory::OTHER\n            }\n        },\n    ),\n    (\n        langid!(subtags::Language::from_raw_unchecked(29804u64), None, None),\n        |po| PluralCategory::OTHER,\n    ),\n    (\n        langid!(subtags::Language::from_raw_unchecked(30316u64), None, None),\n        |po| PluralCategory::OTHER,\n    ),\n    (\n        langid!(subtags::Language::from_raw_unchecked(27501u64), None, None),\n        |po| {\n            if ((po.i % 10 == 7 || po.i % 10 == 8) && po.i % 100 != 17 && po.i % 100 != 18) {\n                PluralCategory::MANY\n            } else if (po.i % 10 == 1 && po.i"

/-- intl_pluralrules/src/rules.rs, part 101. -/
def rules_101 : Str := c!" % 100 != 11) {\n                PluralCategory::ONE\n            } else if (po.i % 10 == 2 && po.i % 100 != 12) {\n                PluralCategory::TWO\n            } else {\n                PluralCategory::OTHER\n            }\n        },\n    ),\n    (\n        langid!(subtags::Language::from_raw_unchecked(27757u64), None, None),\n        |po| PluralCategory::OTHER,\n    ),\n    (\n        langid!(subtags::Language::from_raw_unchecked(28269u64), None, None),\n        |po| PluralCategory::OTHER,\n    ),\n    (\n        langid!(subtags::Language::from_raw_unchecked(28525u64), None, None),\n        |po| {\n            if (po.n == 1.0) {\n                PluralCategory::ONE\n            } else {\n                PluralCategory::OTHER\n            }\n        },\n    ),\n    (\n        langid!(subtags::Language::from_raw"

/-- intl_pluralrules/src/rules.rs, part 102. -/
def rules_102 : Str := c!"_unchecked(29293u64), None, None),\n        |po| {\n            if (po.n == 4.0) {\n                PluralCategory::FEW\n            } else if (po.n == 1.0) {\n                PluralCategory::ONE\n            } else if (po.n == 2.0 || po.n == 3.0) {\n                PluralCategory::TWO\n            } else {\n                PluralCategory::OTHER\n            }\n        },\n    ),\n    (\n        langid!(subtags::Language::from_raw_unchecked(29549u64), None, None),\n        |po| {\n            if (po.n == 1.0) {\n                PluralCategory::ONE\n            } else {\n                PluralCategory::OTHER\n            }\n        },\n    ),\n    (\n        langid!(subtags::Language::from_raw_unchecked(31085u64), None, None),\n        |po| PluralCategory::OTHER,\n    ),\n    (\n        langid!(subtags::Language::from"

/-- intl_pluralrules/src/rules.rs, part 103. -/
def rules_103 : Str := c!"_raw_unchecked(25198u64), None, None),\n        |po| PluralCategory::OTHER,\n    ),\n    (\n        langid!(subtags::Language::from_raw_unchecked(25966u64), None, None),\n        |po| {\n            if ((1..=4).contains(&(po.i)) && po.f == 0) {\n                PluralCategory::ONE\n            } else {\n                PluralCategory::OTHER\n            }\n        },\n    ),\n    (\n        langid!(subtags::Language::from_raw_unchecked(27758u64), None, None),\n        |po| PluralCategory::OTHER,\n    ),\n    (\n        langid!(subtags::Language::from_raw_unchecked(29295u64), None, None),\n        |po| {\n            if (po.n == 4.0) {\n                PluralCategory::FEW\n            } else if (po.n == 6.0) {\n                PluralCategory::MANY\n            } else if (po.n == 1.0 || po.n == 5.0 || (7..=9).conta"

/-- intl_pluralrules/src/rules.rs, part 104. -/
def rules_104 : Str := c!"ins(&(po.i)) && po.f == 0) {\n                PluralCategory::ONE\n            } else if (po.n == 2.0 || po.n == 3.0) {\n                PluralCategory::TWO\n            } else {\n                PluralCategory::OTHER\n            }\n        },\n    ),\n    (\n        langid!(subtags::Language::from_raw_unchecked(24944u64), None, None),\n        |po| PluralCategory::OTHER,\n    ),\n    (\n        langid!(subtags::Language::from_raw_unchecked(27760u64), None, None),\n        |po| PluralCategory::OTHER,\n    ),\n    (\n        langid!(\n            subtags::Language::from_raw_unchecked(6779504u64),\n            None,\n            None\n        ),\n        |po| PluralCategory::OTHER,\n    ),\n    (\n        langid!(subtags::Language::from_raw_unchecked(29552u64), None, None),\n        |po| PluralCategory::OTHER,\n    ),"

/-- intl_pluralrules/src/rules.rs, part 105. -/
def rules_105 : Str := c!"\n    (\n        langid!(subtags::Language::from_raw_unchecked(29808u64), None, None),\n        |po| PluralCategory::OTHER,\n    ),\n    (\n        langid!(subtags::Language::from_raw_unchecked(28530u64), None, None),\n        |po| {\n            if (po.n == 1.0) {\n                PluralCategory::ONE\n            } else {\n                PluralCategory::OTHER\n            }\n        },\n    ),\n    (\n        langid!(subtags::Language::from_raw_unchecked(30066u64), None, None),\n        |po| PluralCategory::OTHER,\n    ),\n    (\n        langid!(subtags::Language::from_raw_unchecked(25459u64), None, None),\n        |po| {\n            if (po.n == 11.0 || po.n == 8.0 || po.n == 80.0 || po.n == 800.0) {\n                PluralCategory::MANY\n            } else {\n                PluralCategory::OTHER\n            }"

/-- intl_pluralrules/src/rules.rs, part 106. -/
def rules_106 : Str := c!"\n        },\n    ),\n    (\n        langid!(\n            subtags::Language::from_raw_unchecked(7234419u64),\n            None,\n            None\n        ),\n        |po| {\n            if (po.n == 11.0 || po.n == 8.0 || po.n == 80.0 || po.n == 800.0) {\n                PluralCategory::MANY\n            } else {\n                PluralCategory::OTHER\n            }\n        },\n    ),\n    (\n        langid!(subtags::Language::from_raw_unchecked(25715u64), None, None),\n        |po| PluralCategory::OTHER,\n    ),\n    (\n        langid!(subtags::Language::from_raw_unchecked(26739u64), None, None),\n        |po| PluralCategory::OTHER,\n    ),\n    (\n        langid!(subtags::Language::from_raw_unchecked(26995u64), None, None),\n        |po| PluralCategory::OTHER,\n    ),\n    (\n        langid!(subtags::Language::from"

/-- intl_pluralrules/src/rules.rs, part 107. -/
def rules_107 : Str := c!"_raw_unchecked(27507u64), None, None),\n        |po| PluralCategory::OTHER,\n    ),\n    (\n        langid!(subtags::Language::from_raw_unchecked(27763u64), None, None),\n        |po| PluralCategory::OTHER,\n    ),\n    (\n        langid!(subtags::Language::from_raw_unchecked(29043u64), None, None),\n        |po| {\n            if (po.i % 10 == 4 && po.i % 100 != 14) {\n                PluralCategory::MANY\n            } else if (po.n == 1.0) {\n                PluralCategory::ONE\n            } else {\n                PluralCategory::OTHER\n            }\n        },\n    ),\n    (\n        langid!(subtags::Language::from_raw_unchecked(29299u64), None, None),\n        |po| PluralCategory::OTHER,\n    ),\n    (\n        langid!(subtags::Language::from_raw_unchecked(30323u64), None, None),\n        |po| {\n          "

/-- intl_pluralrules/src/rules.rs, part 108. -/
def rules_108 : Str := c!"  if ((po.i % 10 == 1 || po.i % 10 == 2) && po.i % 100 != 11 && po.i % 100 != 12) {\n                PluralCategory::ONE\n            } else {\n                PluralCategory::OTHER\n            }\n        },\n    ),\n    (\n        langid!(subtags::Language::from_raw_unchecked(30579u64), None, None),\n        |po| PluralCategory::OTHER,\n    ),\n    (\n        langid!(subtags::Language::from_raw_unchecked(24948u64), None, None),\n        |po| PluralCategory::OTHER,\n    ),\n    (\n        langid!(subtags::Language::from_raw_unchecked(25972u64), None, None),\n        |po| PluralCategory::OTHER,\n    ),\n    (\n        langid!(subtags::Language::from_raw_unchecked(26740u64), None, None),\n        |po| PluralCategory::OTHER,\n    ),\n    (\n        langid!(subtags::Language::from_raw_unchecked(27508u64), None, None"

/-- intl_pluralrules/src/rules.rs, part 109. -/
def rules_109 : Str := c!"),\n        |po| {\n            if (po.i % 10 == 6 || po.i % 10 == 9) || (po.n == 10.0) {\n                PluralCategory::FEW\n            } else {\n                PluralCategory::OTHER\n            }\n        },\n    ),\n    (\n        langid!(subtags::Language::from_raw_unchecked(27764u64), None, None),\n        |po| {\n            if (po.n == 1.0) {\n                PluralCategory::ONE\n            } else {\n                PluralCategory::OTHER\n            }\n        },\n    ),\n    (\n        langid!(subtags::Language::from_raw_unchecked(29300u64), None, None),\n        |po| PluralCategory::OTHER,\n    ),\n    (\n        langid!(subtags::Language::from_raw_unchecked(27509u64), None, None),\n        |po| {\n            if (po.i % 10 == 3 && po.i % 100 != 13) {\n                PluralCategory::FEW\n            "

/-- intl_pluralrules/src/rules.rs, part 110. -/
def rules_110 : Str := c!"} else {\n                PluralCategory::OTHER\n            }\n        },\n    ),\n    (\n        langid!(subtags::Language::from_raw_unchecked(29301u64), None, None),\n        |po| PluralCategory::OTHER,\n    ),\n    (\n        langid!(subtags::Language::from_raw_unchecked(31349u64), None, None),\n        |po| PluralCategory::OTHER,\n    ),\n    (\n        langid!(subtags::Language::from_raw_unchecked(26998u64), None, None),\n        |po| {\n            if (po.n == 1.0) {\n                PluralCategory::ONE\n            } else {\n                PluralCategory::OTHER\n            }\n        },\n    ),\n    (\n        langid!(\n            subtags::Language::from_raw_unchecked(6649209u64),\n            None,\n            None\n        ),\n        |po| PluralCategory::OTHER,\n    ),\n    (\n        langid!(subtags::Lang"

/-- intl_pluralrules/src/rules.rs, part 111. -/
def rules_111 : Str := c!"uage::from_raw_unchecked(26746u64), None, None),\n        |po| PluralCategory::OTHER,\n    ),\n    (\n        langid!(subtags::Language::from_raw_unchecked(30074u64), None, None),\n        |po| PluralCategory::OTHER,\n    ),\n];\n"

/-- intl_pluralrules/src/rules.rs. -/
def rules : Str := List.flatten [
  rules_0, rules_1, rules_2, rules_3, rules_4, rules_5, rules_6, rules_7,
  rules_8, rules_9, rules_10, rules_11, rules_12, rules_13, rules_14, rules_15,
  rules_16, rules_17, rules_18, rules_19, rules_20, rules_21, rules_22, rules_23,
  rules_24, rules_25, rules_26, rules_27, rules_28, rules_29, rules_30, rules_31,
  rules_32, rules_33, rules_34, rules_35, rules_36, rules_37, rules_38, rules_39,
  rules_40, rules_41, rules_42, rules_43, rules_44, rules_45, rules_46, rules_47,
  rules_48, rules_49, rules_50, rules_51, rules_52, rules_53, rules_54, rules_55,
  rules_56, rules_57, rules_58, rules_59, rules_60, rules_61, rules_62, rules_63,
  rules_64, rules_65, rules_66, rules_67, rules_68, rules_69, rules_70, rules_71,
  rules_72, rules_73, rules_74, rules_75, rules_76, rules_77, rules_78, rules_79,
  rules_80, rules_81, rules_82, rules_83, rules_84, rules_85, rules_86, rules_87,
  rules_88, rules_89, rules_90, rules_91, rules_92, rules_93, rules_94, rules_95,
  rules_96, rules_97, rules_98, rules_99, rules_100, rules_101, rules_102, rules_103,
  rules_104, rules_105, rules_106, rules_107, rules_108, rules_109, rules_110, rules_111]

end Verif.RulesText
