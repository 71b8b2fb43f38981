import Verif.Generate

/-!
# `intl_pluralrules/cldr_data/*.json`

Written by tools/gen_tables.py.  Locales with the same rules share a definition.
-/

namespace Verif.CldrData
open Verif Generate

/-- intl_pluralrules/cldr_data/cldr_pluralrules_cardinals.json: af an asa az bem bez bg brx ce cgg chr ckb dv ee el eo es eu fo fur gsw ha haw hu jgo jmc ka kaj kcg kk kkj kl ks ksb ku ky lb lg mas mgo ml mn mr nah nb nd ne nn nnh no nr ny nyn om or os pap ps rm rof rwk saq sd sdh seh sn so sq ss ssy st syr ta te teo tig tk tn tr ts ug uz ve vo vun wae xh xog. -/
def cardinalRules0 : RuleObj := [
  (c!"pluralRule-count-one", c!"n = 1 @integer 1 @decimal 1.0, 1.00, 1.000, 1.0000"),
  (c!"pluralRule-count-other", c!" @integer 0, 2~16, 100, 1000, 10000, 100000, 1000000, … @decimal 0.0~0.9, 1.1~1.6, 10.0, 100.0, 1000.0, 10000.0, 100000.0, 1000000.0, …")]

/-- intl_pluralrules/cldr_data/cldr_pluralrules_cardinals.json: ak bho guw ln mg nso pa ti wa. -/
def cardinalRules1 : RuleObj := [
  (c!"pluralRule-count-one", c!"n = 0..1 @integer 0, 1 @decimal 0.0, 1.0, 0.00, 1.00, 0.000, 1.000, 0.0000, 1.0000"),
  (c!"pluralRule-count-other", c!" @integer 2~17, 100, 1000, 10000, 100000, 1000000, … @decimal 0.1~0.9, 1.1~1.7, 10.0, 100.0, 1000.0, 10000.0, 100000.0, 1000000.0, …")]

/-- intl_pluralrules/cldr_data/cldr_pluralrules_cardinals.json: am as bn fa gu hi kn pcm zu. -/
def cardinalRules2 : RuleObj := [
  (c!"pluralRule-count-one", c!"i = 0 or n = 1 @integer 0, 1 @decimal 0.0~1.0, 0.00~0.04"),
  (c!"pluralRule-count-other", c!" @integer 2~17, 100, 1000, 10000, 100000, 1000000, … @decimal 1.1~2.6, 10.0, 100.0, 1000.0, 10000.0, 100000.0, 1000000.0, …")]

/-- intl_pluralrules/cldr_data/cldr_pluralrules_cardinals.json: ar ars. -/
def cardinalRules3 : RuleObj := [
  (c!"pluralRule-count-zero", c!"n = 0 @integer 0 @decimal 0.0, 0.00, 0.000, 0.0000"),
  (c!"pluralRule-count-one", c!"n = 1 @integer 1 @decimal 1.0, 1.00, 1.000, 1.0000"),
  (c!"pluralRule-count-two", c!"n = 2 @integer 2 @decimal 2.0, 2.00, 2.000, 2.0000"),
  (c!"pluralRule-count-few", c!"n % 100 = 3..10 @integer 3~10, 103~110, 1003, … @decimal 3.0, 4.0, 5.0, 6.0, 7.0, 8.0, 9.0, 10.0, 103.0, 1003.0, …"),
  (c!"pluralRule-count-many", c!"n % 100 = 11..99 @integer 11~26, 111, 1011, … @decimal 11.0, 12.0, 13.0, 14.0, 15.0, 16.0, 17.0, 18.0, 111.0, 1011.0, …"),
  (c!"pluralRule-count-other", c!" @integer 100~102, 200~202, 300~302, 400~402, 500~502, 600, 1000, 10000, 100000, 1000000, … @decimal 0.1~0.9, 1.1~1.7, 10.1, 100.0, 1000.0, 10000.0, 100000.0, 1000000.0, …")]

/-- intl_pluralrules/cldr_data/cldr_pluralrules_cardinals.json: ast ca de en et fi fy gl ia io it ji nl pt-PT sc scn sv sw ur yi. -/
def cardinalRules4 : RuleObj := [
  (c!"pluralRule-count-one", c!"i = 1 and v = 0 @integer 1"),
  (c!"pluralRule-count-other", c!" @integer 0, 2~16, 100, 1000, 10000, 100000, 1000000, … @decimal 0.0~1.5, 10.0, 100.0, 1000.0, 10000.0, 100000.0, 1000000.0, …")]

/-- intl_pluralrules/cldr_data/cldr_pluralrules_cardinals.json: be. -/
def cardinalRules5 : RuleObj := [
  (c!"pluralRule-count-one", c!"n % 10 = 1 and n % 100 != 11 @integer 1, 21, 31, 41, 51, 61, 71, 81, 101, 1001, … @decimal 1.0, 21.0, 31.0, 41.0, 51.0, 61.0, 71.0, 81.0, 101.0, 1001.0, …"),
  (c!"pluralRule-count-few", c!"n % 10 = 2..4 and n % 100 != 12..14 @integer 2~4, 22~24, 32~34, 42~44, 52~54, 62, 102, 1002, … @decimal 2.0, 3.0, 4.0, 22.0, 23.0, 24.0, 32.0, 33.0, 102.0, 1002.0, …"),
  (c!"pluralRule-count-many", c!"n % 10 = 0 or n % 10 = 5..9 or n % 100 = 11..14 @integer 0, 5~19, 100, 1000, 10000, 100000, 1000000, … @decimal 0.0, 5.0, 6.0, 7.0, 8.0, 9.0, 10.0, 11.0, 100.0, 1000.0, 10000.0, 100000.0, 1000000.0, …"),
  (c!"pluralRule-count-other", c!"   @decimal 0.1~0.9, 1.1~1.7, 10.1, 100.1, 1000.1, …")]

/-- intl_pluralrules/cldr_data/cldr_pluralrules_cardinals.json: bm bo dz id ig ii in ja jbo jv jw kde kea km ko lkt lo ms my nqo osa root sah ses sg su th to vi wo yo yue zh. -/
def cardinalRules6 : RuleObj := [
  (c!"pluralRule-count-other", c!" @integer 0~15, 100, 1000, 10000, 100000, 1000000, … @decimal 0.0~1.5, 10.0, 100.0, 1000.0, 10000.0, 100000.0, 1000000.0, …")]

/-- intl_pluralrules/cldr_data/cldr_pluralrules_cardinals.json: br. -/
def cardinalRules7 : RuleObj := [
  (c!"pluralRule-count-one", c!"n % 10 = 1 and n % 100 != 11,71,91 @integer 1, 21, 31, 41, 51, 61, 81, 101, 1001, … @decimal 1.0, 21.0, 31.0, 41.0, 51.0, 61.0, 81.0, 101.0, 1001.0, …"),
  (c!"pluralRule-count-two", c!"n % 10 = 2 and n % 100 != 12,72,92 @integer 2, 22, 32, 42, 52, 62, 82, 102, 1002, … @decimal 2.0, 22.0, 32.0, 42.0, 52.0, 62.0, 82.0, 102.0, 1002.0, …"),
  (c!"pluralRule-count-few", c!"n % 10 = 3..4,9 and n % 100 != 10..19,70..79,90..99 @integer 3, 4, 9, 23, 24, 29, 33, 34, 39, 43, 44, 49, 103, 1003, … @decimal 3.0, 4.0, 9.0, 23.0, 24.0, 29.0, 33.0, 34.0, 103.0, 1003.0, …"),
  (c!"pluralRule-count-many", c!"n != 0 and n % 1000000 = 0 @integer 1000000, … @decimal 1000000.0, 1000000.00, 1000000.000, …"),
  (c!"pluralRule-count-other", c!" @integer 0, 5~8, 10~20, 100, 1000, 10000, 100000, … @decimal 0.0~0.9, 1.1~1.6, 10.0, 100.0, 1000.0, 10000.0, 100000.0, …")]

/-- intl_pluralrules/cldr_data/cldr_pluralrules_cardinals.json: bs hr sh sr. -/
def cardinalRules8 : RuleObj := [
  (c!"pluralRule-count-one", c!"v = 0 and i % 10 = 1 and i % 100 != 11 or f % 10 = 1 and f % 100 != 11 @integer 1, 21, 31, 41, 51, 61, 71, 81, 101, 1001, … @decimal 0.1, 1.1, 2.1, 3.1, 4.1, 5.1, 6.1, 7.1, 10.1, 100.1, 1000.1, …"),
  (c!"pluralRule-count-few", c!"v = 0 and i % 10 = 2..4 and i % 100 != 12..14 or f % 10 = 2..4 and f % 100 != 12..14 @integer 2~4, 22~24, 32~34, 42~44, 52~54, 62, 102, 1002, … @decimal 0.2~0.4, 1.2~1.4, 2.2~2.4, 3.2~3.4, 4.2~4.4, 5.2, 10.2, 100.2, 1000.2, …"),
  (c!"pluralRule-count-other", c!" @integer 0, 5~19, 100, 1000, 10000, 100000, 1000000, … @decimal 0.0, 0.5~1.0, 1.5~2.0, 2.5~2.7, 10.0, 100.0, 1000.0, 10000.0, 100000.0, 1000000.0, …")]

/-- intl_pluralrules/cldr_data/cldr_pluralrules_cardinals.json: ceb fil tl. -/
def cardinalRules9 : RuleObj := [
  (c!"pluralRule-count-one", c!"v = 0 and i = 1,2,3 or v = 0 and i % 10 != 4,6,9 or v != 0 and f % 10 != 4,6,9 @integer 0~3, 5, 7, 8, 10~13, 15, 17, 18, 20, 21, 100, 1000, 10000, 100000, 1000000, … @decimal 0.0~0.3, 0.5, 0.7, 0.8, 1.0~1.3, 1.5, 1.7, 1.8, 2.0, 2.1, 10.0, 100.0, 1000.0, 10000.0, 100000.0, 1000000.0, …"),
  (c!"pluralRule-count-other", c!" @integer 4, 6, 9, 14, 16, 19, 24, 26, 104, 1004, … @decimal 0.4, 0.6, 0.9, 1.4, 1.6, 1.9, 2.4, 2.6, 10.4, 100.4, 1000.4, …")]

/-- intl_pluralrules/cldr_data/cldr_pluralrules_cardinals.json: cs sk. -/
def cardinalRules10 : RuleObj := [
  (c!"pluralRule-count-one", c!"i = 1 and v = 0 @integer 1"),
  (c!"pluralRule-count-few", c!"i = 2..4 and v = 0 @integer 2~4"),
  (c!"pluralRule-count-many", c!"v != 0   @decimal 0.0~1.5, 10.0, 100.0, 1000.0, 10000.0, 100000.0, 1000000.0, …"),
  (c!"pluralRule-count-other", c!" @integer 0, 5~19, 100, 1000, 10000, 100000, 1000000, …")]

/-- intl_pluralrules/cldr_data/cldr_pluralrules_cardinals.json: cy. -/
def cardinalRules11 : RuleObj := [
  (c!"pluralRule-count-zero", c!"n = 0 @integer 0 @decimal 0.0, 0.00, 0.000, 0.0000"),
  (c!"pluralRule-count-one", c!"n = 1 @integer 1 @decimal 1.0, 1.00, 1.000, 1.0000"),
  (c!"pluralRule-count-two", c!"n = 2 @integer 2 @decimal 2.0, 2.00, 2.000, 2.0000"),
  (c!"pluralRule-count-few", c!"n = 3 @integer 3 @decimal 3.0, 3.00, 3.000, 3.0000"),
  (c!"pluralRule-count-many", c!"n = 6 @integer 6 @decimal 6.0, 6.00, 6.000, 6.0000"),
  (c!"pluralRule-count-other", c!" @integer 4, 5, 7~20, 100, 1000, 10000, 100000, 1000000, … @decimal 0.1~0.9, 1.1~1.7, 10.0, 100.0, 1000.0, 10000.0, 100000.0, 1000000.0, …")]

/-- intl_pluralrules/cldr_data/cldr_pluralrules_cardinals.json: da. -/
def cardinalRules12 : RuleObj := [
  (c!"pluralRule-count-one", c!"n = 1 or t != 0 and i = 0,1 @integer 1 @decimal 0.1~1.6"),
  (c!"pluralRule-count-other", c!" @integer 0, 2~16, 100, 1000, 10000, 100000, 1000000, … @decimal 0.0, 2.0~3.4, 10.0, 100.0, 1000.0, 10000.0, 100000.0, 1000000.0, …")]

/-- intl_pluralrules/cldr_data/cldr_pluralrules_cardinals.json: dsb hsb. -/
def cardinalRules13 : RuleObj := [
  (c!"pluralRule-count-one", c!"v = 0 and i % 100 = 1 or f % 100 = 1 @integer 1, 101, 201, 301, 401, 501, 601, 701, 1001, … @decimal 0.1, 1.1, 2.1, 3.1, 4.1, 5.1, 6.1, 7.1, 10.1, 100.1, 1000.1, …"),
  (c!"pluralRule-count-two", c!"v = 0 and i % 100 = 2 or f % 100 = 2 @integer 2, 102, 202, 302, 402, 502, 602, 702, 1002, … @decimal 0.2, 1.2, 2.2, 3.2, 4.2, 5.2, 6.2, 7.2, 10.2, 100.2, 1000.2, …"),
  (c!"pluralRule-count-few", c!"v = 0 and i % 100 = 3..4 or f % 100 = 3..4 @integer 3, 4, 103, 104, 203, 204, 303, 304, 403, 404, 503, 504, 603, 604, 703, 704, 1003, … @decimal 0.3, 0.4, 1.3, 1.4, 2.3, 2.4, 3.3, 3.4, 4.3, 4.4, 5.3, 5.4, 6.3, 6.4, 7.3, 7.4, 10.3, 100.3, 1000.3, …"),
  (c!"pluralRule-count-other", c!" @integer 0, 5~19, 100, 1000, 10000, 100000, 1000000, … @decimal 0.0, 0.5~1.0, 1.5~2.0, 2.5~2.7, 10.0, 100.0, 1000.0, 10000.0, 100000.0, 1000000.0, …")]

/-- intl_pluralrules/cldr_data/cldr_pluralrules_cardinals.json: ff fr hy kab. -/
def cardinalRules14 : RuleObj := [
  (c!"pluralRule-count-one", c!"i = 0,1 @integer 0, 1 @decimal 0.0~1.5"),
  (c!"pluralRule-count-other", c!" @integer 2~17, 100, 1000, 10000, 100000, 1000000, … @decimal 2.0~3.5, 10.0, 100.0, 1000.0, 10000.0, 100000.0, 1000000.0, …")]

/-- intl_pluralrules/cldr_data/cldr_pluralrules_cardinals.json: ga. -/
def cardinalRules15 : RuleObj := [
  (c!"pluralRule-count-one", c!"n = 1 @integer 1 @decimal 1.0, 1.00, 1.000, 1.0000"),
  (c!"pluralRule-count-two", c!"n = 2 @integer 2 @decimal 2.0, 2.00, 2.000, 2.0000"),
  (c!"pluralRule-count-few", c!"n = 3..6 @integer 3~6 @decimal 3.0, 4.0, 5.0, 6.0, 3.00, 4.00, 5.00, 6.00, 3.000, 4.000, 5.000, 6.000, 3.0000, 4.0000, 5.0000, 6.0000"),
  (c!"pluralRule-count-many", c!"n = 7..10 @integer 7~10 @decimal 7.0, 8.0, 9.0, 10.0, 7.00, 8.00, 9.00, 10.00, 7.000, 8.000, 9.000, 10.000, 7.0000, 8.0000, 9.0000, 10.0000"),
  (c!"pluralRule-count-other", c!" @integer 0, 11~25, 100, 1000, 10000, 100000, 1000000, … @decimal 0.0~0.9, 1.1~1.6, 10.1, 100.0, 1000.0, 10000.0, 100000.0, 1000000.0, …")]

/-- intl_pluralrules/cldr_data/cldr_pluralrules_cardinals.json: gd. -/
def cardinalRules16 : RuleObj := [
  (c!"pluralRule-count-one", c!"n = 1,11 @integer 1, 11 @decimal 1.0, 11.0, 1.00, 11.00, 1.000, 11.000, 1.0000"),
  (c!"pluralRule-count-two", c!"n = 2,12 @integer 2, 12 @decimal 2.0, 12.0, 2.00, 12.00, 2.000, 12.000, 2.0000"),
  (c!"pluralRule-count-few", c!"n = 3..10,13..19 @integer 3~10, 13~19 @decimal 3.0, 4.0, 5.0, 6.0, 7.0, 8.0, 9.0, 10.0, 13.0, 14.0, 15.0, 16.0, 17.0, 18.0, 19.0, 3.00"),
  (c!"pluralRule-count-other", c!" @integer 0, 20~34, 100, 1000, 10000, 100000, 1000000, … @decimal 0.0~0.9, 1.1~1.6, 10.1, 100.0, 1000.0, 10000.0, 100000.0, 1000000.0, …")]

/-- intl_pluralrules/cldr_data/cldr_pluralrules_cardinals.json: gv. -/
def cardinalRules17 : RuleObj := [
  (c!"pluralRule-count-one", c!"v = 0 and i % 10 = 1 @integer 1, 11, 21, 31, 41, 51, 61, 71, 101, 1001, …"),
  (c!"pluralRule-count-two", c!"v = 0 and i % 10 = 2 @integer 2, 12, 22, 32, 42, 52, 62, 72, 102, 1002, …"),
  (c!"pluralRule-count-few", c!"v = 0 and i % 100 = 0,20,40,60,80 @integer 0, 20, 40, 60, 80, 100, 120, 140, 1000, 10000, 100000, 1000000, …"),
  (c!"pluralRule-count-many", c!"v != 0   @decimal 0.0~1.5, 10.0, 100.0, 1000.0, 10000.0, 100000.0, 1000000.0, …"),
  (c!"pluralRule-count-other", c!" @integer 3~10, 13~19, 23, 103, 1003, …")]

/-- intl_pluralrules/cldr_data/cldr_pluralrules_cardinals.json: he iw. -/
def cardinalRules18 : RuleObj := [
  (c!"pluralRule-count-one", c!"i = 1 and v = 0 @integer 1"),
  (c!"pluralRule-count-two", c!"i = 2 and v = 0 @integer 2"),
  (c!"pluralRule-count-many", c!"v = 0 and n != 0..10 and n % 10 = 0 @integer 20, 30, 40, 50, 60, 70, 80, 90, 100, 1000, 10000, 100000, 1000000, …"),
  (c!"pluralRule-count-other", c!" @integer 0, 3~17, 101, 1001, … @decimal 0.0~1.5, 10.0, 100.0, 1000.0, 10000.0, 100000.0, 1000000.0, …")]

/-- intl_pluralrules/cldr_data/cldr_pluralrules_cardinals.json: is. -/
def cardinalRules19 : RuleObj := [
  (c!"pluralRule-count-one", c!"t = 0 and i % 10 = 1 and i % 100 != 11 or t != 0 @integer 1, 21, 31, 41, 51, 61, 71, 81, 101, 1001, … @decimal 0.1~1.6, 10.1, 100.1, 1000.1, …"),
  (c!"pluralRule-count-other", c!" @integer 0, 2~16, 100, 1000, 10000, 100000, 1000000, … @decimal 0.0, 2.0, 3.0, 4.0, 5.0, 6.0, 7.0, 8.0, 10.0, 100.0, 1000.0, 10000.0, 100000.0, 1000000.0, …")]

/-- intl_pluralrules/cldr_data/cldr_pluralrules_cardinals.json: iu naq sat se sma smi smj smn sms. -/
def cardinalRules20 : RuleObj := [
  (c!"pluralRule-count-one", c!"n = 1 @integer 1 @decimal 1.0, 1.00, 1.000, 1.0000"),
  (c!"pluralRule-count-two", c!"n = 2 @integer 2 @decimal 2.0, 2.00, 2.000, 2.0000"),
  (c!"pluralRule-count-other", c!" @integer 0, 3~17, 100, 1000, 10000, 100000, 1000000, … @decimal 0.0~0.9, 1.1~1.6, 10.0, 100.0, 1000.0, 10000.0, 100000.0, 1000000.0, …")]

/-- intl_pluralrules/cldr_data/cldr_pluralrules_cardinals.json: ksh. -/
def cardinalRules21 : RuleObj := [
  (c!"pluralRule-count-zero", c!"n = 0 @integer 0 @decimal 0.0, 0.00, 0.000, 0.0000"),
  (c!"pluralRule-count-one", c!"n = 1 @integer 1 @decimal 1.0, 1.00, 1.000, 1.0000"),
  (c!"pluralRule-count-other", c!" @integer 2~17, 100, 1000, 10000, 100000, 1000000, … @decimal 0.1~0.9, 1.1~1.7, 10.0, 100.0, 1000.0, 10000.0, 100000.0, 1000000.0, …")]

/-- intl_pluralrules/cldr_data/cldr_pluralrules_cardinals.json: kw. -/
def cardinalRules22 : RuleObj := [
  (c!"pluralRule-count-zero", c!"n = 0 @integer 0 @decimal 0.0, 0.00, 0.000, 0.0000"),
  (c!"pluralRule-count-one", c!"n = 1 @integer 1 @decimal 1.0, 1.00, 1.000, 1.0000"),
  (c!"pluralRule-count-two", c!"n % 100 = 2,22,42,62,82 or n % 1000 = 0 and n % 100000 = 1000..20000,40000,60000,80000 or n != 0 and n % 1000000 = 100000 @integer 2, 22, 42, 62, 82, 102, 122, 142, 1000, 10000, 100000, … @decimal 2.0, 22.0, 42.0, 62.0, 82.0, 102.0, 122.0, 142.0, 1000.0, 10000.0, 100000.0, …"),
  (c!"pluralRule-count-few", c!"n % 100 = 3,23,43,63,83 @integer 3, 23, 43, 63, 83, 103, 123, 143, 1003, … @decimal 3.0, 23.0, 43.0, 63.0, 83.0, 103.0, 123.0, 143.0, 1003.0, …"),
  (c!"pluralRule-count-many", c!"n != 1 and n % 100 = 1,21,41,61,81 @integer 21, 41, 61, 81, 101, 121, 141, 161, 1001, … @decimal 21.0, 41.0, 61.0, 81.0, 101.0, 121.0, 141.0, 161.0, 1001.0, …"),
  (c!"pluralRule-count-other", c!" @integer 4~19, 100, 1004, 1000000, … @decimal 0.1~0.9, 1.1~1.7, 10.0, 100.0, 1000.1, 1000000.0, …")]

/-- intl_pluralrules/cldr_data/cldr_pluralrules_cardinals.json: lag. -/
def cardinalRules23 : RuleObj := [
  (c!"pluralRule-count-zero", c!"n = 0 @integer 0 @decimal 0.0, 0.00, 0.000, 0.0000"),
  (c!"pluralRule-count-one", c!"i = 0,1 and n != 0 @integer 1 @decimal 0.1~1.6"),
  (c!"pluralRule-count-other", c!" @integer 2~17, 100, 1000, 10000, 100000, 1000000, … @decimal 2.0~3.5, 10.0, 100.0, 1000.0, 10000.0, 100000.0, 1000000.0, …")]

/-- intl_pluralrules/cldr_data/cldr_pluralrules_cardinals.json: lt. -/
def cardinalRules24 : RuleObj := [
  (c!"pluralRule-count-one", c!"n % 10 = 1 and n % 100 != 11..19 @integer 1, 21, 31, 41, 51, 61, 71, 81, 101, 1001, … @decimal 1.0, 21.0, 31.0, 41.0, 51.0, 61.0, 71.0, 81.0, 101.0, 1001.0, …"),
  (c!"pluralRule-count-few", c!"n % 10 = 2..9 and n % 100 != 11..19 @integer 2~9, 22~29, 102, 1002, … @decimal 2.0, 3.0, 4.0, 5.0, 6.0, 7.0, 8.0, 9.0, 22.0, 102.0, 1002.0, …"),
  (c!"pluralRule-count-many", c!"f != 0   @decimal 0.1~0.9, 1.1~1.7, 10.1, 100.1, 1000.1, …"),
  (c!"pluralRule-count-other", c!" @integer 0, 10~20, 30, 40, 50, 60, 100, 1000, 10000, 100000, 1000000, … @decimal 0.0, 10.0, 11.0, 12.0, 13.0, 14.0, 15.0, 16.0, 100.0, 1000.0, 10000.0, 100000.0, 1000000.0, …")]

/-- intl_pluralrules/cldr_data/cldr_pluralrules_cardinals.json: lv prg. -/
def cardinalRules25 : RuleObj := [
  (c!"pluralRule-count-zero", c!"n % 10 = 0 or n % 100 = 11..19 or v = 2 and f % 100 = 11..19 @integer 0, 10~20, 30, 40, 50, 60, 100, 1000, 10000, 100000, 1000000, … @decimal 0.0, 10.0, 11.0, 12.0, 13.0, 14.0, 15.0, 16.0, 100.0, 1000.0, 10000.0, 100000.0, 1000000.0, …"),
  (c!"pluralRule-count-one", c!"n % 10 = 1 and n % 100 != 11 or v = 2 and f % 10 = 1 and f % 100 != 11 or v != 2 and f % 10 = 1 @integer 1, 21, 31, 41, 51, 61, 71, 81, 101, 1001, … @decimal 0.1, 1.0, 1.1, 2.1, 3.1, 4.1, 5.1, 6.1, 7.1, 10.1, 100.1, 1000.1, …"),
  (c!"pluralRule-count-other", c!" @integer 2~9, 22~29, 102, 1002, … @decimal 0.2~0.9, 1.2~1.9, 10.2, 100.2, 1000.2, …")]

/-- intl_pluralrules/cldr_data/cldr_pluralrules_cardinals.json: mk. -/
def cardinalRules26 : RuleObj := [
  (c!"pluralRule-count-one", c!"v = 0 and i % 10 = 1 and i % 100 != 11 or f % 10 = 1 and f % 100 != 11 @integer 1, 21, 31, 41, 51, 61, 71, 81, 101, 1001, … @decimal 0.1, 1.1, 2.1, 3.1, 4.1, 5.1, 6.1, 7.1, 10.1, 100.1, 1000.1, …"),
  (c!"pluralRule-count-other", c!" @integer 0, 2~16, 100, 1000, 10000, 100000, 1000000, … @decimal 0.0, 0.2~1.0, 1.2~1.7, 10.0, 100.0, 1000.0, 10000.0, 100000.0, 1000000.0, …")]

/-- intl_pluralrules/cldr_data/cldr_pluralrules_cardinals.json: mo ro. -/
def cardinalRules27 : RuleObj := [
  (c!"pluralRule-count-one", c!"i = 1 and v = 0 @integer 1"),
  (c!"pluralRule-count-few", c!"v != 0 or n = 0 or n % 100 = 2..19 @integer 0, 2~16, 102, 1002, … @decimal 0.0~1.5, 10.0, 100.0, 1000.0, 10000.0, 100000.0, 1000000.0, …"),
  (c!"pluralRule-count-other", c!" @integer 20~35, 100, 1000, 10000, 100000, 1000000, …")]

/-- intl_pluralrules/cldr_data/cldr_pluralrules_cardinals.json: mt. -/
def cardinalRules28 : RuleObj := [
  (c!"pluralRule-count-one", c!"n = 1 @integer 1 @decimal 1.0, 1.00, 1.000, 1.0000"),
  (c!"pluralRule-count-few", c!"n = 0 or n % 100 = 2..10 @integer 0, 2~10, 102~107, 1002, … @decimal 0.0, 2.0, 3.0, 4.0, 5.0, 6.0, 7.0, 8.0, 10.0, 102.0, 1002.0, …"),
  (c!"pluralRule-count-many", c!"n % 100 = 11..19 @integer 11~19, 111~117, 1011, … @decimal 11.0, 12.0, 13.0, 14.0, 15.0, 16.0, 17.0, 18.0, 111.0, 1011.0, …"),
  (c!"pluralRule-count-other", c!" @integer 20~35, 100, 1000, 10000, 100000, 1000000, … @decimal 0.1~0.9, 1.1~1.7, 10.1, 100.0, 1000.0, 10000.0, 100000.0, 1000000.0, …")]

/-- intl_pluralrules/cldr_data/cldr_pluralrules_cardinals.json: pl. -/
def cardinalRules29 : RuleObj := [
  (c!"pluralRule-count-one", c!"i = 1 and v = 0 @integer 1"),
  (c!"pluralRule-count-few", c!"v = 0 and i % 10 = 2..4 and i % 100 != 12..14 @integer 2~4, 22~24, 32~34, 42~44, 52~54, 62, 102, 1002, …"),
  (c!"pluralRule-count-many", c!"v = 0 and i != 1 and i % 10 = 0..1 or v = 0 and i % 10 = 5..9 or v = 0 and i % 100 = 12..14 @integer 0, 5~19, 100, 1000, 10000, 100000, 1000000, …"),
  (c!"pluralRule-count-other", c!"   @decimal 0.0~1.5, 10.0, 100.0, 1000.0, 10000.0, 100000.0, 1000000.0, …")]

/-- intl_pluralrules/cldr_data/cldr_pluralrules_cardinals.json: pt. -/
def cardinalRules30 : RuleObj := [
  (c!"pluralRule-count-one", c!"i = 0..1 @integer 0, 1 @decimal 0.0~1.5"),
  (c!"pluralRule-count-other", c!" @integer 2~17, 100, 1000, 10000, 100000, 1000000, … @decimal 2.0~3.5, 10.0, 100.0, 1000.0, 10000.0, 100000.0, 1000000.0, …")]

/-- intl_pluralrules/cldr_data/cldr_pluralrules_cardinals.json: ru uk. -/
def cardinalRules31 : RuleObj := [
  (c!"pluralRule-count-one", c!"v = 0 and i % 10 = 1 and i % 100 != 11 @integer 1, 21, 31, 41, 51, 61, 71, 81, 101, 1001, …"),
  (c!"pluralRule-count-few", c!"v = 0 and i % 10 = 2..4 and i % 100 != 12..14 @integer 2~4, 22~24, 32~34, 42~44, 52~54, 62, 102, 1002, …"),
  (c!"pluralRule-count-many", c!"v = 0 and i % 10 = 0 or v = 0 and i % 10 = 5..9 or v = 0 and i % 100 = 11..14 @integer 0, 5~19, 100, 1000, 10000, 100000, 1000000, …"),
  (c!"pluralRule-count-other", c!"   @decimal 0.0~1.5, 10.0, 100.0, 1000.0, 10000.0, 100000.0, 1000000.0, …")]

/-- intl_pluralrules/cldr_data/cldr_pluralrules_cardinals.json: shi. -/
def cardinalRules32 : RuleObj := [
  (c!"pluralRule-count-one", c!"i = 0 or n = 1 @integer 0, 1 @decimal 0.0~1.0, 0.00~0.04"),
  (c!"pluralRule-count-few", c!"n = 2..10 @integer 2~10 @decimal 2.0, 3.0, 4.0, 5.0, 6.0, 7.0, 8.0, 9.0, 10.0, 2.00, 3.00, 4.00, 5.00, 6.00, 7.00, 8.00"),
  (c!"pluralRule-count-other", c!" @integer 11~26, 100, 1000, 10000, 100000, 1000000, … @decimal 1.1~1.9, 2.1~2.7, 10.1, 100.0, 1000.0, 10000.0, 100000.0, 1000000.0, …")]

/-- intl_pluralrules/cldr_data/cldr_pluralrules_cardinals.json: si. -/
def cardinalRules33 : RuleObj := [
  (c!"pluralRule-count-one", c!"n = 0,1 or i = 0 and f = 1 @integer 0, 1 @decimal 0.0, 0.1, 1.0, 0.00, 0.01, 1.00, 0.000, 0.001, 1.000, 0.0000, 0.0001, 1.0000"),
  (c!"pluralRule-count-other", c!" @integer 2~17, 100, 1000, 10000, 100000, 1000000, … @decimal 0.2~0.9, 1.1~1.8, 10.0, 100.0, 1000.0, 10000.0, 100000.0, 1000000.0, …")]

/-- intl_pluralrules/cldr_data/cldr_pluralrules_cardinals.json: sl. -/
def cardinalRules34 : RuleObj := [
  (c!"pluralRule-count-one", c!"v = 0 and i % 100 = 1 @integer 1, 101, 201, 301, 401, 501, 601, 701, 1001, …"),
  (c!"pluralRule-count-two", c!"v = 0 and i % 100 = 2 @integer 2, 102, 202, 302, 402, 502, 602, 702, 1002, …"),
  (c!"pluralRule-count-few", c!"v = 0 and i % 100 = 3..4 or v != 0 @integer 3, 4, 103, 104, 203, 204, 303, 304, 403, 404, 503, 504, 603, 604, 703, 704, 1003, … @decimal 0.0~1.5, 10.0, 100.0, 1000.0, 10000.0, 100000.0, 1000000.0, …"),
  (c!"pluralRule-count-other", c!" @integer 0, 5~19, 100, 1000, 10000, 100000, 1000000, …")]

/-- intl_pluralrules/cldr_data/cldr_pluralrules_cardinals.json: tzm. -/
def cardinalRules35 : RuleObj := [
  (c!"pluralRule-count-one", c!"n = 0..1 or n = 11..99 @integer 0, 1, 11~24 @decimal 0.0, 1.0, 11.0, 12.0, 13.0, 14.0, 15.0, 16.0, 17.0, 18.0, 19.0, 20.0, 21.0, 22.0, 23.0, 24.0"),
  (c!"pluralRule-count-other", c!" @integer 2~10, 100~106, 1000, 10000, 100000, 1000000, … @decimal 0.1~0.9, 1.1~1.7, 10.0, 100.0, 1000.0, 10000.0, 100000.0, 1000000.0, …")]

/-- intl_pluralrules/cldr_data/cldr_pluralrules_cardinals.json, in file order. -/
def cardinal : TypeObj := [
  (c!"af", cardinalRules0),
  (c!"ak", cardinalRules1),
  (c!"am", cardinalRules2),
  (c!"an", cardinalRules0),
  (c!"ar", cardinalRules3),
  (c!"ars", cardinalRules3),
  (c!"as", cardinalRules2),
  (c!"asa", cardinalRules0),
  (c!"ast", cardinalRules4),
  (c!"az", cardinalRules0),
  (c!"be", cardinalRules5),
  (c!"bem", cardinalRules0),
  (c!"bez", cardinalRules0),
  (c!"bg", cardinalRules0),
  (c!"bho", cardinalRules1),
  (c!"bm", cardinalRules6),
  (c!"bn", cardinalRules2),
  (c!"bo", cardinalRules6),
  (c!"br", cardinalRules7),
  (c!"brx", cardinalRules0),
  (c!"bs", cardinalRules8),
  (c!"ca", cardinalRules4),
  (c!"ce", cardinalRules0),
  (c!"ceb", cardinalRules9),
  (c!"cgg", cardinalRules0),
  (c!"chr", cardinalRules0),
  (c!"ckb", cardinalRules0),
  (c!"cs", cardinalRules10),
  (c!"cy", cardinalRules11),
  (c!"da", cardinalRules12),
  (c!"de", cardinalRules4),
  (c!"dsb", cardinalRules13),
  (c!"dv", cardinalRules0),
  (c!"dz", cardinalRules6),
  (c!"ee", cardinalRules0),
  (c!"el", cardinalRules0),
  (c!"en", cardinalRules4),
  (c!"eo", cardinalRules0),
  (c!"es", cardinalRules0),
  (c!"et", cardinalRules4),
  (c!"eu", cardinalRules0),
  (c!"fa", cardinalRules2),
  (c!"ff", cardinalRules14),
  (c!"fi", cardinalRules4),
  (c!"fil", cardinalRules9),
  (c!"fo", cardinalRules0),
  (c!"fr", cardinalRules14),
  (c!"fur", cardinalRules0),
  (c!"fy", cardinalRules4),
  (c!"ga", cardinalRules15),
  (c!"gd", cardinalRules16),
  (c!"gl", cardinalRules4),
  (c!"gsw", cardinalRules0),
  (c!"gu", cardinalRules2),
  (c!"guw", cardinalRules1),
  (c!"gv", cardinalRules17),
  (c!"ha", cardinalRules0),
  (c!"haw", cardinalRules0),
  (c!"he", cardinalRules18),
  (c!"hi", cardinalRules2),
  (c!"hr", cardinalRules8),
  (c!"hsb", cardinalRules13),
  (c!"hu", cardinalRules0),
  (c!"hy", cardinalRules14),
  (c!"ia", cardinalRules4),
  (c!"id", cardinalRules6),
  (c!"ig", cardinalRules6),
  (c!"ii", cardinalRules6),
  (c!"in", cardinalRules6),
  (c!"io", cardinalRules4),
  (c!"is", cardinalRules19),
  (c!"it", cardinalRules4),
  (c!"iu", cardinalRules20),
  (c!"iw", cardinalRules18),
  (c!"ja", cardinalRules6),
  (c!"jbo", cardinalRules6),
  (c!"jgo", cardinalRules0),
  (c!"ji", cardinalRules4),
  (c!"jmc", cardinalRules0),
  (c!"jv", cardinalRules6),
  (c!"jw", cardinalRules6),
  (c!"ka", cardinalRules0),
  (c!"kab", cardinalRules14),
  (c!"kaj", cardinalRules0),
  (c!"kcg", cardinalRules0),
  (c!"kde", cardinalRules6),
  (c!"kea", cardinalRules6),
  (c!"kk", cardinalRules0),
  (c!"kkj", cardinalRules0),
  (c!"kl", cardinalRules0),
  (c!"km", cardinalRules6),
  (c!"kn", cardinalRules2),
  (c!"ko", cardinalRules6),
  (c!"ks", cardinalRules0),
  (c!"ksb", cardinalRules0),
  (c!"ksh", cardinalRules21),
  (c!"ku", cardinalRules0),
  (c!"kw", cardinalRules22),
  (c!"ky", cardinalRules0),
  (c!"lag", cardinalRules23),
  (c!"lb", cardinalRules0),
  (c!"lg", cardinalRules0),
  (c!"lkt", cardinalRules6),
  (c!"ln", cardinalRules1),
  (c!"lo", cardinalRules6),
  (c!"lt", cardinalRules24),
  (c!"lv", cardinalRules25),
  (c!"mas", cardinalRules0),
  (c!"mg", cardinalRules1),
  (c!"mgo", cardinalRules0),
  (c!"mk", cardinalRules26),
  (c!"ml", cardinalRules0),
  (c!"mn", cardinalRules0),
  (c!"mo", cardinalRules27),
  (c!"mr", cardinalRules0),
  (c!"ms", cardinalRules6),
  (c!"mt", cardinalRules28),
  (c!"my", cardinalRules6),
  (c!"nah", cardinalRules0),
  (c!"naq", cardinalRules20),
  (c!"nb", cardinalRules0),
  (c!"nd", cardinalRules0),
  (c!"ne", cardinalRules0),
  (c!"nl", cardinalRules4),
  (c!"nn", cardinalRules0),
  (c!"nnh", cardinalRules0),
  (c!"no", cardinalRules0),
  (c!"nqo", cardinalRules6),
  (c!"nr", cardinalRules0),
  (c!"nso", cardinalRules1),
  (c!"ny", cardinalRules0),
  (c!"nyn", cardinalRules0),
  (c!"om", cardinalRules0),
  (c!"or", cardinalRules0),
  (c!"os", cardinalRules0),
  (c!"osa", cardinalRules6),
  (c!"pa", cardinalRules1),
  (c!"pap", cardinalRules0),
  (c!"pcm", cardinalRules2),
  (c!"pl", cardinalRules29),
  (c!"prg", cardinalRules25),
  (c!"ps", cardinalRules0),
  (c!"pt", cardinalRules30),
  (c!"pt-PT", cardinalRules4),
  (c!"rm", cardinalRules0),
  (c!"ro", cardinalRules27),
  (c!"rof", cardinalRules0),
  (c!"root", cardinalRules6),
  (c!"ru", cardinalRules31),
  (c!"rwk", cardinalRules0),
  (c!"sah", cardinalRules6),
  (c!"saq", cardinalRules0),
  (c!"sat", cardinalRules20),
  (c!"sc", cardinalRules4),
  (c!"scn", cardinalRules4),
  (c!"sd", cardinalRules0),
  (c!"sdh", cardinalRules0),
  (c!"se", cardinalRules20),
  (c!"seh", cardinalRules0),
  (c!"ses", cardinalRules6),
  (c!"sg", cardinalRules6),
  (c!"sh", cardinalRules8),
  (c!"shi", cardinalRules32),
  (c!"si", cardinalRules33),
  (c!"sk", cardinalRules10),
  (c!"sl", cardinalRules34),
  (c!"sma", cardinalRules20),
  (c!"smi", cardinalRules20),
  (c!"smj", cardinalRules20),
  (c!"smn", cardinalRules20),
  (c!"sms", cardinalRules20),
  (c!"sn", cardinalRules0),
  (c!"so", cardinalRules0),
  (c!"sq", cardinalRules0),
  (c!"sr", cardinalRules8),
  (c!"ss", cardinalRules0),
  (c!"ssy", cardinalRules0),
  (c!"st", cardinalRules0),
  (c!"su", cardinalRules6),
  (c!"sv", cardinalRules4),
  (c!"sw", cardinalRules4),
  (c!"syr", cardinalRules0),
  (c!"ta", cardinalRules0),
  (c!"te", cardinalRules0),
  (c!"teo", cardinalRules0),
  (c!"th", cardinalRules6),
  (c!"ti", cardinalRules1),
  (c!"tig", cardinalRules0),
  (c!"tk", cardinalRules0),
  (c!"tl", cardinalRules9),
  (c!"tn", cardinalRules0),
  (c!"to", cardinalRules6),
  (c!"tr", cardinalRules0),
  (c!"ts", cardinalRules0),
  (c!"tzm", cardinalRules35),
  (c!"ug", cardinalRules0),
  (c!"uk", cardinalRules31),
  (c!"ur", cardinalRules4),
  (c!"uz", cardinalRules0),
  (c!"ve", cardinalRules0),
  (c!"vi", cardinalRules6),
  (c!"vo", cardinalRules0),
  (c!"vun", cardinalRules0),
  (c!"wa", cardinalRules1),
  (c!"wae", cardinalRules0),
  (c!"wo", cardinalRules6),
  (c!"xh", cardinalRules0),
  (c!"xog", cardinalRules0),
  (c!"yi", cardinalRules4),
  (c!"yo", cardinalRules6),
  (c!"yue", cardinalRules6),
  (c!"zh", cardinalRules6),
  (c!"zu", cardinalRules2)]

/-- The distinct rule sets of intl_pluralrules/cldr_data/cldr_pluralrules_cardinals.json. -/
def cardinalRuleSets : List RuleObj := [cardinalRules0, cardinalRules1, cardinalRules2, cardinalRules3, cardinalRules4, cardinalRules5, cardinalRules6, cardinalRules7, cardinalRules8, cardinalRules9, cardinalRules10, cardinalRules11, cardinalRules12, cardinalRules13, cardinalRules14, cardinalRules15, cardinalRules16, cardinalRules17, cardinalRules18, cardinalRules19, cardinalRules20, cardinalRules21, cardinalRules22, cardinalRules23, cardinalRules24, cardinalRules25, cardinalRules26, cardinalRules27, cardinalRules28, cardinalRules29, cardinalRules30, cardinalRules31, cardinalRules32, cardinalRules33, cardinalRules34, cardinalRules35]

/-- intl_pluralrules/cldr_data/cldr_pluralrules_cardinals.json, the fields that are used. -/
def cardinalResource : Resource where
  cldrVersion := c!"37"
  cardinal := some cardinal
  ordinal := none

/-- intl_pluralrules/cldr_data/cldr_pluralrules_ordinals.json: af am an ar bg bs ce cs da de dsb el es et eu fa fi fy gl gsw he hr hsb ia id in is iw ja km kn ko ky lt lv ml mn my nb nl pa pl prg ps pt root ru sd sh si sk sl sr sw ta te th tr ur uz yue zh zu. -/
def ordinalRules0 : RuleObj := [
  (c!"pluralRule-count-other", c!" @integer 0~15, 100, 1000, 10000, 100000, 1000000, …")]

/-- intl_pluralrules/cldr_data/cldr_pluralrules_ordinals.json: as bn. -/
def ordinalRules1 : RuleObj := [
  (c!"pluralRule-count-one", c!"n = 1,5,7,8,9,10 @integer 1, 5, 7~10"),
  (c!"pluralRule-count-two", c!"n = 2,3 @integer 2, 3"),
  (c!"pluralRule-count-few", c!"n = 4 @integer 4"),
  (c!"pluralRule-count-many", c!"n = 6 @integer 6"),
  (c!"pluralRule-count-other", c!" @integer 0, 11~25, 100, 1000, 10000, 100000, 1000000, …")]

/-- intl_pluralrules/cldr_data/cldr_pluralrules_ordinals.json: az. -/
def ordinalRules2 : RuleObj := [
  (c!"pluralRule-count-one", c!"i % 10 = 1,2,5,7,8 or i % 100 = 20,50,70,80 @integer 1, 2, 5, 7, 8, 11, 12, 15, 17, 18, 20~22, 25, 101, 1001, …"),
  (c!"pluralRule-count-few", c!"i % 10 = 3,4 or i % 1000 = 100,200,300,400,500,600,700,800,900 @integer 3, 4, 13, 14, 23, 24, 33, 34, 43, 44, 53, 54, 63, 64, 73, 74, 100, 1003, …"),
  (c!"pluralRule-count-many", c!"i = 0 or i % 10 = 6 or i % 100 = 40,60,90 @integer 0, 6, 16, 26, 36, 40, 46, 56, 106, 1006, …"),
  (c!"pluralRule-count-other", c!" @integer 9, 10, 19, 29, 30, 39, 49, 59, 69, 79, 109, 1000, 10000, 100000, 1000000, …")]

/-- intl_pluralrules/cldr_data/cldr_pluralrules_ordinals.json: be. -/
def ordinalRules3 : RuleObj := [
  (c!"pluralRule-count-few", c!"n % 10 = 2,3 and n % 100 != 12,13 @integer 2, 3, 22, 23, 32, 33, 42, 43, 52, 53, 62, 63, 72, 73, 82, 83, 102, 1002, …"),
  (c!"pluralRule-count-other", c!" @integer 0, 1, 4~17, 100, 1000, 10000, 100000, 1000000, …")]

/-- intl_pluralrules/cldr_data/cldr_pluralrules_ordinals.json: ca. -/
def ordinalRules4 : RuleObj := [
  (c!"pluralRule-count-one", c!"n = 1,3 @integer 1, 3"),
  (c!"pluralRule-count-two", c!"n = 2 @integer 2"),
  (c!"pluralRule-count-few", c!"n = 4 @integer 4"),
  (c!"pluralRule-count-other", c!" @integer 0, 5~19, 100, 1000, 10000, 100000, 1000000, …")]

/-- intl_pluralrules/cldr_data/cldr_pluralrules_ordinals.json: cy. -/
def ordinalRules5 : RuleObj := [
  (c!"pluralRule-count-zero", c!"n = 0,7,8,9 @integer 0, 7~9"),
  (c!"pluralRule-count-one", c!"n = 1 @integer 1"),
  (c!"pluralRule-count-two", c!"n = 2 @integer 2"),
  (c!"pluralRule-count-few", c!"n = 3,4 @integer 3, 4"),
  (c!"pluralRule-count-many", c!"n = 5,6 @integer 5, 6"),
  (c!"pluralRule-count-other", c!" @integer 10~25, 100, 1000, 10000, 100000, 1000000, …")]

/-- intl_pluralrules/cldr_data/cldr_pluralrules_ordinals.json: en. -/
def ordinalRules6 : RuleObj := [
  (c!"pluralRule-count-one", c!"n % 10 = 1 and n % 100 != 11 @integer 1, 21, 31, 41, 51, 61, 71, 81, 101, 1001, …"),
  (c!"pluralRule-count-two", c!"n % 10 = 2 and n % 100 != 12 @integer 2, 22, 32, 42, 52, 62, 72, 82, 102, 1002, …"),
  (c!"pluralRule-count-few", c!"n % 10 = 3 and n % 100 != 13 @integer 3, 23, 33, 43, 53, 63, 73, 83, 103, 1003, …"),
  (c!"pluralRule-count-other", c!" @integer 0, 4~18, 100, 1000, 10000, 100000, 1000000, …")]

/-- intl_pluralrules/cldr_data/cldr_pluralrules_ordinals.json: fil fr ga hy lo mo ms ro tl vi. -/
def ordinalRules7 : RuleObj := [
  (c!"pluralRule-count-one", c!"n = 1 @integer 1"),
  (c!"pluralRule-count-other", c!" @integer 0, 2~16, 100, 1000, 10000, 100000, 1000000, …")]

/-- intl_pluralrules/cldr_data/cldr_pluralrules_ordinals.json: gd. -/
def ordinalRules8 : RuleObj := [
  (c!"pluralRule-count-one", c!"n = 1,11 @integer 1, 11"),
  (c!"pluralRule-count-two", c!"n = 2,12 @integer 2, 12"),
  (c!"pluralRule-count-few", c!"n = 3,13 @integer 3, 13"),
  (c!"pluralRule-count-other", c!" @integer 0, 4~10, 14~21, 100, 1000, 10000, 100000, 1000000, …")]

/-- intl_pluralrules/cldr_data/cldr_pluralrules_ordinals.json: gu hi. -/
def ordinalRules9 : RuleObj := [
  (c!"pluralRule-count-one", c!"n = 1 @integer 1"),
  (c!"pluralRule-count-two", c!"n = 2,3 @integer 2, 3"),
  (c!"pluralRule-count-few", c!"n = 4 @integer 4"),
  (c!"pluralRule-count-many", c!"n = 6 @integer 6"),
  (c!"pluralRule-count-other", c!" @integer 0, 5, 7~20, 100, 1000, 10000, 100000, 1000000, …")]

/-- intl_pluralrules/cldr_data/cldr_pluralrules_ordinals.json: hu. -/
def ordinalRules10 : RuleObj := [
  (c!"pluralRule-count-one", c!"n = 1,5 @integer 1, 5"),
  (c!"pluralRule-count-other", c!" @integer 0, 2~4, 6~17, 100, 1000, 10000, 100000, 1000000, …")]

/-- intl_pluralrules/cldr_data/cldr_pluralrules_ordinals.json: it sc scn. -/
def ordinalRules11 : RuleObj := [
  (c!"pluralRule-count-many", c!"n = 11,8,80,800 @integer 8, 11, 80, 800"),
  (c!"pluralRule-count-other", c!" @integer 0~7, 9, 10, 12~17, 100, 1000, 10000, 100000, 1000000, …")]

/-- intl_pluralrules/cldr_data/cldr_pluralrules_ordinals.json: ka. -/
def ordinalRules12 : RuleObj := [
  (c!"pluralRule-count-one", c!"i = 1 @integer 1"),
  (c!"pluralRule-count-many", c!"i = 0 or i % 100 = 2..20,40,60,80 @integer 0, 2~16, 102, 1002, …"),
  (c!"pluralRule-count-other", c!" @integer 21~36, 100, 1000, 10000, 100000, 1000000, …")]

/-- intl_pluralrules/cldr_data/cldr_pluralrules_ordinals.json: kk. -/
def ordinalRules13 : RuleObj := [
  (c!"pluralRule-count-many", c!"n % 10 = 6 or n % 10 = 9 or n % 10 = 0 and n != 0 @integer 6, 9, 10, 16, 19, 20, 26, 29, 30, 36, 39, 40, 100, 1000, 10000, 100000, 1000000, …"),
  (c!"pluralRule-count-other", c!" @integer 0~5, 7, 8, 11~15, 17, 18, 21, 101, 1001, …")]

/-- intl_pluralrules/cldr_data/cldr_pluralrules_ordinals.json: kw. -/
def ordinalRules14 : RuleObj := [
  (c!"pluralRule-count-one", c!"n = 1..4 or n % 100 = 1..4,21..24,41..44,61..64,81..84 @integer 1~4, 21~24, 41~44, 61~64, 101, 1001, …"),
  (c!"pluralRule-count-many", c!"n = 5 or n % 100 = 5 @integer 5, 105, 205, 305, 405, 505, 605, 705, 1005, …"),
  (c!"pluralRule-count-other", c!" @integer 0, 6~20, 100, 1000, 10000, 100000, 1000000, …")]

/-- intl_pluralrules/cldr_data/cldr_pluralrules_ordinals.json: mk. -/
def ordinalRules15 : RuleObj := [
  (c!"pluralRule-count-one", c!"i % 10 = 1 and i % 100 != 11 @integer 1, 21, 31, 41, 51, 61, 71, 81, 101, 1001, …"),
  (c!"pluralRule-count-two", c!"i % 10 = 2 and i % 100 != 12 @integer 2, 22, 32, 42, 52, 62, 72, 82, 102, 1002, …"),
  (c!"pluralRule-count-many", c!"i % 10 = 7,8 and i % 100 != 17,18 @integer 7, 8, 27, 28, 37, 38, 47, 48, 57, 58, 67, 68, 77, 78, 87, 88, 107, 1007, …"),
  (c!"pluralRule-count-other", c!" @integer 0, 3~6, 9~19, 100, 1000, 10000, 100000, 1000000, …")]

/-- intl_pluralrules/cldr_data/cldr_pluralrules_ordinals.json: mr. -/
def ordinalRules16 : RuleObj := [
  (c!"pluralRule-count-one", c!"n = 1 @integer 1"),
  (c!"pluralRule-count-two", c!"n = 2,3 @integer 2, 3"),
  (c!"pluralRule-count-few", c!"n = 4 @integer 4"),
  (c!"pluralRule-count-other", c!" @integer 0, 5~19, 100, 1000, 10000, 100000, 1000000, …")]

/-- intl_pluralrules/cldr_data/cldr_pluralrules_ordinals.json: ne. -/
def ordinalRules17 : RuleObj := [
  (c!"pluralRule-count-one", c!"n = 1..4 @integer 1~4"),
  (c!"pluralRule-count-other", c!" @integer 0, 5~19, 100, 1000, 10000, 100000, 1000000, …")]

/-- intl_pluralrules/cldr_data/cldr_pluralrules_ordinals.json: or. -/
def ordinalRules18 : RuleObj := [
  (c!"pluralRule-count-one", c!"n = 1,5,7..9 @integer 1, 5, 7~9"),
  (c!"pluralRule-count-two", c!"n = 2,3 @integer 2, 3"),
  (c!"pluralRule-count-few", c!"n = 4 @integer 4"),
  (c!"pluralRule-count-many", c!"n = 6 @integer 6"),
  (c!"pluralRule-count-other", c!" @integer 0, 10~24, 100, 1000, 10000, 100000, 1000000, …")]

/-- intl_pluralrules/cldr_data/cldr_pluralrules_ordinals.json: sq. -/
def ordinalRules19 : RuleObj := [
  (c!"pluralRule-count-one", c!"n = 1 @integer 1"),
  (c!"pluralRule-count-many", c!"n % 10 = 4 and n % 100 != 14 @integer 4, 24, 34, 44, 54, 64, 74, 84, 104, 1004, …"),
  (c!"pluralRule-count-other", c!" @integer 0, 2, 3, 5~17, 100, 1000, 10000, 100000, 1000000, …")]

/-- intl_pluralrules/cldr_data/cldr_pluralrules_ordinals.json: sv. -/
def ordinalRules20 : RuleObj := [
  (c!"pluralRule-count-one", c!"n % 10 = 1,2 and n % 100 != 11,12 @integer 1, 2, 21, 22, 31, 32, 41, 42, 51, 52, 61, 62, 71, 72, 81, 82, 101, 1001, …"),
  (c!"pluralRule-count-other", c!" @integer 0, 3~17, 100, 1000, 10000, 100000, 1000000, …")]

/-- intl_pluralrules/cldr_data/cldr_pluralrules_ordinals.json: tk. -/
def ordinalRules21 : RuleObj := [
  (c!"pluralRule-count-few", c!"n % 10 = 6,9 or n = 10 @integer 6, 9, 10, 16, 19, 26, 29, 36, 39, 106, 1006, …"),
  (c!"pluralRule-count-other", c!" @integer 0~5, 7, 8, 11~15, 17, 18, 20, 100, 1000, 10000, 100000, 1000000, …")]

/-- intl_pluralrules/cldr_data/cldr_pluralrules_ordinals.json: uk. -/
def ordinalRules22 : RuleObj := [
  (c!"pluralRule-count-few", c!"n % 10 = 3 and n % 100 != 13 @integer 3, 23, 33, 43, 53, 63, 73, 83, 103, 1003, …"),
  (c!"pluralRule-count-other", c!" @integer 0~2, 4~16, 100, 1000, 10000, 100000, 1000000, …")]

/-- intl_pluralrules/cldr_data/cldr_pluralrules_ordinals.json, in file order. -/
def ordinal : TypeObj := [
  (c!"af", ordinalRules0),
  (c!"am", ordinalRules0),
  (c!"an", ordinalRules0),
  (c!"ar", ordinalRules0),
  (c!"as", ordinalRules1),
  (c!"az", ordinalRules2),
  (c!"be", ordinalRules3),
  (c!"bg", ordinalRules0),
  (c!"bn", ordinalRules1),
  (c!"bs", ordinalRules0),
  (c!"ca", ordinalRules4),
  (c!"ce", ordinalRules0),
  (c!"cs", ordinalRules0),
  (c!"cy", ordinalRules5),
  (c!"da", ordinalRules0),
  (c!"de", ordinalRules0),
  (c!"dsb", ordinalRules0),
  (c!"el", ordinalRules0),
  (c!"en", ordinalRules6),
  (c!"es", ordinalRules0),
  (c!"et", ordinalRules0),
  (c!"eu", ordinalRules0),
  (c!"fa", ordinalRules0),
  (c!"fi", ordinalRules0),
  (c!"fil", ordinalRules7),
  (c!"fr", ordinalRules7),
  (c!"fy", ordinalRules0),
  (c!"ga", ordinalRules7),
  (c!"gd", ordinalRules8),
  (c!"gl", ordinalRules0),
  (c!"gsw", ordinalRules0),
  (c!"gu", ordinalRules9),
  (c!"he", ordinalRules0),
  (c!"hi", ordinalRules9),
  (c!"hr", ordinalRules0),
  (c!"hsb", ordinalRules0),
  (c!"hu", ordinalRules10),
  (c!"hy", ordinalRules7),
  (c!"ia", ordinalRules0),
  (c!"id", ordinalRules0),
  (c!"in", ordinalRules0),
  (c!"is", ordinalRules0),
  (c!"it", ordinalRules11),
  (c!"iw", ordinalRules0),
  (c!"ja", ordinalRules0),
  (c!"ka", ordinalRules12),
  (c!"kk", ordinalRules13),
  (c!"km", ordinalRules0),
  (c!"kn", ordinalRules0),
  (c!"ko", ordinalRules0),
  (c!"kw", ordinalRules14),
  (c!"ky", ordinalRules0),
  (c!"lo", ordinalRules7),
  (c!"lt", ordinalRules0),
  (c!"lv", ordinalRules0),
  (c!"mk", ordinalRules15),
  (c!"ml", ordinalRules0),
  (c!"mn", ordinalRules0),
  (c!"mo", ordinalRules7),
  (c!"mr", ordinalRules16),
  (c!"ms", ordinalRules7),
  (c!"my", ordinalRules0),
  (c!"nb", ordinalRules0),
  (c!"ne", ordinalRules17),
  (c!"nl", ordinalRules0),
  (c!"or", ordinalRules18),
  (c!"pa", ordinalRules0),
  (c!"pl", ordinalRules0),
  (c!"prg", ordinalRules0),
  (c!"ps", ordinalRules0),
  (c!"pt", ordinalRules0),
  (c!"ro", ordinalRules7),
  (c!"root", ordinalRules0),
  (c!"ru", ordinalRules0),
  (c!"sc", ordinalRules11),
  (c!"scn", ordinalRules11),
  (c!"sd", ordinalRules0),
  (c!"sh", ordinalRules0),
  (c!"si", ordinalRules0),
  (c!"sk", ordinalRules0),
  (c!"sl", ordinalRules0),
  (c!"sq", ordinalRules19),
  (c!"sr", ordinalRules0),
  (c!"sv", ordinalRules20),
  (c!"sw", ordinalRules0),
  (c!"ta", ordinalRules0),
  (c!"te", ordinalRules0),
  (c!"th", ordinalRules0),
  (c!"tk", ordinalRules21),
  (c!"tl", ordinalRules7),
  (c!"tr", ordinalRules0),
  (c!"uk", ordinalRules22),
  (c!"ur", ordinalRules0),
  (c!"uz", ordinalRules0),
  (c!"vi", ordinalRules7),
  (c!"yue", ordinalRules0),
  (c!"zh", ordinalRules0),
  (c!"zu", ordinalRules0)]

/-- The distinct rule sets of intl_pluralrules/cldr_data/cldr_pluralrules_ordinals.json. -/
def ordinalRuleSets : List RuleObj := [ordinalRules0, ordinalRules1, ordinalRules2, ordinalRules3, ordinalRules4, ordinalRules5, ordinalRules6, ordinalRules7, ordinalRules8, ordinalRules9, ordinalRules10, ordinalRules11, ordinalRules12, ordinalRules13, ordinalRules14, ordinalRules15, ordinalRules16, ordinalRules17, ordinalRules18, ordinalRules19, ordinalRules20, ordinalRules21, ordinalRules22]

/-- intl_pluralrules/cldr_data/cldr_pluralrules_ordinals.json, the fields that are used. -/
def ordinalResource : Resource where
  cldrVersion := c!"37"
  cardinal := none
  ordinal := some ordinal

end Verif.CldrData
