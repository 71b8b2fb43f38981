import Verif.Rust
import Verif.LangId

/-!
# The two tables of `intl_pluralrules/src/rules.rs`

Written by tools/gen_tables.py.  Locales with the same function share a definition.  `Verif.Props.Tables` proves that the text of
every entry reads as the entry given here.
-/

namespace Verif.RulesTable
open Verif Rust

/-- rules.rs:16-2449, the function of: af an asa az bem bez bg brx ce cgg chr ckb dv ee el eo es eu fo fur gsw ha haw hu jgo jmc ka kaj kcg kk kkj kl ks ksb ku ky lb lg mas mgo ml mn mr nah nb nd ne nn nnh no nr ny nyn om or os pap ps rm rof rwk saq sd sdh seh sn so sq ss ssy st syr ta te teo tig tk tn tr ts ug uz ve vo vun wae xh xog. -/
def cardinalFn0 : Closure where
  arms := [(.cmp .eq (.field .N) (.flt 1), .ONE)]
  last := .OTHER

/-- rules.rs:16-2449, the function of: ak bho guw ln mg nso pa ti wa. -/
def cardinalFn1 : Closure where
  arms := [(.and (.contains 0 1 (.field .I)) (.cmp .eq (.field .F) (.int 0)), .ONE)]
  last := .OTHER

/-- rules.rs:16-2449, the function of: am as bn fa gu hi kn pcm zu. -/
def cardinalFn2 : Closure where
  arms := [(.or (.cmp .eq (.field .I) (.int 0)) (.cmp .eq (.field .N) (.flt 1)), .ONE)]
  last := .OTHER

/-- rules.rs:16-2449, the function of: ar ars. -/
def cardinalFn3 : Closure where
  arms := [(.contains 3 10 (.field .I), .FEW),
    (.contains 11 99 (.field .I), .MANY),
    (.cmp .eq (.field .N) (.flt 1), .ONE),
    (.cmp .eq (.field .N) (.flt 2), .TWO),
    (.cmp .eq (.field .N) (.flt 0), .ZERO)]
  last := .OTHER

/-- rules.rs:16-2449, the function of: ast ca de en et fi fy gl ia io it ji nl pt-PT sc scn sv sw ur yi. -/
def cardinalFn4 : Closure where
  arms := [(.and (.cmp .eq (.field .I) (.int 1)) (.cmp .eq (.field .V) (.int 0)), .ONE)]
  last := .OTHER

/-- rules.rs:16-2449, the function of: be. -/
def cardinalFn5 : Closure where
  arms := [(.and (.contains 2 4 (.field .I)) (.not (.contains 12 14 (.field .I))), .FEW),
    (.or (.or (.cmp .eq (.rem (.field .I) (.int 10)) (.int 0)) (.contains 5 9 (.field .I))) (.contains 11 14 (.field .I)), .MANY),
    (.and (.cmp .eq (.rem (.field .I) (.int 10)) (.int 1)) (.cmp .ne (.rem (.field .I) (.int 100)) (.int 11)), .ONE)]
  last := .OTHER

/-- rules.rs:16-2449, the function of: bm bo dz id ig ii in ja jbo jv jw kde kea km ko lkt lo ms my nqo osa sah ses sg su th to vi wo yo yue zh. -/
def cardinalFn6 : Closure where
  arms := []
  last := .OTHER

/-- rules.rs:16-2449, the function of: br. -/
def cardinalFn7 : Closure where
  arms := [(.and (.and (.and (.or (.cmp .eq (.rem (.field .I) (.int 10)) (.int 9)) (.contains 3 4 (.field .I))) (.not (.contains 10 19 (.field .I)))) (.not (.contains 70 79 (.field .I)))) (.not (.contains 90 99 (.field .I))), .FEW),
    (.and (.cmp .ne (.field .N) (.flt 0)) (.cmp .eq (.rem (.field .I) (.int 1000000)) (.int 0)), .MANY),
    (.and (.and (.and (.cmp .eq (.rem (.field .I) (.int 10)) (.int 1)) (.cmp .ne (.rem (.field .I) (.int 100)) (.int 11))) (.cmp .ne (.rem (.field .I) (.int 100)) (.int 71))) (.cmp .ne (.rem (.field .I) (.int 100)) (.int 91)), .ONE),
    (.and (.and (.and (.cmp .eq (.rem (.field .I) (.int 10)) (.int 2)) (.cmp .ne (.rem (.field .I) (.int 100)) (.int 12))) (.cmp .ne (.rem (.field .I) (.int 100)) (.int 72))) (.cmp .ne (.rem (.field .I) (.int 100)) (.int 92)), .TWO)]
  last := .OTHER

/-- rules.rs:16-2449, the function of: bs hr sh sr. -/
def cardinalFn8 : Closure where
  arms := [(.or (.and (.and (.cmp .eq (.field .V) (.int 0)) (.contains 2 4 (.rem (.field .I) (.int 10)))) (.not (.contains 12 14 (.rem (.field .I) (.int 100))))) (.and (.contains 2 4 (.rem (.field .F) (.int 10))) (.not (.contains 12 14 (.rem (.field .F) (.int 100))))), .FEW),
    (.or (.and (.and (.cmp .eq (.field .V) (.int 0)) (.cmp .eq (.rem (.field .I) (.int 10)) (.int 1))) (.cmp .ne (.rem (.field .I) (.int 100)) (.int 11))) (.and (.cmp .eq (.rem (.field .F) (.int 10)) (.int 1)) (.cmp .ne (.rem (.field .F) (.int 100)) (.int 11))), .ONE)]
  last := .OTHER

/-- rules.rs:16-2449, the function of: ceb fil tl. -/
def cardinalFn9 : Closure where
  arms := [(.or (.or (.and (.cmp .eq (.field .V) (.int 0)) (.or (.or (.cmp .eq (.field .I) (.int 1)) (.cmp .eq (.field .I) (.int 2))) (.cmp .eq (.field .I) (.int 3)))) (.and (.and (.and (.cmp .eq (.field .V) (.int 0)) (.cmp .ne (.rem (.field .I) (.int 10)) (.int 4))) (.cmp .ne (.rem (.field .I) (.int 10)) (.int 6))) (.cmp .ne (.rem (.field .I) (.int 10)) (.int 9)))) (.and (.and (.and (.cmp .ne (.field .V) (.int 0)) (.cmp .ne (.rem (.field .F) (.int 10)) (.int 4))) (.cmp .ne (.rem (.field .F) (.int 10)) (.int 6))) (.cmp .ne (.rem (.field .F) (.int 10)) (.int 9))), .ONE)]
  last := .OTHER

/-- rules.rs:16-2449, the function of: cs sk. -/
def cardinalFn10 : Closure where
  arms := [(.and (.contains 2 4 (.field .I)) (.cmp .eq (.field .V) (.int 0)), .FEW),
    (.cmp .ne (.field .V) (.int 0), .MANY),
    (.and (.cmp .eq (.field .I) (.int 1)) (.cmp .eq (.field .V) (.int 0)), .ONE)]
  last := .OTHER

/-- rules.rs:16-2449, the function of: cy. -/
def cardinalFn11 : Closure where
  arms := [(.cmp .eq (.field .N) (.flt 3), .FEW),
    (.cmp .eq (.field .N) (.flt 6), .MANY),
    (.cmp .eq (.field .N) (.flt 1), .ONE),
    (.cmp .eq (.field .N) (.flt 2), .TWO),
    (.cmp .eq (.field .N) (.flt 0), .ZERO)]
  last := .OTHER

/-- rules.rs:16-2449, the function of: da. -/
def cardinalFn12 : Closure where
  arms := [(.or (.cmp .eq (.field .N) (.flt 1)) (.and (.cmp .ne (.field .T) (.int 0)) (.or (.cmp .eq (.field .I) (.int 0)) (.cmp .eq (.field .I) (.int 1)))), .ONE)]
  last := .OTHER

/-- rules.rs:16-2449, the function of: dsb hsb. -/
def cardinalFn13 : Closure where
  arms := [(.or (.and (.cmp .eq (.field .V) (.int 0)) (.contains 3 4 (.rem (.field .I) (.int 100)))) (.contains 3 4 (.rem (.field .F) (.int 100))), .FEW),
    (.or (.and (.cmp .eq (.field .V) (.int 0)) (.cmp .eq (.rem (.field .I) (.int 100)) (.int 1))) (.cmp .eq (.rem (.field .F) (.int 100)) (.int 1)), .ONE),
    (.or (.and (.cmp .eq (.field .V) (.int 0)) (.cmp .eq (.rem (.field .I) (.int 100)) (.int 2))) (.cmp .eq (.rem (.field .F) (.int 100)) (.int 2)), .TWO)]
  last := .OTHER

/-- rules.rs:16-2449, the function of: ff fr hy kab. -/
def cardinalFn14 : Closure where
  arms := [(.or (.cmp .eq (.field .I) (.int 0)) (.cmp .eq (.field .I) (.int 1)), .ONE)]
  last := .OTHER

/-- rules.rs:16-2449, the function of: ga. -/
def cardinalFn15 : Closure where
  arms := [(.and (.contains 3 6 (.field .I)) (.cmp .eq (.field .F) (.int 0)), .FEW),
    (.and (.contains 7 10 (.field .I)) (.cmp .eq (.field .F) (.int 0)), .MANY),
    (.cmp .eq (.field .N) (.flt 1), .ONE),
    (.cmp .eq (.field .N) (.flt 2), .TWO)]
  last := .OTHER

/-- rules.rs:16-2449, the function of: gd. -/
def cardinalFn16 : Closure where
  arms := [(.or (.and (.contains 3 10 (.field .I)) (.cmp .eq (.field .F) (.int 0))) (.and (.contains 13 19 (.field .I)) (.cmp .eq (.field .F) (.int 0))), .FEW),
    (.or (.cmp .eq (.field .N) (.flt 1)) (.cmp .eq (.field .N) (.flt 11)), .ONE),
    (.or (.cmp .eq (.field .N) (.flt 2)) (.cmp .eq (.field .N) (.flt 12)), .TWO)]
  last := .OTHER

/-- rules.rs:16-2449, the function of: gv. -/
def cardinalFn17 : Closure where
  arms := [(.and (.cmp .eq (.field .V) (.int 0)) (.or (.or (.or (.or (.cmp .eq (.rem (.field .I) (.int 100)) (.int 0)) (.cmp .eq (.rem (.field .I) (.int 100)) (.int 20))) (.cmp .eq (.rem (.field .I) (.int 100)) (.int 40))) (.cmp .eq (.rem (.field .I) (.int 100)) (.int 60))) (.cmp .eq (.rem (.field .I) (.int 100)) (.int 80))), .FEW),
    (.cmp .ne (.field .V) (.int 0), .MANY),
    (.and (.cmp .eq (.field .V) (.int 0)) (.cmp .eq (.rem (.field .I) (.int 10)) (.int 1)), .ONE),
    (.and (.cmp .eq (.field .V) (.int 0)) (.cmp .eq (.rem (.field .I) (.int 10)) (.int 2)), .TWO)]
  last := .OTHER

/-- rules.rs:16-2449, the function of: he iw. -/
def cardinalFn18 : Closure where
  arms := [(.and (.and (.and (.cmp .eq (.field .V) (.int 0)) (.not (.contains 0 10 (.field .I)))) (.cmp .eq (.field .F) (.int 0))) (.cmp .eq (.rem (.field .I) (.int 10)) (.int 0)), .MANY),
    (.and (.cmp .eq (.field .I) (.int 1)) (.cmp .eq (.field .V) (.int 0)), .ONE),
    (.and (.cmp .eq (.field .I) (.int 2)) (.cmp .eq (.field .V) (.int 0)), .TWO)]
  last := .OTHER

/-- rules.rs:16-2449, the function of: is. -/
def cardinalFn19 : Closure where
  arms := [(.or (.and (.and (.cmp .eq (.field .T) (.int 0)) (.cmp .eq (.rem (.field .I) (.int 10)) (.int 1))) (.cmp .ne (.rem (.field .I) (.int 100)) (.int 11))) (.cmp .ne (.field .T) (.int 0)), .ONE)]
  last := .OTHER

/-- rules.rs:16-2449, the function of: iu naq sat se sma smi smj smn sms. -/
def cardinalFn20 : Closure where
  arms := [(.cmp .eq (.field .N) (.flt 1), .ONE),
    (.cmp .eq (.field .N) (.flt 2), .TWO)]
  last := .OTHER

/-- rules.rs:16-2449, the function of: ksh. -/
def cardinalFn21 : Closure where
  arms := [(.cmp .eq (.field .N) (.flt 1), .ONE),
    (.cmp .eq (.field .N) (.flt 0), .ZERO)]
  last := .OTHER

/-- rules.rs:16-2449, the function of: kw. -/
def cardinalFn22 : Closure where
  arms := [(.or (.or (.or (.or (.cmp .eq (.rem (.field .I) (.int 100)) (.int 3)) (.cmp .eq (.rem (.field .I) (.int 100)) (.int 23))) (.cmp .eq (.rem (.field .I) (.int 100)) (.int 43))) (.cmp .eq (.rem (.field .I) (.int 100)) (.int 63))) (.cmp .eq (.rem (.field .I) (.int 100)) (.int 83)), .FEW),
    (.and (.cmp .ne (.field .N) (.flt 1)) (.or (.or (.or (.or (.cmp .eq (.rem (.field .I) (.int 100)) (.int 1)) (.cmp .eq (.rem (.field .I) (.int 100)) (.int 21))) (.cmp .eq (.rem (.field .I) (.int 100)) (.int 41))) (.cmp .eq (.rem (.field .I) (.int 100)) (.int 61))) (.cmp .eq (.rem (.field .I) (.int 100)) (.int 81))), .MANY),
    (.cmp .eq (.field .N) (.flt 1), .ONE),
    (.or (.or (.or (.or (.or (.or (.cmp .eq (.rem (.field .I) (.int 100)) (.int 2)) (.cmp .eq (.rem (.field .I) (.int 100)) (.int 22))) (.cmp .eq (.rem (.field .I) (.int 100)) (.int 42))) (.cmp .eq (.rem (.field .I) (.int 100)) (.int 62))) (.cmp .eq (.rem (.field .I) (.int 100)) (.int 82))) (.and (.cmp .eq (.rem (.field .I) (.int 1000)) (.int 0)) (.or (.or (.or (.cmp .eq (.rem (.field .I) (.int 100000)) (.int 40000)) (.cmp .eq (.rem (.field .I) (.int 100000)) (.int 60000))) (.cmp .eq (.rem (.field .I) (.int 100000)) (.int 80000))) (.contains 1000 20000 (.field .I))))) (.and (.cmp .ne (.field .N) (.flt 0)) (.cmp .eq (.rem (.field .I) (.int 1000000)) (.int 100000))), .TWO),
    (.cmp .eq (.field .N) (.flt 0), .ZERO)]
  last := .OTHER

/-- rules.rs:16-2449, the function of: lag. -/
def cardinalFn23 : Closure where
  arms := [(.and (.or (.cmp .eq (.field .I) (.int 0)) (.cmp .eq (.field .I) (.int 1))) (.cmp .ne (.field .N) (.flt 0)), .ONE),
    (.cmp .eq (.field .N) (.flt 0), .ZERO)]
  last := .OTHER

/-- rules.rs:16-2449, the function of: lt. -/
def cardinalFn24 : Closure where
  arms := [(.and (.contains 2 9 (.field .I)) (.not (.contains 11 19 (.field .I))), .FEW),
    (.cmp .ne (.field .F) (.int 0), .MANY),
    (.and (.cmp .eq (.rem (.field .I) (.int 10)) (.int 1)) (.not (.contains 11 19 (.field .I))), .ONE)]
  last := .OTHER

/-- rules.rs:16-2449, the function of: lv prg. -/
def cardinalFn25 : Closure where
  arms := [(.or (.or (.and (.cmp .eq (.rem (.field .I) (.int 10)) (.int 1)) (.cmp .ne (.rem (.field .I) (.int 100)) (.int 11))) (.and (.and (.cmp .eq (.field .V) (.int 2)) (.cmp .eq (.rem (.field .F) (.int 10)) (.int 1))) (.cmp .ne (.rem (.field .F) (.int 100)) (.int 11)))) (.and (.cmp .ne (.field .V) (.int 2)) (.cmp .eq (.rem (.field .F) (.int 10)) (.int 1))), .ONE),
    (.or (.or (.cmp .eq (.rem (.field .I) (.int 10)) (.int 0)) (.contains 11 19 (.field .I))) (.and (.cmp .eq (.field .V) (.int 2)) (.contains 11 19 (.rem (.field .F) (.int 100)))), .ZERO)]
  last := .OTHER

/-- rules.rs:16-2449, the function of: mk. -/
def cardinalFn26 : Closure where
  arms := [(.or (.and (.and (.cmp .eq (.field .V) (.int 0)) (.cmp .eq (.rem (.field .I) (.int 10)) (.int 1))) (.cmp .ne (.rem (.field .I) (.int 100)) (.int 11))) (.and (.cmp .eq (.rem (.field .F) (.int 10)) (.int 1)) (.cmp .ne (.rem (.field .F) (.int 100)) (.int 11))), .ONE)]
  last := .OTHER

/-- rules.rs:16-2449, the function of: mo ro. -/
def cardinalFn27 : Closure where
  arms := [(.or (.or (.cmp .ne (.field .V) (.int 0)) (.cmp .eq (.field .N) (.flt 0))) (.contains 2 19 (.field .I)), .FEW),
    (.and (.cmp .eq (.field .I) (.int 1)) (.cmp .eq (.field .V) (.int 0)), .ONE)]
  last := .OTHER

/-- rules.rs:16-2449, the function of: mt. -/
def cardinalFn28 : Closure where
  arms := [(.or (.cmp .eq (.field .N) (.flt 0)) (.contains 2 10 (.field .I)), .FEW),
    (.contains 11 19 (.field .I), .MANY),
    (.cmp .eq (.field .N) (.flt 1), .ONE)]
  last := .OTHER

/-- rules.rs:16-2449, the function of: pl. -/
def cardinalFn29 : Closure where
  arms := [(.and (.and (.cmp .eq (.field .V) (.int 0)) (.contains 2 4 (.rem (.field .I) (.int 10)))) (.not (.contains 12 14 (.rem (.field .I) (.int 100)))), .FEW),
    (.or (.or (.and (.and (.cmp .eq (.field .V) (.int 0)) (.cmp .ne (.field .I) (.int 1))) (.contains 0 1 (.rem (.field .I) (.int 10)))) (.and (.cmp .eq (.field .V) (.int 0)) (.contains 5 9 (.rem (.field .I) (.int 10))))) (.and (.cmp .eq (.field .V) (.int 0)) (.contains 12 14 (.rem (.field .I) (.int 100)))), .MANY),
    (.and (.cmp .eq (.field .I) (.int 1)) (.cmp .eq (.field .V) (.int 0)), .ONE)]
  last := .OTHER

/-- rules.rs:16-2449, the function of: pt. -/
def cardinalFn30 : Closure where
  arms := [(.contains 0 1 (.field .I), .ONE)]
  last := .OTHER

/-- rules.rs:16-2449, the function of: ru uk. -/
def cardinalFn31 : Closure where
  arms := [(.and (.and (.cmp .eq (.field .V) (.int 0)) (.contains 2 4 (.rem (.field .I) (.int 10)))) (.not (.contains 12 14 (.rem (.field .I) (.int 100)))), .FEW),
    (.or (.or (.and (.cmp .eq (.field .V) (.int 0)) (.cmp .eq (.rem (.field .I) (.int 10)) (.int 0))) (.and (.cmp .eq (.field .V) (.int 0)) (.contains 5 9 (.rem (.field .I) (.int 10))))) (.and (.cmp .eq (.field .V) (.int 0)) (.contains 11 14 (.rem (.field .I) (.int 100)))), .MANY),
    (.and (.and (.cmp .eq (.field .V) (.int 0)) (.cmp .eq (.rem (.field .I) (.int 10)) (.int 1))) (.cmp .ne (.rem (.field .I) (.int 100)) (.int 11)), .ONE)]
  last := .OTHER

/-- rules.rs:16-2449, the function of: shi. -/
def cardinalFn32 : Closure where
  arms := [(.and (.contains 2 10 (.field .I)) (.cmp .eq (.field .F) (.int 0)), .FEW),
    (.or (.cmp .eq (.field .I) (.int 0)) (.cmp .eq (.field .N) (.flt 1)), .ONE)]
  last := .OTHER

/-- rules.rs:16-2449, the function of: si. -/
def cardinalFn33 : Closure where
  arms := [(.or (.or (.cmp .eq (.field .N) (.flt 0)) (.cmp .eq (.field .N) (.flt 1))) (.and (.cmp .eq (.field .I) (.int 0)) (.cmp .eq (.field .F) (.int 1))), .ONE)]
  last := .OTHER

/-- rules.rs:16-2449, the function of: sl. -/
def cardinalFn34 : Closure where
  arms := [(.or (.and (.cmp .eq (.field .V) (.int 0)) (.contains 3 4 (.rem (.field .I) (.int 100)))) (.cmp .ne (.field .V) (.int 0)), .FEW),
    (.and (.cmp .eq (.field .V) (.int 0)) (.cmp .eq (.rem (.field .I) (.int 100)) (.int 1)), .ONE),
    (.and (.cmp .eq (.field .V) (.int 0)) (.cmp .eq (.rem (.field .I) (.int 100)) (.int 2)), .TWO)]
  last := .OTHER

/-- rules.rs:16-2449, the function of: tzm. -/
def cardinalFn35 : Closure where
  arms := [(.or (.and (.contains 0 1 (.field .I)) (.cmp .eq (.field .F) (.int 0))) (.and (.contains 11 99 (.field .I)) (.cmp .eq (.field .F) (.int 0))), .ONE)]
  last := .OTHER

/-- rules.rs:16-2449 (`PRS_CARDINAL`). -/
def cardinal : List (LangId × Closure) := [
  (⟨(some c!"af"), none, none, none⟩, cardinalFn0),
  (⟨(some c!"ak"), none, none, none⟩, cardinalFn1),
  (⟨(some c!"am"), none, none, none⟩, cardinalFn2),
  (⟨(some c!"an"), none, none, none⟩, cardinalFn0),
  (⟨(some c!"ar"), none, none, none⟩, cardinalFn3),
  (⟨(some c!"ars"), none, none, none⟩, cardinalFn3),
  (⟨(some c!"as"), none, none, none⟩, cardinalFn2),
  (⟨(some c!"asa"), none, none, none⟩, cardinalFn0),
  (⟨(some c!"ast"), none, none, none⟩, cardinalFn4),
  (⟨(some c!"az"), none, none, none⟩, cardinalFn0),
  (⟨(some c!"be"), none, none, none⟩, cardinalFn5),
  (⟨(some c!"bem"), none, none, none⟩, cardinalFn0),
  (⟨(some c!"bez"), none, none, none⟩, cardinalFn0),
  (⟨(some c!"bg"), none, none, none⟩, cardinalFn0),
  (⟨(some c!"bho"), none, none, none⟩, cardinalFn1),
  (⟨(some c!"bm"), none, none, none⟩, cardinalFn6),
  (⟨(some c!"bn"), none, none, none⟩, cardinalFn2),
  (⟨(some c!"bo"), none, none, none⟩, cardinalFn6),
  (⟨(some c!"br"), none, none, none⟩, cardinalFn7),
  (⟨(some c!"brx"), none, none, none⟩, cardinalFn0),
  (⟨(some c!"bs"), none, none, none⟩, cardinalFn8),
  (⟨(some c!"ca"), none, none, none⟩, cardinalFn4),
  (⟨(some c!"ce"), none, none, none⟩, cardinalFn0),
  (⟨(some c!"ceb"), none, none, none⟩, cardinalFn9),
  (⟨(some c!"cgg"), none, none, none⟩, cardinalFn0),
  (⟨(some c!"chr"), none, none, none⟩, cardinalFn0),
  (⟨(some c!"ckb"), none, none, none⟩, cardinalFn0),
  (⟨(some c!"cs"), none, none, none⟩, cardinalFn10),
  (⟨(some c!"cy"), none, none, none⟩, cardinalFn11),
  (⟨(some c!"da"), none, none, none⟩, cardinalFn12),
  (⟨(some c!"de"), none, none, none⟩, cardinalFn4),
  (⟨(some c!"dsb"), none, none, none⟩, cardinalFn13),
  (⟨(some c!"dv"), none, none, none⟩, cardinalFn0),
  (⟨(some c!"dz"), none, none, none⟩, cardinalFn6),
  (⟨(some c!"ee"), none, none, none⟩, cardinalFn0),
  (⟨(some c!"el"), none, none, none⟩, cardinalFn0),
  (⟨(some c!"en"), none, none, none⟩, cardinalFn4),
  (⟨(some c!"eo"), none, none, none⟩, cardinalFn0),
  (⟨(some c!"es"), none, none, none⟩, cardinalFn0),
  (⟨(some c!"et"), none, none, none⟩, cardinalFn4),
  (⟨(some c!"eu"), none, none, none⟩, cardinalFn0),
  (⟨(some c!"fa"), none, none, none⟩, cardinalFn2),
  (⟨(some c!"ff"), none, none, none⟩, cardinalFn14),
  (⟨(some c!"fi"), none, none, none⟩, cardinalFn4),
  (⟨(some c!"fil"), none, none, none⟩, cardinalFn9),
  (⟨(some c!"fo"), none, none, none⟩, cardinalFn0),
  (⟨(some c!"fr"), none, none, none⟩, cardinalFn14),
  (⟨(some c!"fur"), none, none, none⟩, cardinalFn0),
  (⟨(some c!"fy"), none, none, none⟩, cardinalFn4),
  (⟨(some c!"ga"), none, none, none⟩, cardinalFn15),
  (⟨(some c!"gd"), none, none, none⟩, cardinalFn16),
  (⟨(some c!"gl"), none, none, none⟩, cardinalFn4),
  (⟨(some c!"gsw"), none, none, none⟩, cardinalFn0),
  (⟨(some c!"gu"), none, none, none⟩, cardinalFn2),
  (⟨(some c!"guw"), none, none, none⟩, cardinalFn1),
  (⟨(some c!"gv"), none, none, none⟩, cardinalFn17),
  (⟨(some c!"ha"), none, none, none⟩, cardinalFn0),
  (⟨(some c!"haw"), none, none, none⟩, cardinalFn0),
  (⟨(some c!"he"), none, none, none⟩, cardinalFn18),
  (⟨(some c!"hi"), none, none, none⟩, cardinalFn2),
  (⟨(some c!"hr"), none, none, none⟩, cardinalFn8),
  (⟨(some c!"hsb"), none, none, none⟩, cardinalFn13),
  (⟨(some c!"hu"), none, none, none⟩, cardinalFn0),
  (⟨(some c!"hy"), none, none, none⟩, cardinalFn14),
  (⟨(some c!"ia"), none, none, none⟩, cardinalFn4),
  (⟨(some c!"id"), none, none, none⟩, cardinalFn6),
  (⟨(some c!"ig"), none, none, none⟩, cardinalFn6),
  (⟨(some c!"ii"), none, none, none⟩, cardinalFn6),
  (⟨(some c!"in"), none, none, none⟩, cardinalFn6),
  (⟨(some c!"io"), none, none, none⟩, cardinalFn4),
  (⟨(some c!"is"), none, none, none⟩, cardinalFn19),
  (⟨(some c!"it"), none, none, none⟩, cardinalFn4),
  (⟨(some c!"iu"), none, none, none⟩, cardinalFn20),
  (⟨(some c!"iw"), none, none, none⟩, cardinalFn18),
  (⟨(some c!"ja"), none, none, none⟩, cardinalFn6),
  (⟨(some c!"jbo"), none, none, none⟩, cardinalFn6),
  (⟨(some c!"jgo"), none, none, none⟩, cardinalFn0),
  (⟨(some c!"ji"), none, none, none⟩, cardinalFn4),
  (⟨(some c!"jmc"), none, none, none⟩, cardinalFn0),
  (⟨(some c!"jv"), none, none, none⟩, cardinalFn6),
  (⟨(some c!"jw"), none, none, none⟩, cardinalFn6),
  (⟨(some c!"ka"), none, none, none⟩, cardinalFn0),
  (⟨(some c!"kab"), none, none, none⟩, cardinalFn14),
  (⟨(some c!"kaj"), none, none, none⟩, cardinalFn0),
  (⟨(some c!"kcg"), none, none, none⟩, cardinalFn0),
  (⟨(some c!"kde"), none, none, none⟩, cardinalFn6),
  (⟨(some c!"kea"), none, none, none⟩, cardinalFn6),
  (⟨(some c!"kk"), none, none, none⟩, cardinalFn0),
  (⟨(some c!"kkj"), none, none, none⟩, cardinalFn0),
  (⟨(some c!"kl"), none, none, none⟩, cardinalFn0),
  (⟨(some c!"km"), none, none, none⟩, cardinalFn6),
  (⟨(some c!"kn"), none, none, none⟩, cardinalFn2),
  (⟨(some c!"ko"), none, none, none⟩, cardinalFn6),
  (⟨(some c!"ks"), none, none, none⟩, cardinalFn0),
  (⟨(some c!"ksb"), none, none, none⟩, cardinalFn0),
  (⟨(some c!"ksh"), none, none, none⟩, cardinalFn21),
  (⟨(some c!"ku"), none, none, none⟩, cardinalFn0),
  (⟨(some c!"kw"), none, none, none⟩, cardinalFn22),
  (⟨(some c!"ky"), none, none, none⟩, cardinalFn0),
  (⟨(some c!"lag"), none, none, none⟩, cardinalFn23),
  (⟨(some c!"lb"), none, none, none⟩, cardinalFn0),
  (⟨(some c!"lg"), none, none, none⟩, cardinalFn0),
  (⟨(some c!"lkt"), none, none, none⟩, cardinalFn6),
  (⟨(some c!"ln"), none, none, none⟩, cardinalFn1),
  (⟨(some c!"lo"), none, none, none⟩, cardinalFn6),
  (⟨(some c!"lt"), none, none, none⟩, cardinalFn24),
  (⟨(some c!"lv"), none, none, none⟩, cardinalFn25),
  (⟨(some c!"mas"), none, none, none⟩, cardinalFn0),
  (⟨(some c!"mg"), none, none, none⟩, cardinalFn1),
  (⟨(some c!"mgo"), none, none, none⟩, cardinalFn0),
  (⟨(some c!"mk"), none, none, none⟩, cardinalFn26),
  (⟨(some c!"ml"), none, none, none⟩, cardinalFn0),
  (⟨(some c!"mn"), none, none, none⟩, cardinalFn0),
  (⟨(some c!"mo"), none, none, none⟩, cardinalFn27),
  (⟨(some c!"mr"), none, none, none⟩, cardinalFn0),
  (⟨(some c!"ms"), none, none, none⟩, cardinalFn6),
  (⟨(some c!"mt"), none, none, none⟩, cardinalFn28),
  (⟨(some c!"my"), none, none, none⟩, cardinalFn6),
  (⟨(some c!"nah"), none, none, none⟩, cardinalFn0),
  (⟨(some c!"naq"), none, none, none⟩, cardinalFn20),
  (⟨(some c!"nb"), none, none, none⟩, cardinalFn0),
  (⟨(some c!"nd"), none, none, none⟩, cardinalFn0),
  (⟨(some c!"ne"), none, none, none⟩, cardinalFn0),
  (⟨(some c!"nl"), none, none, none⟩, cardinalFn4),
  (⟨(some c!"nn"), none, none, none⟩, cardinalFn0),
  (⟨(some c!"nnh"), none, none, none⟩, cardinalFn0),
  (⟨(some c!"no"), none, none, none⟩, cardinalFn0),
  (⟨(some c!"nqo"), none, none, none⟩, cardinalFn6),
  (⟨(some c!"nr"), none, none, none⟩, cardinalFn0),
  (⟨(some c!"nso"), none, none, none⟩, cardinalFn1),
  (⟨(some c!"ny"), none, none, none⟩, cardinalFn0),
  (⟨(some c!"nyn"), none, none, none⟩, cardinalFn0),
  (⟨(some c!"om"), none, none, none⟩, cardinalFn0),
  (⟨(some c!"or"), none, none, none⟩, cardinalFn0),
  (⟨(some c!"os"), none, none, none⟩, cardinalFn0),
  (⟨(some c!"osa"), none, none, none⟩, cardinalFn6),
  (⟨(some c!"pa"), none, none, none⟩, cardinalFn1),
  (⟨(some c!"pap"), none, none, none⟩, cardinalFn0),
  (⟨(some c!"pcm"), none, none, none⟩, cardinalFn2),
  (⟨(some c!"pl"), none, none, none⟩, cardinalFn29),
  (⟨(some c!"prg"), none, none, none⟩, cardinalFn25),
  (⟨(some c!"ps"), none, none, none⟩, cardinalFn0),
  (⟨(some c!"pt"), none, none, none⟩, cardinalFn30),
  (⟨(some c!"pt"), none, (some c!"PT"), none⟩, cardinalFn4),
  (⟨(some c!"rm"), none, none, none⟩, cardinalFn0),
  (⟨(some c!"ro"), none, none, none⟩, cardinalFn27),
  (⟨(some c!"rof"), none, none, none⟩, cardinalFn0),
  (⟨(some c!"ru"), none, none, none⟩, cardinalFn31),
  (⟨(some c!"rwk"), none, none, none⟩, cardinalFn0),
  (⟨(some c!"sah"), none, none, none⟩, cardinalFn6),
  (⟨(some c!"saq"), none, none, none⟩, cardinalFn0),
  (⟨(some c!"sat"), none, none, none⟩, cardinalFn20),
  (⟨(some c!"sc"), none, none, none⟩, cardinalFn4),
  (⟨(some c!"scn"), none, none, none⟩, cardinalFn4),
  (⟨(some c!"sd"), none, none, none⟩, cardinalFn0),
  (⟨(some c!"sdh"), none, none, none⟩, cardinalFn0),
  (⟨(some c!"se"), none, none, none⟩, cardinalFn20),
  (⟨(some c!"seh"), none, none, none⟩, cardinalFn0),
  (⟨(some c!"ses"), none, none, none⟩, cardinalFn6),
  (⟨(some c!"sg"), none, none, none⟩, cardinalFn6),
  (⟨(some c!"sh"), none, none, none⟩, cardinalFn8),
  (⟨(some c!"shi"), none, none, none⟩, cardinalFn32),
  (⟨(some c!"si"), none, none, none⟩, cardinalFn33),
  (⟨(some c!"sk"), none, none, none⟩, cardinalFn10),
  (⟨(some c!"sl"), none, none, none⟩, cardinalFn34),
  (⟨(some c!"sma"), none, none, none⟩, cardinalFn20),
  (⟨(some c!"smi"), none, none, none⟩, cardinalFn20),
  (⟨(some c!"smj"), none, none, none⟩, cardinalFn20),
  (⟨(some c!"smn"), none, none, none⟩, cardinalFn20),
  (⟨(some c!"sms"), none, none, none⟩, cardinalFn20),
  (⟨(some c!"sn"), none, none, none⟩, cardinalFn0),
  (⟨(some c!"so"), none, none, none⟩, cardinalFn0),
  (⟨(some c!"sq"), none, none, none⟩, cardinalFn0),
  (⟨(some c!"sr"), none, none, none⟩, cardinalFn8),
  (⟨(some c!"ss"), none, none, none⟩, cardinalFn0),
  (⟨(some c!"ssy"), none, none, none⟩, cardinalFn0),
  (⟨(some c!"st"), none, none, none⟩, cardinalFn0),
  (⟨(some c!"su"), none, none, none⟩, cardinalFn6),
  (⟨(some c!"sv"), none, none, none⟩, cardinalFn4),
  (⟨(some c!"sw"), none, none, none⟩, cardinalFn4),
  (⟨(some c!"syr"), none, none, none⟩, cardinalFn0),
  (⟨(some c!"ta"), none, none, none⟩, cardinalFn0),
  (⟨(some c!"te"), none, none, none⟩, cardinalFn0),
  (⟨(some c!"teo"), none, none, none⟩, cardinalFn0),
  (⟨(some c!"th"), none, none, none⟩, cardinalFn6),
  (⟨(some c!"ti"), none, none, none⟩, cardinalFn1),
  (⟨(some c!"tig"), none, none, none⟩, cardinalFn0),
  (⟨(some c!"tk"), none, none, none⟩, cardinalFn0),
  (⟨(some c!"tl"), none, none, none⟩, cardinalFn9),
  (⟨(some c!"tn"), none, none, none⟩, cardinalFn0),
  (⟨(some c!"to"), none, none, none⟩, cardinalFn6),
  (⟨(some c!"tr"), none, none, none⟩, cardinalFn0),
  (⟨(some c!"ts"), none, none, none⟩, cardinalFn0),
  (⟨(some c!"tzm"), none, none, none⟩, cardinalFn35),
  (⟨(some c!"ug"), none, none, none⟩, cardinalFn0),
  (⟨(some c!"uk"), none, none, none⟩, cardinalFn31),
  (⟨(some c!"ur"), none, none, none⟩, cardinalFn4),
  (⟨(some c!"uz"), none, none, none⟩, cardinalFn0),
  (⟨(some c!"ve"), none, none, none⟩, cardinalFn0),
  (⟨(some c!"vi"), none, none, none⟩, cardinalFn6),
  (⟨(some c!"vo"), none, none, none⟩, cardinalFn0),
  (⟨(some c!"vun"), none, none, none⟩, cardinalFn0),
  (⟨(some c!"wa"), none, none, none⟩, cardinalFn1),
  (⟨(some c!"wae"), none, none, none⟩, cardinalFn0),
  (⟨(some c!"wo"), none, none, none⟩, cardinalFn6),
  (⟨(some c!"xh"), none, none, none⟩, cardinalFn0),
  (⟨(some c!"xog"), none, none, none⟩, cardinalFn0),
  (⟨(some c!"yi"), none, none, none⟩, cardinalFn4),
  (⟨(some c!"yo"), none, none, none⟩, cardinalFn6),
  (⟨(some c!"yue"), none, none, none⟩, cardinalFn6),
  (⟨(some c!"zh"), none, none, none⟩, cardinalFn6),
  (⟨(some c!"zu"), none, none, none⟩, cardinalFn2)]

/-- The distinct functions of `PRS_CARDINAL`. -/
def cardinalFns : List Closure := [cardinalFn0, cardinalFn1, cardinalFn2, cardinalFn3, cardinalFn4, cardinalFn5, cardinalFn6, cardinalFn7, cardinalFn8, cardinalFn9, cardinalFn10, cardinalFn11, cardinalFn12, cardinalFn13, cardinalFn14, cardinalFn15, cardinalFn16, cardinalFn17, cardinalFn18, cardinalFn19, cardinalFn20, cardinalFn21, cardinalFn22, cardinalFn23, cardinalFn24, cardinalFn25, cardinalFn26, cardinalFn27, cardinalFn28, cardinalFn29, cardinalFn30, cardinalFn31, cardinalFn32, cardinalFn33, cardinalFn34, cardinalFn35]

/-- rules.rs:2450-3187, the function of: af am an ar bg bs ce cs da de dsb el es et eu fa fi fy gl gsw he hr hsb ia id in is iw ja km kn ko ky lt lv ml mn my nb nl pa pl prg ps pt ru sd sh si sk sl sr sw ta te th tr ur uz yue zh zu. -/
def ordinalFn0 : Closure where
  arms := []
  last := .OTHER

/-- rules.rs:2450-3187, the function of: as bn. -/
def ordinalFn1 : Closure where
  arms := [(.cmp .eq (.field .N) (.flt 4), .FEW),
    (.cmp .eq (.field .N) (.flt 6), .MANY),
    (.or (.or (.or (.or (.or (.cmp .eq (.field .N) (.flt 1)) (.cmp .eq (.field .N) (.flt 5))) (.cmp .eq (.field .N) (.flt 7))) (.cmp .eq (.field .N) (.flt 8))) (.cmp .eq (.field .N) (.flt 9))) (.cmp .eq (.field .N) (.flt 10)), .ONE),
    (.or (.cmp .eq (.field .N) (.flt 2)) (.cmp .eq (.field .N) (.flt 3)), .TWO)]
  last := .OTHER

/-- rules.rs:2450-3187, the function of: az. -/
def ordinalFn2 : Closure where
  arms := [(.or (.or (.cmp .eq (.rem (.field .I) (.int 10)) (.int 3)) (.cmp .eq (.rem (.field .I) (.int 10)) (.int 4))) (.or (.or (.or (.or (.or (.or (.or (.or (.cmp .eq (.rem (.field .I) (.int 1000)) (.int 100)) (.cmp .eq (.rem (.field .I) (.int 1000)) (.int 200))) (.cmp .eq (.rem (.field .I) (.int 1000)) (.int 300))) (.cmp .eq (.rem (.field .I) (.int 1000)) (.int 400))) (.cmp .eq (.rem (.field .I) (.int 1000)) (.int 500))) (.cmp .eq (.rem (.field .I) (.int 1000)) (.int 600))) (.cmp .eq (.rem (.field .I) (.int 1000)) (.int 700))) (.cmp .eq (.rem (.field .I) (.int 1000)) (.int 800))) (.cmp .eq (.rem (.field .I) (.int 1000)) (.int 900))), .FEW),
    (.or (.or (.cmp .eq (.field .I) (.int 0)) (.cmp .eq (.rem (.field .I) (.int 10)) (.int 6))) (.or (.or (.cmp .eq (.rem (.field .I) (.int 100)) (.int 40)) (.cmp .eq (.rem (.field .I) (.int 100)) (.int 60))) (.cmp .eq (.rem (.field .I) (.int 100)) (.int 90))), .MANY),
    (.or (.or (.or (.or (.or (.cmp .eq (.rem (.field .I) (.int 10)) (.int 1)) (.cmp .eq (.rem (.field .I) (.int 10)) (.int 2))) (.cmp .eq (.rem (.field .I) (.int 10)) (.int 5))) (.cmp .eq (.rem (.field .I) (.int 10)) (.int 7))) (.cmp .eq (.rem (.field .I) (.int 10)) (.int 8))) (.or (.or (.or (.cmp .eq (.rem (.field .I) (.int 100)) (.int 20)) (.cmp .eq (.rem (.field .I) (.int 100)) (.int 50))) (.cmp .eq (.rem (.field .I) (.int 100)) (.int 70))) (.cmp .eq (.rem (.field .I) (.int 100)) (.int 80))), .ONE)]
  last := .OTHER

/-- rules.rs:2450-3187, the function of: be. -/
def ordinalFn3 : Closure where
  arms := [(.and (.and (.or (.cmp .eq (.rem (.field .I) (.int 10)) (.int 2)) (.cmp .eq (.rem (.field .I) (.int 10)) (.int 3))) (.cmp .ne (.rem (.field .I) (.int 100)) (.int 12))) (.cmp .ne (.rem (.field .I) (.int 100)) (.int 13)), .FEW)]
  last := .OTHER

/-- rules.rs:2450-3187, the function of: ca. -/
def ordinalFn4 : Closure where
  arms := [(.cmp .eq (.field .N) (.flt 4), .FEW),
    (.or (.cmp .eq (.field .N) (.flt 1)) (.cmp .eq (.field .N) (.flt 3)), .ONE),
    (.cmp .eq (.field .N) (.flt 2), .TWO)]
  last := .OTHER

/-- rules.rs:2450-3187, the function of: cy. -/
def ordinalFn5 : Closure where
  arms := [(.or (.cmp .eq (.field .N) (.flt 3)) (.cmp .eq (.field .N) (.flt 4)), .FEW),
    (.or (.cmp .eq (.field .N) (.flt 5)) (.cmp .eq (.field .N) (.flt 6)), .MANY),
    (.cmp .eq (.field .N) (.flt 1), .ONE),
    (.cmp .eq (.field .N) (.flt 2), .TWO),
    (.or (.or (.or (.cmp .eq (.field .N) (.flt 0)) (.cmp .eq (.field .N) (.flt 7))) (.cmp .eq (.field .N) (.flt 8))) (.cmp .eq (.field .N) (.flt 9)), .ZERO)]
  last := .OTHER

/-- rules.rs:2450-3187, the function of: en. -/
def ordinalFn6 : Closure where
  arms := [(.and (.cmp .eq (.rem (.field .I) (.int 10)) (.int 3)) (.cmp .ne (.rem (.field .I) (.int 100)) (.int 13)), .FEW),
    (.and (.cmp .eq (.rem (.field .I) (.int 10)) (.int 1)) (.cmp .ne (.rem (.field .I) (.int 100)) (.int 11)), .ONE),
    (.and (.cmp .eq (.rem (.field .I) (.int 10)) (.int 2)) (.cmp .ne (.rem (.field .I) (.int 100)) (.int 12)), .TWO)]
  last := .OTHER

/-- rules.rs:2450-3187, the function of: fil fr ga hy lo mo ms ro tl vi. -/
def ordinalFn7 : Closure where
  arms := [(.cmp .eq (.field .N) (.flt 1), .ONE)]
  last := .OTHER

/-- rules.rs:2450-3187, the function of: gd. -/
def ordinalFn8 : Closure where
  arms := [(.or (.cmp .eq (.field .N) (.flt 3)) (.cmp .eq (.field .N) (.flt 13)), .FEW),
    (.or (.cmp .eq (.field .N) (.flt 1)) (.cmp .eq (.field .N) (.flt 11)), .ONE),
    (.or (.cmp .eq (.field .N) (.flt 2)) (.cmp .eq (.field .N) (.flt 12)), .TWO)]
  last := .OTHER

/-- rules.rs:2450-3187, the function of: gu hi. -/
def ordinalFn9 : Closure where
  arms := [(.cmp .eq (.field .N) (.flt 4), .FEW),
    (.cmp .eq (.field .N) (.flt 6), .MANY),
    (.cmp .eq (.field .N) (.flt 1), .ONE),
    (.or (.cmp .eq (.field .N) (.flt 2)) (.cmp .eq (.field .N) (.flt 3)), .TWO)]
  last := .OTHER

/-- rules.rs:2450-3187, the function of: hu. -/
def ordinalFn10 : Closure where
  arms := [(.or (.cmp .eq (.field .N) (.flt 1)) (.cmp .eq (.field .N) (.flt 5)), .ONE)]
  last := .OTHER

/-- rules.rs:2450-3187, the function of: it sc scn. -/
def ordinalFn11 : Closure where
  arms := [(.or (.or (.or (.cmp .eq (.field .N) (.flt 11)) (.cmp .eq (.field .N) (.flt 8))) (.cmp .eq (.field .N) (.flt 80))) (.cmp .eq (.field .N) (.flt 800)), .MANY)]
  last := .OTHER

/-- rules.rs:2450-3187, the function of: ka. -/
def ordinalFn12 : Closure where
  arms := [(.or (.cmp .eq (.field .I) (.int 0)) (.or (.or (.or (.cmp .eq (.rem (.field .I) (.int 100)) (.int 40)) (.cmp .eq (.rem (.field .I) (.int 100)) (.int 60))) (.cmp .eq (.rem (.field .I) (.int 100)) (.int 80))) (.contains 2 20 (.rem (.field .I) (.int 100)))), .MANY),
    (.cmp .eq (.field .I) (.int 1), .ONE)]
  last := .OTHER

/-- rules.rs:2450-3187, the function of: kk. -/
def ordinalFn13 : Closure where
  arms := [(.or (.or (.cmp .eq (.rem (.field .I) (.int 10)) (.int 6)) (.cmp .eq (.rem (.field .I) (.int 10)) (.int 9))) (.and (.cmp .eq (.rem (.field .I) (.int 10)) (.int 0)) (.cmp .ne (.field .N) (.flt 0))), .MANY)]
  last := .OTHER

/-- rules.rs:2450-3187, the function of: kw. -/
def ordinalFn14 : Closure where
  arms := [(.or (.cmp .eq (.field .N) (.flt 5)) (.cmp .eq (.rem (.field .I) (.int 100)) (.int 5)), .MANY),
    (.or (.and (.contains 1 4 (.field .I)) (.cmp .eq (.field .F) (.int 0))) (.or (.or (.or (.or (.contains 1 4 (.field .I)) (.contains 21 24 (.field .I))) (.contains 41 44 (.field .I))) (.contains 61 64 (.field .I))) (.contains 81 84 (.field .I))), .ONE)]
  last := .OTHER

/-- rules.rs:2450-3187, the function of: mk. -/
def ordinalFn15 : Closure where
  arms := [(.and (.and (.or (.cmp .eq (.rem (.field .I) (.int 10)) (.int 7)) (.cmp .eq (.rem (.field .I) (.int 10)) (.int 8))) (.cmp .ne (.rem (.field .I) (.int 100)) (.int 17))) (.cmp .ne (.rem (.field .I) (.int 100)) (.int 18)), .MANY),
    (.and (.cmp .eq (.rem (.field .I) (.int 10)) (.int 1)) (.cmp .ne (.rem (.field .I) (.int 100)) (.int 11)), .ONE),
    (.and (.cmp .eq (.rem (.field .I) (.int 10)) (.int 2)) (.cmp .ne (.rem (.field .I) (.int 100)) (.int 12)), .TWO)]
  last := .OTHER

/-- rules.rs:2450-3187, the function of: mr. -/
def ordinalFn16 : Closure where
  arms := [(.cmp .eq (.field .N) (.flt 4), .FEW),
    (.cmp .eq (.field .N) (.flt 1), .ONE),
    (.or (.cmp .eq (.field .N) (.flt 2)) (.cmp .eq (.field .N) (.flt 3)), .TWO)]
  last := .OTHER

/-- rules.rs:2450-3187, the function of: ne. -/
def ordinalFn17 : Closure where
  arms := [(.and (.contains 1 4 (.field .I)) (.cmp .eq (.field .F) (.int 0)), .ONE)]
  last := .OTHER

/-- rules.rs:2450-3187, the function of: or. -/
def ordinalFn18 : Closure where
  arms := [(.cmp .eq (.field .N) (.flt 4), .FEW),
    (.cmp .eq (.field .N) (.flt 6), .MANY),
    (.or (.or (.cmp .eq (.field .N) (.flt 1)) (.cmp .eq (.field .N) (.flt 5))) (.and (.contains 7 9 (.field .I)) (.cmp .eq (.field .F) (.int 0))), .ONE),
    (.or (.cmp .eq (.field .N) (.flt 2)) (.cmp .eq (.field .N) (.flt 3)), .TWO)]
  last := .OTHER

/-- rules.rs:2450-3187, the function of: sq. -/
def ordinalFn19 : Closure where
  arms := [(.and (.cmp .eq (.rem (.field .I) (.int 10)) (.int 4)) (.cmp .ne (.rem (.field .I) (.int 100)) (.int 14)), .MANY),
    (.cmp .eq (.field .N) (.flt 1), .ONE)]
  last := .OTHER

/-- rules.rs:2450-3187, the function of: sv. -/
def ordinalFn20 : Closure where
  arms := [(.and (.and (.or (.cmp .eq (.rem (.field .I) (.int 10)) (.int 1)) (.cmp .eq (.rem (.field .I) (.int 10)) (.int 2))) (.cmp .ne (.rem (.field .I) (.int 100)) (.int 11))) (.cmp .ne (.rem (.field .I) (.int 100)) (.int 12)), .ONE)]
  last := .OTHER

/-- rules.rs:2450-3187, the function of: tk. -/
def ordinalFn21 : Closure where
  arms := [(.or (.or (.cmp .eq (.rem (.field .I) (.int 10)) (.int 6)) (.cmp .eq (.rem (.field .I) (.int 10)) (.int 9))) (.cmp .eq (.field .N) (.flt 10)), .FEW)]
  last := .OTHER

/-- rules.rs:2450-3187, the function of: uk. -/
def ordinalFn22 : Closure where
  arms := [(.and (.cmp .eq (.rem (.field .I) (.int 10)) (.int 3)) (.cmp .ne (.rem (.field .I) (.int 100)) (.int 13)), .FEW)]
  last := .OTHER

/-- rules.rs:2450-3187 (`PRS_ORDINAL`). -/
def ordinal : List (LangId × Closure) := [
  (⟨(some c!"af"), none, none, none⟩, ordinalFn0),
  (⟨(some c!"am"), none, none, none⟩, ordinalFn0),
  (⟨(some c!"an"), none, none, none⟩, ordinalFn0),
  (⟨(some c!"ar"), none, none, none⟩, ordinalFn0),
  (⟨(some c!"as"), none, none, none⟩, ordinalFn1),
  (⟨(some c!"az"), none, none, none⟩, ordinalFn2),
  (⟨(some c!"be"), none, none, none⟩, ordinalFn3),
  (⟨(some c!"bg"), none, none, none⟩, ordinalFn0),
  (⟨(some c!"bn"), none, none, none⟩, ordinalFn1),
  (⟨(some c!"bs"), none, none, none⟩, ordinalFn0),
  (⟨(some c!"ca"), none, none, none⟩, ordinalFn4),
  (⟨(some c!"ce"), none, none, none⟩, ordinalFn0),
  (⟨(some c!"cs"), none, none, none⟩, ordinalFn0),
  (⟨(some c!"cy"), none, none, none⟩, ordinalFn5),
  (⟨(some c!"da"), none, none, none⟩, ordinalFn0),
  (⟨(some c!"de"), none, none, none⟩, ordinalFn0),
  (⟨(some c!"dsb"), none, none, none⟩, ordinalFn0),
  (⟨(some c!"el"), none, none, none⟩, ordinalFn0),
  (⟨(some c!"en"), none, none, none⟩, ordinalFn6),
  (⟨(some c!"es"), none, none, none⟩, ordinalFn0),
  (⟨(some c!"et"), none, none, none⟩, ordinalFn0),
  (⟨(some c!"eu"), none, none, none⟩, ordinalFn0),
  (⟨(some c!"fa"), none, none, none⟩, ordinalFn0),
  (⟨(some c!"fi"), none, none, none⟩, ordinalFn0),
  (⟨(some c!"fil"), none, none, none⟩, ordinalFn7),
  (⟨(some c!"fr"), none, none, none⟩, ordinalFn7),
  (⟨(some c!"fy"), none, none, none⟩, ordinalFn0),
  (⟨(some c!"ga"), none, none, none⟩, ordinalFn7),
  (⟨(some c!"gd"), none, none, none⟩, ordinalFn8),
  (⟨(some c!"gl"), none, none, none⟩, ordinalFn0),
  (⟨(some c!"gsw"), none, none, none⟩, ordinalFn0),
  (⟨(some c!"gu"), none, none, none⟩, ordinalFn9),
  (⟨(some c!"he"), none, none, none⟩, ordinalFn0),
  (⟨(some c!"hi"), none, none, none⟩, ordinalFn9),
  (⟨(some c!"hr"), none, none, none⟩, ordinalFn0),
  (⟨(some c!"hsb"), none, none, none⟩, ordinalFn0),
  (⟨(some c!"hu"), none, none, none⟩, ordinalFn10),
  (⟨(some c!"hy"), none, none, none⟩, ordinalFn7),
  (⟨(some c!"ia"), none, none, none⟩, ordinalFn0),
  (⟨(some c!"id"), none, none, none⟩, ordinalFn0),
  (⟨(some c!"in"), none, none, none⟩, ordinalFn0),
  (⟨(some c!"is"), none, none, none⟩, ordinalFn0),
  (⟨(some c!"it"), none, none, none⟩, ordinalFn11),
  (⟨(some c!"iw"), none, none, none⟩, ordinalFn0),
  (⟨(some c!"ja"), none, none, none⟩, ordinalFn0),
  (⟨(some c!"ka"), none, none, none⟩, ordinalFn12),
  (⟨(some c!"kk"), none, none, none⟩, ordinalFn13),
  (⟨(some c!"km"), none, none, none⟩, ordinalFn0),
  (⟨(some c!"kn"), none, none, none⟩, ordinalFn0),
  (⟨(some c!"ko"), none, none, none⟩, ordinalFn0),
  (⟨(some c!"kw"), none, none, none⟩, ordinalFn14),
  (⟨(some c!"ky"), none, none, none⟩, ordinalFn0),
  (⟨(some c!"lo"), none, none, none⟩, ordinalFn7),
  (⟨(some c!"lt"), none, none, none⟩, ordinalFn0),
  (⟨(some c!"lv"), none, none, none⟩, ordinalFn0),
  (⟨(some c!"mk"), none, none, none⟩, ordinalFn15),
  (⟨(some c!"ml"), none, none, none⟩, ordinalFn0),
  (⟨(some c!"mn"), none, none, none⟩, ordinalFn0),
  (⟨(some c!"mo"), none, none, none⟩, ordinalFn7),
  (⟨(some c!"mr"), none, none, none⟩, ordinalFn16),
  (⟨(some c!"ms"), none, none, none⟩, ordinalFn7),
  (⟨(some c!"my"), none, none, none⟩, ordinalFn0),
  (⟨(some c!"nb"), none, none, none⟩, ordinalFn0),
  (⟨(some c!"ne"), none, none, none⟩, ordinalFn17),
  (⟨(some c!"nl"), none, none, none⟩, ordinalFn0),
  (⟨(some c!"or"), none, none, none⟩, ordinalFn18),
  (⟨(some c!"pa"), none, none, none⟩, ordinalFn0),
  (⟨(some c!"pl"), none, none, none⟩, ordinalFn0),
  (⟨(some c!"prg"), none, none, none⟩, ordinalFn0),
  (⟨(some c!"ps"), none, none, none⟩, ordinalFn0),
  (⟨(some c!"pt"), none, none, none⟩, ordinalFn0),
  (⟨(some c!"ro"), none, none, none⟩, ordinalFn7),
  (⟨(some c!"ru"), none, none, none⟩, ordinalFn0),
  (⟨(some c!"sc"), none, none, none⟩, ordinalFn11),
  (⟨(some c!"scn"), none, none, none⟩, ordinalFn11),
  (⟨(some c!"sd"), none, none, none⟩, ordinalFn0),
  (⟨(some c!"sh"), none, none, none⟩, ordinalFn0),
  (⟨(some c!"si"), none, none, none⟩, ordinalFn0),
  (⟨(some c!"sk"), none, none, none⟩, ordinalFn0),
  (⟨(some c!"sl"), none, none, none⟩, ordinalFn0),
  (⟨(some c!"sq"), none, none, none⟩, ordinalFn19),
  (⟨(some c!"sr"), none, none, none⟩, ordinalFn0),
  (⟨(some c!"sv"), none, none, none⟩, ordinalFn20),
  (⟨(some c!"sw"), none, none, none⟩, ordinalFn0),
  (⟨(some c!"ta"), none, none, none⟩, ordinalFn0),
  (⟨(some c!"te"), none, none, none⟩, ordinalFn0),
  (⟨(some c!"th"), none, none, none⟩, ordinalFn0),
  (⟨(some c!"tk"), none, none, none⟩, ordinalFn21),
  (⟨(some c!"tl"), none, none, none⟩, ordinalFn7),
  (⟨(some c!"tr"), none, none, none⟩, ordinalFn0),
  (⟨(some c!"uk"), none, none, none⟩, ordinalFn22),
  (⟨(some c!"ur"), none, none, none⟩, ordinalFn0),
  (⟨(some c!"uz"), none, none, none⟩, ordinalFn0),
  (⟨(some c!"vi"), none, none, none⟩, ordinalFn7),
  (⟨(some c!"yue"), none, none, none⟩, ordinalFn0),
  (⟨(some c!"zh"), none, none, none⟩, ordinalFn0),
  (⟨(some c!"zu"), none, none, none⟩, ordinalFn0)]

/-- The distinct functions of `PRS_ORDINAL`. -/
def ordinalFns : List Closure := [ordinalFn0, ordinalFn1, ordinalFn2, ordinalFn3, ordinalFn4, ordinalFn5, ordinalFn6, ordinalFn7, ordinalFn8, ordinalFn9, ordinalFn10, ordinalFn11, ordinalFn12, ordinalFn13, ordinalFn14, ordinalFn15, ordinalFn16, ordinalFn17, ordinalFn18, ordinalFn19, ordinalFn20, ordinalFn21, ordinalFn22]

/-- rules.rs:10 (`CLDR_VERSION`). -/
def cldrVersion : Nat := 37

end Verif.RulesTable
