import Verif.RulesTable

/-!
# `intl_pluralrules/src/lib.rs`
-/

namespace Verif.Api
open Verif Rust

/-- lib.rs:54-59 (`PluralRuleType`). -/
inductive PluralRuleType where
  | ORDINAL | CARDINAL
  deriving DecidableEq, Repr

/-- lib.rs:80-83 (`PluralRules`). -/
structure PluralRules where
  locale : LangId
  function : Closure
  deriving DecidableEq, Repr

/-- lib.rs:107,111 and :165-166: the table of a type. -/
def table : PluralRuleType → List (LangId × Closure)
  | .CARDINAL => RulesTable.cardinal
  | .ORDINAL => RulesTable.ordinal

/-- The loop of `slice::binary_search_by` (std): `fuel` bounds the number of rounds, and each round makes the
interval `left..right` smaller.  `Except.ok` is the index of a match and `Except.error` the place to insert. -/
def searchLoop (cmp : Nat → Ordering) : Nat → Nat → Nat → Except Nat Nat
  | 0, left, _ => .error left
  | fuel + 1, left, right =>
    if left < right then
      let mid := left + (right - left) / 2
      match cmp mid with
      | .lt => searchLoop cmp fuel (mid + 1) right
      | .gt => searchLoop cmp fuel left mid
      | .eq => .ok mid
    else .error left

/-- The comparison of the element at an index with the key, lib.rs:108,112; indices out of range are never asked for. -/
def keyCmp (t : List (LangId × α)) (key : LangId) (i : Nat) : Ordering :=
  match t[i]? with
  | some e => LangId.cmp e.1 key
  | none => .gt

/-- `slice::binary_search_by_key(&key, |(l, _)| l)`, lib.rs:108,112. -/
def binarySearchByKey (t : List (LangId × α)) (key : LangId) : Except Nat Nat :=
  searchLoop (keyCmp t key) t.length 0 t.length

/-- lib.rs:101-123 (`PluralRules::create`). -/
def create (langid : LangId) (prt : PluralRuleType) : Except Str PluralRules :=
  match binarySearchByKey (table prt) langid with
  | .ok idx =>
    match (table prt)[idx]? with
    | some e => .ok { locale := langid, function := e.2 }
    | none => .error c!"index out of bounds"
  | .error _ => .error c!"unknown locale"

/-- lib.rs:140-150 (`PluralRules::select`), after `number.try_into()` has given `ops`; the outer `Option` is `none` for a
panic of the rule function. -/
def select (pr : PluralRules) (ops : Except ε PluralOperands) : Option (Except Str PluralCategory) :=
  match ops with
  | .ok ops =>
    match pr.function.call ops with
    | some c => some (.ok c)
    | none => none
  | .error _ => some (.error c!"Argument can not be parsed to operands.")

/-- lib.rs:163-169 (`PluralRules::get_locales`). -/
def getLocales (prt : PluralRuleType) : List LangId := (table prt).map (·.1)

/-- lib.rs:182-184 (`PluralRules::get_locale`). -/
def getLocale (pr : PluralRules) : LangId := pr.locale

end Verif.Api
