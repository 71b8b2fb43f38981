import Verif.Api

/-!
# `create` with any search

`slice::binary_search_by_key` promises an index of a match if there is one, and otherwise the place where the key could be
inserted; which match, and how it is found, has changed between versions of std.  `Verif.Api` has the loop of one version; here
the search is a parameter, and `searchBranchless` is another version.
-/

namespace Verif.Api
open Verif Rust

/-- What `binary_search_by_key(&key, |(l, _)| l)` promises for a table in order. -/
def Searches (search : List (LangId × α) → LangId → Except Nat Nat) : Prop :=
  ∀ t key, (t.Pairwise fun a b => LangId.cmp a.1 b.1 ≠ .gt) →
    match search t key with
    | .ok i => ∃ v, t[i]? = some (key, v)
    | .error i => i ≤ t.length ∧ (∀ e ∈ t.take i, LangId.cmp e.1 key = .lt) ∧ ∀ e ∈ t.drop i, LangId.cmp e.1 key = .gt

/-- lib.rs:101-123 (`PluralRules::create`); an index out of range would be a panic. -/
def createWith (search : List (LangId × Closure) → LangId → Except Nat Nat) (langid : LangId) (prt : PluralRuleType) :
    Option (Except Str PluralRules) :=
  match search (table prt) langid with
  | .ok idx =>
    match (table prt)[idx]? with
    | some e => some (.ok { locale := langid, function := e.2 })
    | none => none
  | .error _ => some (.error c!"unknown locale")

/-- The loop of `binary_search_by` before Rust 1.52 and since 1.82: `size` is halved, and the comparison is only with `gt`. -/
def branchlessLoop (cmp : Nat → Ordering) : Nat → Nat → Nat → Nat
  | 0, base, _ => base
  | fuel + 1, base, size =>
    if 1 < size then
      branchlessLoop cmp fuel (if cmp (base + size / 2) = .gt then base else base + size / 2) (size - size / 2)
    else base

/-- `binary_search_by_key` with that loop. -/
def searchBranchless (t : List (LangId × α)) (key : LangId) : Except Nat Nat :=
  if t.length = 0 then .error 0
  else
    let base := branchlessLoop (keyCmp t key) t.length 0 t.length
    match keyCmp t key base with
    | .eq => .ok base
    | .lt => .error (base + 1)
    | .gt => .error base

end Verif.Api
