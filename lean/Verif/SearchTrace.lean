import Verif.AnySearch

/-!
# Which entries the binary search looks at

The loops of `slice::binary_search_by` (std) again, with the list of the indices at which the comparison is called.  std reads the
slice at these indices without a check (`get_unchecked`).
-/

namespace Verif.Api
open Verif

/-- `searchLoop` with the indices. -/
def searchTrace (cmp : Nat → Ordering) : Nat → Nat → Nat → List Nat × Except Nat Nat
  | 0, left, _ => ([], .error left)
  | fuel + 1, left, right =>
    if left < right then
      let mid := left + (right - left) / 2
      match cmp mid with
      | .lt => ((mid :: (searchTrace cmp fuel (mid + 1) right).1), (searchTrace cmp fuel (mid + 1) right).2)
      | .gt => ((mid :: (searchTrace cmp fuel left mid).1), (searchTrace cmp fuel left mid).2)
      | .eq => ([mid], .ok mid)
    else ([], .error left)

/-- `branchlessLoop` with the indices. -/
def branchlessTrace (cmp : Nat → Ordering) : Nat → Nat → Nat → List Nat × Nat
  | 0, base, _ => ([], base)
  | fuel + 1, base, size =>
    if 1 < size then
      let mid := base + size / 2
      let rest := branchlessTrace cmp fuel (if cmp mid = .gt then base else mid) (size - size / 2)
      (mid :: rest.1, rest.2)
    else ([], base)

/-- `binary_search_by_key` of lib.rs:108,112 with the loop of Rust 1.52 to 1.81. -/
def traceBisect (t : List (LangId × α)) (key : LangId) : List Nat × Except Nat Nat :=
  searchTrace (keyCmp t key) t.length 0 t.length

/-- The same with the loop of the other versions. -/
def traceBranchless (t : List (LangId × α)) (key : LangId) : List Nat × Except Nat Nat :=
  if t.length = 0 then ([], .error 0)
  else
    let r := branchlessTrace (keyCmp t key) t.length 0 t.length
    (r.1 ++ [r.2], match keyCmp t key r.2 with
      | .eq => .ok r.2
      | .lt => .error (r.2 + 1)
      | .gt => .error r.2)

end Verif.Api
