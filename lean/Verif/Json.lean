import Verif.Chars

/-!
# `serde_json::from_str` (make_pluralrules/src/parser/resource.rs:34): JSON text to JSON values

`serde_json` is a dependency and its source is not in /repo; this is its reading of JSON text.  Numbers are kept as
their text, since the resource has no numeric field.  A string, or a key, with an unpaired surrogate escape is kept as `none`:
`serde_json` accepts it only where the value is skipped.  The limit of 128 on the depth of nesting is not modelled; the
resource has a depth of five, and skipped values are not limited.
-/

namespace Verif.Json
open Verif

/-- A JSON value; members of an object in file order. -/
inductive Json where
  | null
  | bool (b : Bool)
  | num (s : Str)
  | str (s : Option Str)
  | arr (l : List Json)
  | obj (l : List (Option Str × Json))

/-- White space of JSON: blank, tab, line feed, carriage return. -/
def isWs (c : Char) : Bool := c.toNat == 32 || c.toNat == 9 || c.toNat == 10 || c.toNat == 13

/-- Skip white space. -/
def skipWs (s : Str) : Str := s.dropWhile isWs

/-! ## Strings -/

/-- A character of a string: written as such (or by a two-character escape), or a UTF-16 code unit written `\uXXXX`. -/
inductive Elem where
  | ch (c : Char)
  | unit (n : Nat)
  deriving DecidableEq, Repr

/-- The value of a hexadecimal digit. -/
def hexVal (c : Char) : Option Nat :=
  let n := c.toNat
  if 48 ≤ n ∧ n ≤ 57 then some (n - 48)
  else if 65 ≤ n ∧ n ≤ 70 then some (n - 55)
  else if 97 ≤ n ∧ n ≤ 102 then some (n - 87)
  else none

/-- Two-character escapes, by the character after the backslash. -/
def simpleEscape (c : Char) : Option Char :=
  if c = '"' then some '"'
  else if c = '\\' then some '\\'
  else if c = '/' then some '/'
  else if c = 'b' then some (Char.ofNat 8)
  else if c = 'f' then some (Char.ofNat 12)
  else if c = 'n' then some (Char.ofNat 10)
  else if c = 'r' then some (Char.ofNat 13)
  else if c = 't' then some (Char.ofNat 9)
  else none

/-- Four hexadecimal digits. -/
def hex4 : Str → Option (Nat × Str)
  | a :: b :: c :: d :: r =>
    match hexVal a, hexVal b, hexVal c, hexVal d with
    | some a, some b, some c, some d => some (((a * 16 + b) * 16 + c) * 16 + d, r)
    | _, _, _, _ => none
  | _ => none

/-- What follows a backslash. -/
def escape : Str → Option (Elem × Str)
  | [] => none
  | c :: r =>
    if c = 'u' then (hex4 r).map fun p => (.unit p.1, p.2)
    else (simpleEscape c).map fun d => (.ch d, r)

/-- The rest of a string after its opening quote; control characters are not allowed.  The first argument only bounds the
recursion, here and below: it is a text that is at least as long. -/
def strBody : Str → Str → List Elem → Option (List Elem × Str)
  | [], _, _ => none
  | _ :: _, [], _ => none
  | _ :: k, c :: r, acc =>
    if c = '"' then some (acc.reverse, r)
    else if c = '\\' then
      match escape r with
      | none => none
      | some (e, r') => strBody k r' (e :: acc)
    else if c.toNat < 32 then none
    else strBody k r (.ch c :: acc)

/-- UTF-16 code units to characters; `none` if a surrogate has no partner. -/
def decode : List Elem → Option Str
  | [] => some []
  | .ch c :: r => (decode r).map fun s => c :: s
  | .unit n :: r =>
    if n < 0xD800 ∨ 0xE000 ≤ n then (decode r).map fun s => Char.ofNat n :: s
    else if 0xDC00 ≤ n then none
    else
      match r with
      | .unit m :: r' =>
        if 0xDC00 ≤ m ∧ m < 0xE000 then
          (decode r').map fun s => Char.ofNat (0x10000 + (n - 0xD800) * 0x400 + (m - 0xDC00)) :: s
        else none
      | _ => none

/-- A string after its opening quote. -/
def pStr (k s : Str) : Option (Option Str × Str) :=
  (strBody k s []).map fun p => (decode p.1, p.2)

/-! ## Numbers -/

/-- One or more digits. -/
def digits1 (s : Str) : Option (Str × Str) :=
  if (s.takeWhile isDigit).isEmpty then none else some (s.takeWhile isDigit, s.dropWhile isDigit)

/-- The integer part: `0`, or digits that do not start with `0`. -/
def numInt (s : Str) : Option (Str × Str) :=
  match s with
  | [] => none
  | c :: r =>
    if c = '0' then
      if (r.takeWhile isDigit).isEmpty then some (['0'], r) else none
    else digits1 s

/-- The fraction, if there is a point. -/
def numFrac (s : Str) : Option (Str × Str) :=
  match s with
  | [] => some ([], [])
  | c :: r => if c = '.' then (digits1 r).map fun p => ('.' :: p.1, p.2) else some ([], s)

/-- The sign of an exponent. -/
def expSign (s : Str) : Str × Str :=
  match s with
  | [] => ([], [])
  | c :: r => if c = '+' ∨ c = '-' then ([c], r) else ([], s)

/-- The exponent, if there is an `e`. -/
def numExp (s : Str) : Option (Str × Str) :=
  match s with
  | [] => some ([], [])
  | c :: r =>
    if c = 'e' ∨ c = 'E' then (digits1 (expSign r).2).map fun p => (c :: (expSign r).1 ++ p.1, p.2) else some ([], s)

/-- A number without its sign. -/
def numAbs (s : Str) : Option (Str × Str) :=
  match numInt s with
  | none => none
  | some (i, s) =>
    match numFrac s with
    | none => none
    | some (f, s) =>
      match numExp s with
      | none => none
      | some (e, s) => some (i ++ f ++ e, s)

/-- A number. -/
def pNum (s : Str) : Option (Str × Str) :=
  match s with
  | [] => none
  | c :: r => if c = '-' then (numAbs r).map fun p => ('-' :: p.1, p.2) else numAbs s

/-! ## Values -/

/-- `null`, `true`, `false`, or a number. -/
def pScalar (s : Str) : Option (Json × Str) :=
  if c!"null".isPrefixOf s then some (.null, s.drop 4)
  else if c!"true".isPrefixOf s then some (.bool true, s.drop 4)
  else if c!"false".isPrefixOf s then some (.bool false, s.drop 5)
  else (pNum s).map fun p => (.num p.1, p.2)

mutual
/-- A value; the text does not start with white space. -/
def pVal : Str → Str → Option (Json × Str)
  | [], _ => none
  | _ :: _, [] => none
  | _ :: k, c :: r =>
    if c = '"' then (pStr k r).map fun p => (.str p.1, p.2)
    else if c = '[' then
      match skipWs r with
      | [] => none
      | d :: r' => if d = ']' then some (.arr [], r') else (pElems k r).map fun p => (.arr p.1, p.2)
    else if c = '{' then
      match skipWs r with
      | [] => none
      | d :: r' => if d = '}' then some (.obj [], r') else (pMembers k r).map fun p => (.obj p.1, p.2)
    else pScalar (c :: r)
/-- One or more elements of an array, and the closing bracket. -/
def pElems : Str → Str → Option (List Json × Str)
  | [], _ => none
  | _ :: k, s =>
    match pVal k (skipWs s) with
    | none => none
    | some (j, r) =>
      match skipWs r with
      | [] => none
      | c :: r' =>
        if c = ',' then (pElems k r').map fun p => (j :: p.1, p.2)
        else if c = ']' then some ([j], r')
        else none
/-- One or more members of an object, and the closing brace. -/
def pMembers : Str → Str → Option (List (Option Str × Json) × Str)
  | [], _ => none
  | _ :: k, s =>
    match skipWs s with
    | [] => none
    | q :: r =>
      if q = '"' then
        match pStr k r with
        | none => none
        | some (key, r) =>
          match skipWs r with
          | [] => none
          | c :: r =>
            if c = ':' then
              match pVal k (skipWs r) with
              | none => none
              | some (j, r) =>
                match skipWs r with
                | [] => none
                | c :: r' =>
                  if c = ',' then (pMembers k r').map fun p => ((key, j) :: p.1, p.2)
                  else if c = '}' then some ([(key, j)], r')
                  else none
            else none
      else none
end

/-- A whole text: a value with white space around it, and nothing else. -/
def parse (s : Str) : Option Json :=
  match pVal (' ' :: s) (skipWs s) with
  | none => none
  | some (j, r) => if (skipWs r).isEmpty then some j else none

end Verif.Json
