import Verif.Chars

/-!
# `unic_langid::LanguageIdentifier`

A dependency (`unic-langid = "0.9"` in intl_pluralrules, `"0.8"` in make_pluralrules); its source is not in /repo.  The
model has the four public parts, the derived order (field by field, `None` first, subtags as ASCII text), the raw integer form of a
subtag (its ASCII bytes, the first one lowest), and the parser of identifiers.
-/

namespace Verif

/-- Language, script, region, variants; `language = none` is `und`, `variants = none` is no variants. -/
structure LangId where
  language : Option Str
  script : Option Str
  region : Option Str
  variants : Option (List Str)
  deriving DecidableEq, Repr

namespace LangId

/-- Order of text. -/
def cmpStr : Str → Str → Ordering
  | [], [] => .eq
  | [], _ :: _ => .lt
  | _ :: _, [] => .gt
  | a :: s, b :: t => if a.toNat < b.toNat then .lt else if b.toNat < a.toNat then .gt else cmpStr s t

/-- Order of `Option`: `None` first. -/
def cmpOpt (f : α → α → Ordering) : Option α → Option α → Ordering
  | none, none => .eq
  | none, some _ => .lt
  | some _, none => .gt
  | some a, some b => f a b

/-- Order of slices. -/
def cmpList (f : α → α → Ordering) : List α → List α → Ordering
  | [], [] => .eq
  | [], _ :: _ => .lt
  | _ :: _, [] => .gt
  | a :: s, b :: t => (f a b).then (cmpList f s t)

/-- `#[derive(Ord)]` of `LanguageIdentifier`: field by field in declaration order. -/
def cmp (a b : LangId) : Ordering :=
  (cmpOpt cmpStr a.language b.language).then <|
  (cmpOpt cmpStr a.script b.script).then <|
  (cmpOpt cmpStr a.region b.region).then <|
  cmpOpt (cmpList cmpStr) a.variants b.variants

/-- The raw integer of a subtag: its ASCII bytes, the first in the lowest place (`into_raw_parts`, used at
make_pluralrules/src/parser/gen_rs.rs:81). -/
def rawOf : Str → Nat
  | [] => 0
  | c :: t => c.toNat + 256 * rawOf t

/-- The subtag of a raw integer (`from_raw_unchecked`, used in every entry of intl_pluralrules/src/rules.rs); `fuel` is the
number of bytes, 8 for a language or script, 4 for a region. -/
def ofRaw : Nat → Nat → Str
  | 0, _ => []
  | k + 1, n => if n = 0 then [] else Char.ofNat (n % 256) :: ofRaw k (n / 256)

def isAlpha (c : Char) : Bool :=
  ('a'.toNat ≤ c.toNat && c.toNat ≤ 'z'.toNat) || ('A'.toNat ≤ c.toNat && c.toNat ≤ 'Z'.toNat)

def lowerChar (c : Char) : Char :=
  if 'A'.toNat ≤ c.toNat && c.toNat ≤ 'Z'.toNat then Char.ofNat (c.toNat + 32) else c

def upperChar (c : Char) : Char :=
  if 'a'.toNat ≤ c.toNat && c.toNat ≤ 'z'.toNat then Char.ofNat (c.toNat - 32) else c

/-- Language subtag: 2, 3 or 5 to 8 letters, lower-cased; `und` is no language. -/
def parseLanguage (s : Str) : Option (Option Str) :=
  if (s.length = 2 ∨ s.length = 3 ∨ (5 ≤ s.length ∧ s.length ≤ 8)) ∧ s.all isAlpha then
    if s.map lowerChar = c!"und" then some none else some (some (s.map lowerChar))
  else none

/-- Script subtag: 4 letters, title-cased. -/
def parseScript (s : Str) : Option Str :=
  if s.length = 4 ∧ s.all isAlpha then
    match s with
    | c :: t => some (upperChar c :: t.map lowerChar)
    | [] => none
  else none

/-- Region subtag: 2 letters, upper-cased, or 3 digits. -/
def parseRegion (s : Str) : Option Str :=
  if s.length = 2 ∧ s.all isAlpha then some (s.map upperChar)
  else if s.length = 3 ∧ s.all isDigit then some s
  else none

/-- Variant subtag: 5 to 8 letters or digits, or 4 starting with a digit; lower-cased. -/
def parseVariant (s : Str) : Option Str :=
  if (5 ≤ s.length ∧ s.length ≤ 8 ∧ s.all (fun c => isAlpha c || isDigit c)) ∨
      (s.length = 4 ∧ (s.head?.map isDigit) = some true ∧ s.all (fun c => isAlpha c || isDigit c)) then
    some (s.map lowerChar)
  else none

/-- Split at `-` or `_`. -/
def splitSubtags : Str → List Str
  | [] => [[]]
  | c :: t =>
    if c == '-' || c == '_' then [] :: splitSubtags t
    else match splitSubtags t with
      | h :: r => (c :: h) :: r
      | [] => [[c]]

/-- Variants: every subtag must be one. -/
def parseVariants : List Str → Option (List Str)
  | [] => some []
  | s :: rest =>
    match parseVariant s, parseVariants rest with
    | some v, some vs => some (v :: vs)
    | _, _ => none

/-- Sorted insertion without duplicates (variants are stored sorted). -/
def insertStr (x : Str) : List Str → List Str
  | [] => [x]
  | y :: r =>
    match cmpStr x y with
    | .lt => x :: y :: r
    | .eq => y :: r
    | .gt => y :: insertStr x r

/-- The stored form of parsed variants. -/
def normVariants (vs : List Str) : Option (List Str) :=
  if vs.isEmpty then none else some (vs.foldr insertStr [])

/-- Optional region and then variants. -/
def parseAfterScript (lang script : Option Str) : List Str → Option LangId
  | [] => some { language := lang, script := script, region := none, variants := none }
  | r :: rest =>
    match parseRegion r with
    | some reg =>
      (parseVariants rest).map fun vs =>
        { language := lang, script := script, region := some reg, variants := normVariants vs }
    | none =>
      (parseVariants (r :: rest)).map fun vs =>
        { language := lang, script := script, region := none, variants := normVariants vs }

/-- `str::parse::<LanguageIdentifier>`; make_pluralrules/src/lib.rs:72-74. -/
def parse (s : Str) : Option LangId :=
  match splitSubtags s with
  | [] => none
  | l :: rest =>
    match parseLanguage l with
    | none => none
    | some lang =>
      match rest with
      | [] => parseAfterScript lang none []
      | x :: rest' =>
        match parseScript x with
        | some sc => parseAfterScript lang (some sc) rest'
        | none => parseAfterScript lang none (x :: rest')

end LangId
end Verif
