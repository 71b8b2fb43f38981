import Verif.RulesRead

/-!
# Reading a whole generated file

The items of intl_pluralrules/src/rules.rs, and of the text that make_pluralrules writes before `rustfmt` has laid it out.
Nothing in this file is in /repo: it is what the Rust compiler takes such a file to say.
-/

namespace Verif.FileRead
open Verif Rust RulesRead

/-- An item of the file. -/
inductive Item where
  /-- `#![…]` with its tokens -/
  | attr (ts : List Tok)
  /-- `use a::b::c;` -/
  | use (path : List Str)
  /-- `pub type PluralRule = fn(&PluralOperands) -> PluralCategory;` -/
  | ruleType
  /-- `pub static CLDR_VERSION: usize = n;` -/
  | version (n : Nat)
  /-- The macro `langid!`, which passes its arguments on and adds `None` for the variants. -/
  | langidMacro
  /-- `pub const NAME: &[(LanguageIdentifier, PluralRule)] = &[…];` -/
  | table (name : Str) (entries : List (LangId × Closure))
  deriving DecidableEq, Repr

def isOpen (t : Tok) : Bool := t == symOpen || t == .sym c!"[" || t == symLBrace
def isClose (t : Tok) : Bool := t == symClose || t == .sym c!"]" || t == symRBrace

/-- Tokens up to and including the bracket that closes the `depth`-th open bracket. -/
def takeGroup : Nat → List Tok → List Tok → Option (List Tok × List Tok)
  | _, [], _ => none
  | d, t :: r, acc =>
    if isOpen t then takeGroup (d + 1) r (t :: acc)
    else if isClose t then
      if d ≤ 1 then some ((t :: acc).reverse, r) else takeGroup (d - 1) r (t :: acc)
    else takeGroup d r (t :: acc)

/-- `a::b::c;` -/
def readPath : List Tok → Option (List Str × List Tok)
  | .id a :: .sym s :: r =>
    if s = c!";" then some ([a], r)
    else if s = c!"::" then (readPath r).map fun p => (a :: p.1, p.2)
    else none
  | _ => none

/-- The entries of a table and the closing bracket; a comma after the last entry is allowed.  The first argument only bounds the
recursion. -/
def readEntries : List Tok → List Tok → Option (List (LangId × Closure) × List Tok)
  | [], _ => none
  | _ :: k, ts =>
    match expect [.sym c!"]"] ts with
    | some r => some ([], r)
    | none =>
      match takeGroup 0 ts [] with
      | none => none
      | some (g, r) =>
        match readEntry g with
        | none => none
        | some e =>
          match expect [.sym c!","] r with
          | some r => (readEntries k r).map fun p => (e :: p.1, p.2)
          | none => (expect [.sym c!"]"] r).map fun r => ([e], r)

/-- `pub type PluralRule = fn(&PluralOperands) -> PluralCategory;` -/
def ruleTypeTokens : List Tok :=
  [.id c!"pub", .id c!"type", .id c!"PluralRule", .sym c!"=", .id c!"fn", symOpen, symAmp, .id c!"PluralOperands",
    symClose, .sym c!"->", .id c!"PluralCategory", .sym c!";"]

/-- The macro up to its last argument. -/
def macroTokens : List Tok :=
  [.id c!"macro_rules", symNot, .id c!"langid", symLBrace,
    symOpen, .sym c!"$", .id c!"lang", .sym c!":", .id c!"expr", .sym c!",", .sym c!"$", .id c!"script", .sym c!":",
    .id c!"expr", .sym c!",", .sym c!"$", .id c!"region", .sym c!":", .id c!"expr", symClose, .sym c!"=>",
    symLBrace, symLBrace, .id c!"unsafe", symLBrace, .id c!"LanguageIdentifier", symPath, .id c!"from_raw_parts_unchecked",
    symOpen, .sym c!"$", .id c!"lang", .sym c!",", .sym c!"$", .id c!"script", .sym c!",", .sym c!"$", .id c!"region",
    .sym c!",", .id c!"None"]

/-- The end of the macro. -/
def macroEnd : List Tok := [symClose, symRBrace, symRBrace, symRBrace, .sym c!";", symRBrace]

/-- Drop the token if it is there. -/
def dropOpt (t : Tok) (ts : List Tok) : List Tok := (expect [t] ts).getD ts

/-- `pub const NAME: &[(LanguageIdentifier, PluralRule)] = &[…];` after `pub const`. -/
def readTableItem : List Tok → Option (Item × List Tok)
  | .id name :: r =>
    match expect [.sym c!":", symAmp, .sym c!"[", symOpen, .id c!"LanguageIdentifier", .sym c!",", .id c!"PluralRule", symClose,
        .sym c!"]", .sym c!"=", symAmp, .sym c!"["] r with
    | none => none
    | some r =>
      match readEntries r r with
      | none => none
      | some (es, r) => (expect [.sym c!";"] r).map fun r => (.table name es, r)
  | _ => none

/-- `pub static CLDR_VERSION: usize = n;` after the equals sign. -/
def readVersion : List Tok → Option (Item × List Tok)
  | .lit n suf :: r => if suf = [] then (expect [.sym c!";"] r).map fun r => (.version n, r) else none
  | _ => none

/-- One item. -/
def readItem (ts : List Tok) : Option (Item × List Tok) :=
  match expect [.sym c!"#", symNot, .sym c!"["] ts with
  | some r => (takeGroup 1 r []).map fun p => (.attr p.1, p.2)
  | none =>
    match expect [.id c!"use"] ts with
    | some r => (readPath r).map fun p => (.use p.1, p.2)
    | none =>
      match expect ruleTypeTokens ts with
      | some r => some (.ruleType, r)
      | none =>
        match expect [.id c!"pub", .id c!"static", .id c!"CLDR_VERSION", .sym c!":", .id c!"usize", .sym c!"="] ts with
        | some r => readVersion r
        | none =>
          match expect macroTokens ts with
          | some r => (expect macroEnd (dropOpt (.sym c!",") r)).map fun r => (.langidMacro, r)
          | none =>
            match expect [.id c!"pub", .id c!"const"] ts with
            | some r => readTableItem r
            | none => none

/-- All items of the file.  The first argument only bounds the recursion. -/
def readItems : List Tok → List Tok → Option (List Item)
  | _, [] => some []
  | [], _ :: _ => none
  | _ :: k, t :: ts =>
    match readItem (t :: ts) with
    | none => none
    | some (i, r) => (readItems k r).map fun l => i :: l

/-- A whole file. -/
def readFile (ts : List Tok) : Option (List Item) := readItems ts ts

end Verif.FileRead
