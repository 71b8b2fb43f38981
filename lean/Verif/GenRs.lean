import Verif.GenPr
import Verif.LangId

/-!
# `make_pluralrules/src/parser/gen_rs.rs`, function by function

Token streams are lists of tokens, as in `Verif.GenPr`; a panic is `none`.
-/

namespace Verif.GenRs
open Verif Rust GenPr

/-- The two keys of the map at make_pluralrules/src/lib.rs:23,42,50, in the order of the `BTreeMap` (`"cardinal" < "ordinal"`).
The `panic!("Unknown plural rule type")` at gen_rs.rs:59 cannot be reached: these are the only keys inserted. -/
inductive RuleType where
  | cardinal | ordinal
  deriving DecidableEq, Repr

/-- gen_rs.rs:56-60. -/
def tableName : RuleType → Str
  | .cardinal => c!"PRS_CARDINAL"
  | .ordinal => c!"PRS_ORDINAL"

/-- Category names as written by `quote!`. -/
def catIdent : PluralCategory → Str
  | .ZERO => c!"ZERO"
  | .ONE => c!"ONE"
  | .TWO => c!"TWO"
  | .FEW => c!"FEW"
  | .MANY => c!"MANY"
  | .OTHER => c!"OTHER"

/-- `{ PluralCategory::X }` -/
def qCat (c : PluralCategory) : List Tok :=
  [symLBrace, .id c!"PluralCategory", symPath, .id (catIdent c), symRBrace]

/-- gen_rs.rs:69-78 (`create_return`): for OTHER the expression is not used. -/
def createReturn (cat : PluralCategory) (exp : List Tok) : List Tok :=
  match cat with
  | .OTHER => qCat .OTHER
  | c => .id c!"if" :: exp ++ qCat c

/-- gen_rs.rs:120-135: the chain of a locale. -/
def ruleTokens (set : List (PluralCategory × List Tok)) : List Tok :=
  match set with
  | [] => qCat .OTHER
  | p :: rest =>
    rest.foldl (fun tokens q => tokens ++ .id c!"else" :: createReturn q.1 q.2) (createReturn p.1 p.2) ++
      .id c!"else" :: qCat .OTHER

/-- A path `a :: b :: c`. -/
def qPath : List Str → List Tok
  | [] => []
  | [a] => [.id a]
  | a :: b :: r => .id a :: symPath :: qPath (b :: r)

/-- gen_rs.rs:80-107 (`gen_langid`).  Raw integers are written with their type as suffix: `u64` for languages, `u32`
for scripts and regions. -/
def genLangid (id : LangId) : List Tok :=
  let none' : List Tok := [.id c!"None"]
  let lang := match id.language with
    | some l => qPath [c!"subtags", c!"Language", c!"from_raw_unchecked"] ++ [symOpen, .lit (LangId.rawOf l) c!"u64", symClose]
    | none => none'
  let script := match id.script with
    | some s => .id c!"Some" :: symOpen :: qPath [c!"subtags", c!"Script", c!"from_raw_unchecked"] ++
        [symOpen, .lit (LangId.rawOf s) c!"u32", symClose, symClose]
    | none => none'
  let region := match id.region with
    | some r => .id c!"Some" :: symOpen :: qPath [c!"subtags", c!"Region", c!"from_raw_unchecked"] ++
        [symOpen, .lit (LangId.rawOf r) c!"u32", symClose, symClose]
    | none => none'
  .id c!"langid" :: symNot :: symOpen :: lang ++ .sym c!"," :: script ++ .sym c!"," :: region ++ [symClose]

/-- gen_rs.rs:112-145 (`gen_mid`). -/
def genMid (lang : LangId) (set : List (PluralCategory × List Tok)) : List Tok :=
  symOpen :: genLangid lang ++
    .sym c!"," :: .sym c!"|" :: .id c!"po" :: .sym c!"|" :: symLBrace :: ruleTokens set ++ [symRBrace, symClose]

/-- gen_rs.rs:53-66 (`create_pr_type`). -/
def createPrType (ty : RuleType) (streams : List (List Tok)) : List Tok :=
  [.id c!"pub", .id c!"const", .id (tableName ty), .sym c!":", symAmp, .sym c!"[", symOpen, .id c!"LanguageIdentifier",
    .sym c!",", .id c!"PluralRule", symClose, .sym c!"]", .sym c!"=", symAmp, .sym c!"["] ++
    sepBy (.sym c!",") streams ++ [.sym c!"]", .sym c!";"]

/-- gen_rs.rs:11-16: one `#![cfg_attr(feature = "cargo-clippy", allow(clippy::x))]`. -/
def clippyAttr (lint : Str) : List Tok :=
  [.sym c!"#", symNot, .sym c!"[", .id c!"cfg_attr", symOpen, .id c!"feature", .sym c!"=", .str c!"cargo-clippy",
    .sym c!",", .id c!"allow", symOpen, .id c!"clippy", symPath, .id lint, symClose, symClose, .sym c!"]"]

/-- gen_rs.rs:11-43: the head of the file. -/
def head (version : Nat) : List Tok :=
  [.sym c!"#", symNot, .sym c!"[", .id c!"allow", symOpen, .id c!"unused_variables", .sym c!",", .id c!"unused_parens",
    symClose, .sym c!"]"] ++
  clippyAttr c!"float_cmp" ++ clippyAttr c!"unreadable_literal" ++ clippyAttr c!"nonminimal_bool" ++
  .id c!"use" :: qPath [c!"super", c!"operands", c!"PluralOperands"] ++ .sym c!";" ::
  .id c!"use" :: qPath [c!"super", c!"PluralCategory"] ++ .sym c!";" ::
  .id c!"use" :: qPath [c!"unic_langid", c!"LanguageIdentifier"] ++ .sym c!";" ::
  .id c!"use" :: qPath [c!"unic_langid", c!"subtags"] ++ .sym c!";" ::
  -- plural_function, gen_rs.rs:39
  [.id c!"pub", .id c!"type", .id c!"PluralRule", .sym c!"=", .id c!"fn", symOpen, symAmp, .id c!"PluralOperands",
    symClose, .sym c!"->", .id c!"PluralCategory", .sym c!";"] ++
  -- version, gen_rs.rs:40-42
  [.id c!"pub", .id c!"static", .id c!"CLDR_VERSION", .sym c!":", .id c!"usize", .sym c!"=", .lit version [], .sym c!";"] ++
  -- langid_macro, gen_rs.rs:23-38
  [.id c!"macro_rules", symNot, .id c!"langid", symLBrace,
    symOpen, .sym c!"$", .id c!"lang", .sym c!":", .id c!"expr", .sym c!",", .sym c!"$", .id c!"script", .sym c!":",
    .id c!"expr", .sym c!",", .sym c!"$", .id c!"region", .sym c!":", .id c!"expr", symClose, .sym c!"=>",
    symLBrace, symLBrace, .id c!"unsafe", symLBrace] ++
  qPath [c!"LanguageIdentifier", c!"from_raw_parts_unchecked"] ++
  [symOpen, .sym c!"$", .id c!"lang", .sym c!",", .sym c!"$", .id c!"script", .sym c!",", .sym c!"$", .id c!"region",
    .sym c!",", .id c!"None", .sym c!",", symClose, symRBrace, symRBrace, symRBrace, .sym c!";", symRBrace]

/-- `num as u64` for an `isize` (gen_rs.rs:41): negative numbers wrap. -/
def isizeAsU64 (x : Int) : Nat := (x % 2 ^ 64).toNat

/-- gen_rs.rs:10-50 (`gen_fn`); `none` is the panic of `vr.parse().unwrap()` at :40. -/
def genFn (streams : List (RuleType × List (List Tok))) (vr : Str) : Option (List Tok) :=
  match parseSigned 64 vr with
  | none => none
  | some num =>
    some (head (isizeAsU64 num) ++ (streams.map fun p => createPrType p.1 p.2).flatten)

/-! ## `TokenStream::to_string` -/

/-- The text of a token. -/
def tokText : Tok → Str
  | .id s => s
  | .lit n suf => showNat n ++ suf
  | .str s => '"' :: s ++ ['"']
  | .sym s => s

def isOpening (t : Tok) : Bool := t == .sym c!"(" || t == .sym c!"["
def isClosing (t : Tok) : Bool := t == .sym c!")" || t == .sym c!"]"

/-- `TokenStream::to_string` (proc_macro2, a dependency; make_pluralrules/src/lib.rs:59): tokens separated by blanks, except
inside round and square brackets next to the bracket.  The form is the one of
make_pluralrules/tests/fixtures/cldr_pluralrules_33.rs. -/
def render : List Tok → Str
  | [] => []
  | [t] => tokText t
  | t :: u :: r =>
    if isOpening t || isClosing u then tokText t ++ render (u :: r) else tokText t ++ ' ' :: render (u :: r)

end Verif.GenRs
