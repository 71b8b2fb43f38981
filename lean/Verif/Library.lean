import Verif.FileRead
import Verif.AnySearch

/-!
# The library built with a rules file

`intl_pluralrules/src/rules.rs` is a file that `make_pluralrules` writes.  Here the library is built with any such text in its
place: what the compiler asks of the text, and `create` of the library that results.
-/

namespace Verif.Api
open Verif Rust FileRead

/-- The two tables that lib.rs takes from rules.rs (`rules::PRS_CARDINAL` and `rules::PRS_ORDINAL`, lib.rs:107-108 and 165-166). -/
structure Library where
  cardinal : List (LangId × Closure)
  ordinal : List (LangId × Closure)
  deriving DecidableEq

/-- lib.rs:106-109 and 164-167. -/
def Library.table (lib : Library) : PluralRuleType → List (LangId × Closure)
  | .CARDINAL => lib.cardinal
  | .ORDINAL => lib.ordinal

/-- lib.rs:101-123 (`PluralRules::create`) with these tables and this binary search; an index out of range would be a panic. -/
def Library.create (lib : Library) (search : List (LangId × Closure) → LangId → Except Nat Nat) (langid : LangId)
    (prt : PluralRuleType) : Option (Except Str PluralRules) :=
  match search (lib.table prt) langid with
  | .ok idx =>
    match (lib.table prt)[idx]? with
    | some e => some (.ok { locale := langid, function := e.2 })
    | none => none
  | .error _ => some (.error c!"unknown locale")

/-- lib.rs:163-171 (`PluralRules::get_locales`) with these tables. -/
def Library.getLocales (lib : Library) (prt : PluralRuleType) : List LangId := (lib.table prt).map (·.1)

/-! ## The compiler

Nothing below is in /repo: it is what rustc (64-bit target) asks of the file and of the uses of it in lib.rs. -/

/-- The lint `overflowing_literals` is an error by default: integers are `u64` or, on this target, as long (those of identifiers
are checked by `readRaw`). -/
def literalsFit : RExpr → Bool
  | .int k => k < 2 ^ 64
  | .flt _ => true
  | .field _ => true
  | .rem a b => literalsFit a && literalsFit b
  | .cmp _ a b => literalsFit a && literalsFit b
  | .not a => literalsFit a
  | .and a b => literalsFit a && literalsFit b
  | .or a b => literalsFit a && literalsFit b
  | .contains lo hi a => lo < 2 ^ 64 && hi < 2 ^ 64 && literalsFit a

/-- The lint `unconditional_panic` is an error by default: no remainder by the literal zero, reached or not. -/
def noZeroDivisor : RExpr → Bool
  | .int _ => true
  | .flt _ => true
  | .field _ => true
  | .rem a b => b != .int 0 && noZeroDivisor a && noZeroDivisor b
  | .cmp _ a b => noZeroDivisor a && noZeroDivisor b
  | .not a => noZeroDivisor a
  | .and a b => noZeroDivisor a && noZeroDivisor b
  | .or a b => noZeroDivisor a && noZeroDivisor b
  | .contains _ _ a => noZeroDivisor a

/-- The tables with this name. -/
def tablesNamed (name : Str) (items : List Item) : List (List (LangId × Closure)) :=
  items.filterMap fun
    | .table n entries => if n = name then some entries else none
    | _ => none

/-- The closure has a type, and no lint refuses it. -/
def accepted (f : Closure) : Bool := f.wellTyped && f.arms.all fun a => literalsFit a.1 && noZeroDivisor a.1

/-- The number of the version fits. -/
def versionFits : Item → Bool
  | .version n => n < 2 ^ 64
  | _ => true

/-- A point that has white space on one side and then a digit.  Numbers with a point must be written without white space:
`1 . 0` and `1 .0` are a field of the integer 1 for rustc, and `1. 0` is no expression (while `parseExpr` reads all these as the
float, since it only sees tokens).  The first argument says whether there is white space before the text. -/
def torn : Bool → Str → Bool
  | _, [] => false
  | blank, c :: rest =>
    c == '.' && (blank || rest.head?.any isWhitespace) && (rest.dropWhile isWhitespace).head?.any isDigit || torn (isWhitespace c) rest

/-- The library with these items as rules.rs, if it compiles.  Each name that lib.rs uses must be defined, and only once. -/
def compile (items : List Item) : Option Library :=
  match tablesNamed c!"PRS_CARDINAL" items, tablesNamed c!"PRS_ORDINAL" items with
  | [cardinal], [ordinal] =>
    if items.all versionFits && (cardinal ++ ordinal).all fun e => accepted e.2 then some ⟨cardinal, ordinal⟩ else none
  | _, _ => none

/-- The library with this text as rules.rs, if it compiles. -/
def build (text : Str) : Option Library :=
  if torn false text then none else (readFile (lex text)).bind compile

end Verif.Api
