import Verif.Library

/-!
# The library compiled for any pointer width

The operands `v` and `w` are `usize` (intl_pluralrules/src/operands.rs:64-66), as is `CLDR_VERSION`
(make_pluralrules/src/parser/gen_rs.rs:42); the other integers are `u64`.  `Verif.Library` compiles for a target with 64-bit
pointers; here the width `bits` is a parameter.  With 64 this is `build` (`C97_64`).  Nothing else in lib.rs or rules.rs depends
on the width, and in operands.rs the conversion of signed integers (C10).
-/

namespace Verif.Api
open Verif Rust FileRead

/-- All integer literals of the expression are below the bound. -/
def literalsBelow (bound : Nat) : RExpr → Bool
  | .int k => k < bound
  | .flt _ => true
  | .field _ => true
  | .rem a b => literalsBelow bound a && literalsBelow bound b
  | .cmp _ a b => literalsBelow bound a && literalsBelow bound b
  | .not a => literalsBelow bound a
  | .and a b => literalsBelow bound a && literalsBelow bound b
  | .or a b => literalsBelow bound a && literalsBelow bound b
  | .contains lo hi a => lo < bound && hi < bound && literalsBelow bound a

/-- An operand that is a `usize` occurs in the expression. -/
def hasUsize : RExpr → Bool
  | .int _ => false
  | .flt _ => false
  | .field o => o == .V || o == .W
  | .rem a b => hasUsize a || hasUsize b
  | .cmp _ a b => hasUsize a || hasUsize b
  | .not a => hasUsize a
  | .and a b => hasUsize a || hasUsize b
  | .or a b => hasUsize a || hasUsize b
  | .contains _ _ a => hasUsize a

/-- The lint `overflowing_literals`: all integers of a comparison have the type of its operand. -/
def literalsFitOn (bits : Nat) : RExpr → Bool
  | .not a => literalsFitOn bits a
  | .and a b => literalsFitOn bits a && literalsFitOn bits b
  | .or a b => literalsFitOn bits a && literalsFitOn bits b
  | e => literalsBelow (2 ^ if hasUsize e then bits else 64) e

/-- The closure has a type, and no lint refuses it. -/
def acceptedOn (bits : Nat) (f : Closure) : Bool := f.wellTyped && f.arms.all fun a => literalsFitOn bits a.1 && noZeroDivisor a.1

/-- The number of the version fits. -/
def versionFitsOn (bits : Nat) : Item → Bool
  | .version n => n < 2 ^ bits
  | _ => true

/-- The library with these items as rules.rs, if it compiles. -/
def compileOn (bits : Nat) (items : List Item) : Option Library :=
  match tablesNamed c!"PRS_CARDINAL" items, tablesNamed c!"PRS_ORDINAL" items with
  | [cardinal], [ordinal] =>
    if items.all (versionFitsOn bits) && (cardinal ++ ordinal).all fun e => acceptedOn bits e.2 then some ⟨cardinal, ordinal⟩ else none
  | _, _ => none

/-- The library with this text as rules.rs, if it compiles. -/
def buildOn (bits : Nat) (text : Str) : Option Library :=
  if torn false text then none else (readFile (lex text)).bind (compileOn bits)

end Verif.Api
