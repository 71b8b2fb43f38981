import Verif.Nom
import Verif.Ast

/-!
# `cldr_pluralrules_parser/src/parser.rs` and `lib.rs`, function by function

The bound on numbers is that of `usize`, whose width on the machine that runs the parser is the parameter `bits`.
-/

namespace Verif.Parser
open Verif Nom

/-- Width of `usize` on the machine that runs the generator: 64 bits. -/
def usizeBits : Nat := 64

variable (bits : Nat)

/-- parser.rs:13-15. -/
def value : P Nat := mapRes digit1 (parseUnsigned bits)

/-- parser.rs:17-25. -/
def range : P (Nat × Nat) := separatedPair (value bits) (tag c!"..") (value bits)

/-- parser.rs:27-32. -/
def rangeListItem : P RangeListItem :=
  alt (map (range bits) fun r => .range r.1 r.2) (map (value bits) .value)

/-- `tuple((space0, tag(","), space0))`, parser.rs:36,134,136. -/
def commaSep : P (Str × Str × Str) := pair space0 (pair (tag c!",") space0)

/-- parser.rs:34-39. -/
def rangeList : P (List RangeListItem) := separatedList commaSep (rangeListItem bits)

/-- parser.rs:41-51; the `unreachable!()` arm is the last one, for a character that `one_of` cannot return. -/
def operandOfChar (c : Char) : Operand :=
  if c == 'n' then .N
  else if c == 'i' then .I
  else if c == 'v' then .V
  else if c == 'w' then .W
  else if c == 'f' then .F
  else .T

/-- parser.rs:41-51. -/
def operand : P Operand := map (oneOf c!"nivwft") operandOfChar

/-- parser.rs:53-58. -/
def modExpression : P (Option Nat) :=
  opt (preceded (pair space0 (pair (alt (tag c!"mod") (tag c!"%")) space1)) (value bits))

/-- parser.rs:60-64. -/
def expression : P Expression :=
  map (pair operand (modExpression bits)) fun x => { operand := x.1, modulus := x.2 }

/-- parser.rs:66-91. -/
def relationOperator : P Operator :=
  alt (map (tag c!"=") fun _ => .EQ) <|
  alt (map (tag c!"!=") fun _ => .NotEQ) <|
  alt (map (pair (tag c!"is") (pair space1 (opt (tag c!"not")))) fun x =>
    if x.2.2.isSome then .IsNot else .Is) <|
  alt (map (tag c!"in") fun _ => .In) <|
  alt (map (pair (tag c!"not") (pair space1
        (alt (map (tag c!"in") fun _ => .NotIn) (map (tag c!"within") fun _ => .NotWithin)))) fun x => x.2.2) <|
  map (tag c!"within") fun _ => .Within

/-- parser.rs:93-102. -/
def relation : P Relation :=
  map (pair (expression bits) (pair space0 (pair relationOperator (pair space0 (rangeList bits))))) fun x =>
    { expression := x.1, operator := x.2.2.1, rangeList := x.2.2.2.2 }

/-- parser.rs:104-109. -/
def andCondition : P AndCondition :=
  separatedNonemptyList (pair space1 (pair (tag c!"and") space1)) (relation bits)

/-- parser.rs:111-116. -/
def decimalValue : P DecimalValue :=
  map (pair (value bits) (opt (preceded (tag c!".") (value bits)))) fun x => { integer := x.1, decimal := x.2 }

/-- parser.rs:118-129. -/
def sampleRange : P SampleRange :=
  map (pair (decimalValue bits) (opt (preceded (pair space0 (pair (tag c!"~") space0)) (decimalValue bits)))) fun x =>
    { lower := x.1, upper := x.2 }

/-- parser.rs:131-145. -/
def sampleList : P SampleList :=
  map (pair (separatedNonemptyList commaSep (sampleRange bits))
        (opt (preceded commaSep (alt (tag c!"...") (tag c!"…"))))) fun x =>
    { ranges := x.1, ellipsis := x.2.isSome }

/-- parser.rs:147-167. -/
def samples : P (Option Samples) :=
  map (pair (opt (preceded (pair space1 (pair (tag c!"@integer") space1)) (sampleList bits)))
            (opt (preceded (pair space1 (pair (tag c!"@decimal") space1)) (sampleList bits)))) fun x =>
    if x.1.isSome || x.2.isSome then some { integer := x.1, decimal := x.2 } else none

/-- parser.rs:175-188. -/
def parseCondition : P Condition := fun i =>
  if (trim i).isEmpty then some ([], [])
  else if c!"@".isPrefixOf (trim i) then some ([], [])
  else separatedNonemptyList (pair space1 (pair (tag c!"or") space1)) (andCondition bits) i

/-- parser.rs:169-173. -/
def parseRule : P Rule :=
  map (pair (parseCondition bits) (samples bits)) fun x => { condition := x.1, samples := x.2 }

/-- cldr_pluralrules_parser/src/lib.rs:79-86. -/
def parsePluralRule (source : Str) : Except Str Rule :=
  match parseRule bits source with
  | some ([], rule) => .ok rule
  | some (left, _) => .error (c!"Left string: " ++ left)
  | none => .error c!"Parser failed"

/-- cldr_pluralrules_parser/src/lib.rs:88-93. -/
def parsePluralCondition (source : Str) : Except Str Condition :=
  match parseCondition bits source with
  | some (_, rule) => .ok rule
  | none => .error c!"Parser failed"

end Verif.Parser
