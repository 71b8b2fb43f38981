import Verif.Parser

/-!
# The parser with its steps counted

The parser of `Verif.Parser` again, function by function, with the number of steps beside each result.  A primitive parser of nom
takes one step, and one for each character that it takes or compares; `str::parse::<usize>` one for each digit; `trim` at most one
for each character.  Trying an alternative and going back to where it began is not free: all steps of the failed attempt count.
-/

namespace Verif

/-- A parser with its steps. -/
abbrev PS (α : Type) := Str → Nat × Option (Str × α)

namespace Steps
open Verif Parser

/-- How many characters are compared to see whether a text begins with another. -/
def compared : Str → Str → Nat
  | [], _ => 0
  | _ :: _, [] => 0
  | a :: t, c :: i => if a = c then compared t i + 1 else 1

/-- `bytes::complete::tag`. -/
def tag (t : Str) : PS Str := fun i => (compared t i + 1, Nom.tag t i)

/-- `character::complete::space0`. -/
def space0 : PS Str := fun i => ((i.takeWhile Nom.isSpace).length + 1, Nom.space0 i)

/-- `character::complete::space1`. -/
def space1 : PS Str := fun i => ((i.takeWhile Nom.isSpace).length + 1, Nom.space1 i)

/-- `character::complete::digit1`. -/
def digit1 : PS Str := fun i => ((i.takeWhile isDigit).length + 1, Nom.digit1 i)

/-- `character::complete::one_of`. -/
def oneOf (cs : Str) : PS Char := fun i => (1, Nom.oneOf cs i)

/-- `combinator::map`. -/
def map (p : PS α) (f : α → β) : PS β := fun i =>
  ((p i).1, match (p i).2 with
    | some (r, a) => some (r, f a)
    | none => none)

/-- `combinator::map_res`, for a function that reads the text it gets. -/
def mapRes (p : PS Str) (f : Str → Option β) : PS β := fun i =>
  match (p i).2 with
  | some (r, a) => ((p i).1 + a.length, match f a with
    | some b => some (r, b)
    | none => none)
  | none => ((p i).1, none)

/-- `combinator::opt`. -/
def opt (p : PS α) : PS (Option α) := fun i =>
  ((p i).1, match (p i).2 with
    | some (r, a) => some (r, some a)
    | none => some (i, none))

/-- `branch::alt`. -/
def alt (p q : PS α) : PS α := fun i =>
  match (p i).2 with
  | some r => ((p i).1, some r)
  | none => ((p i).1 + (q i).1, (q i).2)

/-- `sequence::tuple`. -/
def pair (p : PS α) (q : PS β) : PS (α × β) := fun i =>
  match (p i).2 with
  | some (r, a) => ((p i).1 + (q r).1, match (q r).2 with
    | some (r', b) => some (r', (a, b))
    | none => none)
  | none => ((p i).1, none)

/-- `sequence::preceded`. -/
def preceded (p : PS α) (q : PS β) : PS β := map (pair p q) (·.2)

/-- `sequence::separated_pair`. -/
def separatedPair (p : PS α) (s : PS σ) (q : PS β) : PS (α × β) :=
  map (pair p (pair s q)) (fun x => (x.1, x.2.2))

/-- The loop of `multi::separated_list` and `multi::separated_nonempty_list`. -/
def sepLoop (sep : PS σ) (f : PS α) : Nat → Str → List α → Nat × Option (Str × List α)
  | 0, _, _ => (0, none)
  | fuel + 1, i, acc =>
    match (sep i).2 with
    | none => ((sep i).1, some (i, acc.reverse))
    | some (i1, _) =>
      if i1 == i then ((sep i).1, none)
      else match (f i1).2 with
        | none => ((sep i).1 + (f i1).1, some (i, acc.reverse))
        | some (i2, o) =>
          if i2 == i then ((sep i).1 + (f i1).1, none)
          else ((sep i).1 + (f i1).1 + (sepLoop sep f fuel i2 (o :: acc)).1, (sepLoop sep f fuel i2 (o :: acc)).2)

/-- `multi::separated_list`. -/
def separatedList (sep : PS σ) (f : PS α) : PS (List α) := fun i =>
  match (f i).2 with
  | none => ((f i).1, some (i, []))
  | some (i1, o) =>
    if i1 == i then ((f i).1, none)
    else ((f i).1 + (sepLoop sep f (i1.length + 1) i1 [o]).1, (sepLoop sep f (i1.length + 1) i1 [o]).2)

/-- `multi::separated_nonempty_list`. -/
def separatedNonemptyList (sep : PS σ) (f : PS α) : PS (List α) := fun i =>
  match (f i).2 with
  | none => ((f i).1, none)
  | some (i1, o) =>
    if i1 == i then ((f i).1, none)
    else ((f i).1 + (sepLoop sep f (i1.length + 1) i1 [o]).1, (sepLoop sep f (i1.length + 1) i1 [o]).2)

variable (bits : Nat)

/-- parser.rs:13-15. -/
def value : PS Nat := mapRes digit1 (parseUnsigned bits)

/-- parser.rs:17-25. -/
def range : PS (Nat × Nat) := separatedPair (value bits) (tag c!"..") (value bits)

/-- parser.rs:27-32. -/
def rangeListItem : PS RangeListItem :=
  alt (map (range bits) fun r => .range r.1 r.2) (map (value bits) .value)

/-- `tuple((space0, tag(","), space0))`, parser.rs:36,134,136. -/
def commaSep : PS (Str × Str × Str) := pair space0 (pair (tag c!",") space0)

/-- parser.rs:34-39. -/
def rangeList : PS (List RangeListItem) := separatedList commaSep (rangeListItem bits)

/-- parser.rs:41-51. -/
def operand : PS Operand := map (oneOf c!"nivwft") operandOfChar

/-- parser.rs:53-58. -/
def modExpression : PS (Option Nat) :=
  opt (preceded (pair space0 (pair (alt (tag c!"mod") (tag c!"%")) space1)) (value bits))

/-- parser.rs:60-64. -/
def expression : PS Expression :=
  map (pair operand (modExpression bits)) fun x => { operand := x.1, modulus := x.2 }

/-- parser.rs:66-91. -/
def relationOperator : PS Operator :=
  alt (map (tag c!"=") fun _ => .EQ) <|
  alt (map (tag c!"!=") fun _ => .NotEQ) <|
  alt (map (pair (tag c!"is") (pair space1 (opt (tag c!"not")))) fun x =>
    if x.2.2.isSome then .IsNot else .Is) <|
  alt (map (tag c!"in") fun _ => .In) <|
  alt (map (pair (tag c!"not") (pair space1
        (alt (map (tag c!"in") fun _ => .NotIn) (map (tag c!"within") fun _ => .NotWithin)))) fun x => x.2.2) <|
  map (tag c!"within") fun _ => .Within

/-- parser.rs:93-102. -/
def relation : PS Relation :=
  map (pair (expression bits) (pair space0 (pair relationOperator (pair space0 (rangeList bits))))) fun x =>
    { expression := x.1, operator := x.2.2.1, rangeList := x.2.2.2.2 }

/-- parser.rs:104-109. -/
def andCondition : PS AndCondition :=
  separatedNonemptyList (pair space1 (pair (tag c!"and") space1)) (relation bits)

/-- parser.rs:111-116. -/
def decimalValue : PS DecimalValue :=
  map (pair (value bits) (opt (preceded (tag c!".") (value bits)))) fun x => { integer := x.1, decimal := x.2 }

/-- parser.rs:118-129. -/
def sampleRange : PS SampleRange :=
  map (pair (decimalValue bits) (opt (preceded (pair space0 (pair (tag c!"~") space0)) (decimalValue bits)))) fun x =>
    { lower := x.1, upper := x.2 }

/-- parser.rs:131-145. -/
def sampleList : PS SampleList :=
  map (pair (separatedNonemptyList commaSep (sampleRange bits))
        (opt (preceded commaSep (alt (tag c!"...") (tag c!"…"))))) fun x =>
    { ranges := x.1, ellipsis := x.2.isSome }

/-- parser.rs:147-167. -/
def samples : PS (Option Samples) :=
  map (pair (opt (preceded (pair space1 (pair (tag c!"@integer") space1)) (sampleList bits)))
            (opt (preceded (pair space1 (pair (tag c!"@decimal") space1)) (sampleList bits)))) fun x =>
    if x.1.isSome || x.2.isSome then some { integer := x.1, decimal := x.2 } else none

/-- parser.rs:175-188; `trim` is called twice, and `starts_with` compares one character. -/
def parseCondition : PS Condition := fun i =>
  if (trim i).isEmpty then (i.length + 1, some ([], []))
  else if c!"@".isPrefixOf (trim i) then (2 * (i.length + 1) + 1, some ([], []))
  else
    let r := separatedNonemptyList (pair space1 (pair (tag c!"or") space1)) (andCondition bits) i
    (2 * (i.length + 1) + 1 + r.1, r.2)

/-- parser.rs:169-173. -/
def parseRule : PS Rule :=
  map (pair (parseCondition bits) (samples bits)) fun x => { condition := x.1, samples := x.2 }

end Steps
end Verif
