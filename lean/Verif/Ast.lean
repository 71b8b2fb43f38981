import Verif.Chars

/-!
# The AST of `cldr_pluralrules_parser`

One declaration per type of cldr_pluralrules_parser/src/ast.rs.  `Value(usize)` and `Modulo(Value)` are newtypes there
and plain numbers here; that they are below 2^64 is a theorem about the parser, not part of the type.
-/

namespace Verif

/-- cldr_pluralrules_parser/src/ast.rs:253-260 (`Operand`). -/
inductive Operand where
  | N | I | V | W | F | T
  deriving DecidableEq, Repr

/-- cldr_pluralrules_parser/src/ast.rs:177-186 (`Operator`). -/
inductive Operator where
  | In | NotIn | Within | NotWithin | Is | IsNot | EQ | NotEQ
  deriving DecidableEq, Repr

/-- cldr_pluralrules_parser/src/ast.rs:291-294,317-320 (`RangeListItem`, `Range`, `Value`). -/
inductive RangeListItem where
  | range (lower upper : Nat)
  | value (v : Nat)
  deriving DecidableEq, Repr

/-- cldr_pluralrules_parser/src/ast.rs:210-213,233 (`Expression`, `Modulo`). -/
structure Expression where
  operand : Operand
  modulus : Option Nat
  deriving DecidableEq, Repr

/-- cldr_pluralrules_parser/src/ast.rs:155-159 (`Relation`; `RangeList` at 284 is the list). -/
structure Relation where
  expression : Expression
  operator : Operator
  rangeList : List RangeListItem
  deriving DecidableEq, Repr

/-- cldr_pluralrules_parser/src/ast.rs:127 (`AndCondition`). -/
abbrev AndCondition := List Relation

/-- cldr_pluralrules_parser/src/ast.rs:89 (`Condition`). -/
abbrev Condition := List AndCondition

/-- cldr_pluralrules_parser/src/ast.rs:26-29 (`DecimalValue`). -/
structure DecimalValue where
  integer : Nat
  decimal : Option Nat
  deriving DecidableEq, Repr

/-- cldr_pluralrules_parser/src/ast.rs:20-23 (`SampleRange`). -/
structure SampleRange where
  lower : DecimalValue
  upper : Option DecimalValue
  deriving DecidableEq, Repr

/-- cldr_pluralrules_parser/src/ast.rs:14-17 (`SampleList`). -/
structure SampleList where
  ranges : List SampleRange
  ellipsis : Bool
  deriving DecidableEq, Repr

/-- cldr_pluralrules_parser/src/ast.rs:8-11 (`Samples`). -/
structure Samples where
  integer : Option SampleList
  decimal : Option SampleList
  deriving DecidableEq, Repr

/-- cldr_pluralrules_parser/src/ast.rs:2-5 (`Rule`). -/
structure Rule where
  condition : Condition
  samples : Option Samples
  deriving DecidableEq, Repr

end Verif
