import Verif.Rust

/-!
# Specification: the expression that the generated text is meant to denote

`Verif.GenPr` writes tokens.  Here is, for each relation, the list of tests that these tokens stand for, and for a condition the
or of the ands of the tests, as expressions and without any text.  C41 proves that the tokens, read with Rust's
precedence, are these expressions; C38–C40 compare their value with UTS #35.
-/

namespace Verif.Intended
open Verif Rust

/-- `po.x`, or `po.x % m`. -/
def leftSide (o : Operand) : Option Nat → RExpr
  | none => .field o
  | some m => .rem (.field o) (.int m)

/-- The test of one value: `n` is compared as a float, `n % m` through `i % m`, the others as integers. -/
def valueTest (e : Expression) (op : CmpOp) (k : Nat) : RExpr :=
  if e.operand = .N then
    match e.modulus with
    | none => .cmp op (.field .N) (.flt k)
    | some m => .cmp op (.rem (.field .I) (.int m)) (.int k)
  else .cmp op (leftSide e.operand e.modulus) (.int k)

/-- The tests of one range.  `n` is tested through `i`: without modulus together with `f == 0`; the modulus is lost. -/
def rangeTests (e : Expression) (positive : Bool) (lo hi : Nat) : List RExpr :=
  let test := fun x => if positive then RExpr.contains lo hi x else .not (.contains lo hi x)
  if e.operand = .N then
    match e.modulus with
    | none => [test (.field .I), .cmp .eq (.field .F) (.int 0)]
    | some _ => [test (.field .I)]
  else [test (leftSide e.operand e.modulus)]

def isValue : RangeListItem → Bool
  | .value _ => true
  | .range _ _ => false

/-- The items in the order in which they are tested: values first. -/
def ordered (l : List RangeListItem) : List RangeListItem := l.filter isValue ++ l.filter (fun x => !isValue x)

/-- The tests of one item, all of which must hold. -/
def itemTests (e : Expression) (positive : Bool) : RangeListItem → List RExpr
  | .value k => [valueTest e (if positive then .eq else .ne) k]
  | .range lo hi => rangeTests e positive lo hi

/-- `a && b && c`, associating to the left; none for no tests. -/
def allOf : List RExpr → Option RExpr
  | [] => none
  | a :: r => some (r.foldl .and a)

/-- `a || b || c`, associating to the left; none for no tests. -/
def anyOf : List RExpr → Option RExpr
  | [] => none
  | a :: r => some (r.foldl .or a)

/-- The two tests of a within relation: its first range, or none. -/
def withinTests (e : Expression) (op : CmpOp) : List RangeListItem → List RExpr
  | [] => []
  | .value _ :: r => withinTests e op r
  | .range lo hi :: _ =>
    match e.operand, e.modulus with
    | .N, none => [.cmp op (.flt lo) (.field .N), .cmp op (.field .N) (.flt hi)]
    | o, none => [.cmp op (.int lo) (.field o), .cmp op (.field o) (.int hi)]
    | _, some m => [.cmp op (.int lo) (.rem (.field .I) (.int m)), .cmp op (.rem (.field .I) (.int m)) (.int hi)]

/-- The tests of a relation, all of which must hold; no tests if there is no such expression. -/
def relationTests (r : Relation) : List RExpr :=
  match r.operator with
  | .Within => withinTests r.expression .le r.rangeList
  | .NotWithin => withinTests r.expression .gt r.rangeList
  | .In | .Is | .EQ =>
    match (ordered r.rangeList).map (itemTests r.expression true) with
    | [] => []
    | [tests] => tests
    | several => (anyOf (several.filterMap allOf)).toList
  | .NotIn | .IsNot | .NotEQ => ((ordered r.rangeList).map (itemTests r.expression false)).flatten

/-- All tests of all relations of an and-condition. -/
def andCondition (a : AndCondition) : Option RExpr := allOf (a.map relationTests).flatten

/-- One of the and-conditions. -/
def condition (c : Condition) : Option RExpr := anyOf (c.filterMap andCondition)

end Verif.Intended
