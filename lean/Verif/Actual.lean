import Verif.Uts35

/-!
# Specification: what the generated code really tests

UTS #35 is in `Verif.Uts35`.  Here is what the code of a rule tests instead, as statements about the number, for every relation.
The differences from UTS #35 are all in relations on `n`, and in `within`:

* `n % m` is `i % m`: the fraction is not looked at;
* `n` or `n % m` in a range is `i` in the range: the modulus is lost, and without modulus the fraction must be 0, for the negated
  relation as well;
* of a `within` only the first range counts, with a modulus it is about `i`, and `not within` asks the impossible.
-/

namespace Verif.Actual
open Verif Uts35

/-- The integer that the code looks at: `i` in the place of `n`. -/
def look (d : Dec) (e : Expression) : Nat :=
  let x := match e.operand with
    | .N => d.i
    | .I => d.i
    | .V => d.v
    | .W => d.w
    | .F => d.f
    | .T => d.t
  match e.modulus with
  | none => x
  | some m => x % m

/-- One item of a positive relation. -/
def Accepts (d : Dec) (e : Expression) : RangeListItem → Prop
  | .value k => look d e = k ∧ (e.operand = .N ∧ e.modulus = none → d.f = 0)
  | .range lo hi =>
    if e.operand = .N then lo ≤ d.i ∧ d.i ≤ hi ∧ (e.modulus = none → d.f = 0)
    else lo ≤ look d e ∧ look d e ≤ hi

/-- One item of a negated relation. -/
def Rejects (d : Dec) (e : Expression) : RangeListItem → Prop
  | .value k => ¬ (look d e = k ∧ (e.operand = .N ∧ e.modulus = none → d.f = 0))
  | .range lo hi =>
    if e.operand = .N then ¬ (lo ≤ d.i ∧ d.i ≤ hi) ∧ (e.modulus = none → d.f = 0)
    else ¬ (lo ≤ look d e ∧ look d e ≤ hi)

/-- What a `within` is about. -/
def withinSide (d : Dec) (e : Expression) : ℚ :=
  match e.modulus with
  | none => d.operand e.operand
  | some m => ((d.i % m : Nat) : ℚ)

/-- The first range of a list. -/
def FirstRange (l : List RangeListItem) (lo hi : Nat) : Prop :=
  ∃ values rest, l = values ++ .range lo hi :: rest ∧ ∀ a b, RangeListItem.range a b ∉ values

/-- The code of a relation is true on a number. -/
def RelationHolds (d : Dec) (r : Relation) : Prop :=
  match r.operator with
  | .In | .Is | .EQ => ∃ item ∈ r.rangeList, Accepts d r.expression item
  | .NotIn | .IsNot | .NotEQ => ∀ item ∈ r.rangeList, Rejects d r.expression item
  | .Within => ∃ lo hi, FirstRange r.rangeList lo hi ∧ lo ≤ withinSide d r.expression ∧ withinSide d r.expression ≤ hi
  | .NotWithin => ∃ lo hi, FirstRange r.rangeList lo hi ∧ withinSide d r.expression < lo ∧ hi < withinSide d r.expression

/-- The code of a condition is true on a number. -/
def Holds (d : Dec) (c : Condition) : Prop := ∃ a ∈ c, ∀ r ∈ a, RelationHolds d r

/-- The numbers that the code compares with `n` as floats are exact floats. -/
def Exact (r : Relation) : Prop :=
  r.expression.operand = .N → r.expression.modulus = none →
    match r.operator with
    | .Within | .NotWithin => ∀ lo hi, .range lo hi ∈ r.rangeList → lo < 2 ^ 53 ∧ hi < 2 ^ 53
    | _ => ∀ k, .value k ∈ r.rangeList → k < 2 ^ 53

end Verif.Actual
