import Verif.Operands

/-!
# `#[derive(PartialEq)]` of `PluralOperands`
-/

namespace Verif.PluralOperands

/-- operands.rs:57 (`#[derive(PartialEq)]`): all fields are equal, `n` as floats are.  Rust compares in this order and stops at the first
difference, which cannot be seen. -/
def peq (a b : PluralOperands) : Bool :=
  Flt.eq a.n b.n && a.i == b.i && a.v == b.v && a.w == b.w && a.f == b.f && a.t == b.t

end Verif.PluralOperands
