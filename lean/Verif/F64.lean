import Verif.Chars

/-!
# Floating point

A model of IEEE-754 binary floating point as far as the crates use it: `f64::from_str` (operands.rs:83), integer to
float casts (operands.rs:130,153), float to `u64` cast (operands.rs:106), comparison (`==`, `!=`, `<=`, `>` in
generated code) and, in `Verif.FloatDisplay`, `to_string` (operands.rs:173).  None of it is in /repo; it is the meaning
of the primitive type.

Every finite float of a format is an integer multiple of the smallest subnormal `2^-scale`; the model stores that
integer as the magnitude, so that rounding and comparison are arithmetic on `Nat`.
-/

namespace Verif

/-- A binary format: `prec` significant bits, smallest positive value `2^-scale`, infinite from `2^maxExp` on. -/
structure Fmt where
  prec : Nat
  scale : Nat
  maxExp : Nat
  deriving DecidableEq, Repr

/-- `f64`. -/
def b64 : Fmt := { prec := 53, scale := 1074, maxExp := 1024 }

/-- `f32`. -/
def b32 : Fmt := { prec := 24, scale := 149, maxExp := 128 }

/-- A float of a format `F`: `fin neg m` has the value `± m * 2^-F.scale`. -/
inductive Flt where
  | nan
  | inf (neg : Bool)
  | fin (neg : Bool) (mag : Nat)
  deriving DecidableEq, Repr

namespace Flt

/-- Division rounded to the nearest integer, ties to even. -/
def rneDiv (a b : Nat) : Nat :=
  let q := a / b
  let r := a % b
  if 2 * r < b then q
  else if b < 2 * r then q + 1
  else if q % 2 = 0 then q else q + 1

/-- The exponent of the last place of a magnitude `x`: 0 in the subnormal range and the lowest normal binade. -/
def ulpExp (F : Fmt) (x : Nat) : Nat := if x < 2 ^ F.prec then 0 else x.log2 + 1 - F.prec

/-- The magnitude nearest to the rational `p / q` (ties to even), before the overflow check. -/
def roundMag (F : Fmt) (p q : Nat) : Nat :=
  let x := p * 2 ^ F.scale
  let u := ulpExp F (x / q)
  rneDiv x (q * 2 ^ u) * 2 ^ u

/-- The float nearest to `± p / q`. -/
def ofRat (F : Fmt) (neg : Bool) (p q : Nat) : Flt :=
  let m := roundMag F p q
  if 2 ^ (F.maxExp + F.scale) ≤ m then inf neg else fin neg m

/-- An integer literal or cast: `k as f64`, or the literal `k.0`. -/
def ofNat (F : Fmt) (k : Nat) : Flt := ofRat F false k 1

/-- `==` on floats: NaN is not equal to itself and the two zeros are equal. -/
def eq : Flt → Flt → Bool
  | fin s a, fin t b => a == b && (s == t || a == 0)
  | inf s, inf t => s == t
  | _, _ => false

/-- Signed magnitude, for comparisons of finite floats. -/
def signed (neg : Bool) (m : Nat) : Int := if neg then -(m : Int) else m

/-- `<=` on floats; every comparison with NaN is false. -/
def le : Flt → Flt → Bool
  | nan, _ => false
  | _, nan => false
  | inf true, _ => true
  | _, inf false => true
  | inf false, _ => false
  | _, inf true => false
  | fin s a, fin t b => signed s a ≤ signed t b

/-- `<` on floats; every comparison with NaN is false. -/
def lt (x y : Flt) : Bool :=
  match x, y with
  | nan, _ => false
  | _, nan => false
  | _, _ => !(le y x)

/-- `x as u64`: truncation towards zero, saturating; NaN gives 0 (operands.rs:106). -/
def toU64 (F : Fmt) : Flt → Nat
  | nan => 0
  | inf neg => if neg then 0 else 2 ^ 64 - 1
  | fin neg m => if neg then 0 else min (m / 2 ^ F.scale) (2 ^ 64 - 1)

/-- Lower-casing of ASCII letters, for the case-insensitive `inf`, `infinity`, `nan`. -/
def lower (s : Str) : Str :=
  s.map fun c => if 'A'.toNat ≤ c.toNat && c.toNat ≤ 'Z'.toNat then Char.ofNat (c.toNat + 32) else c

/-- One or more digits, as a number. -/
def parseDigits (d : Str) : Option Nat := if d.isEmpty || !d.all isDigit then none else some (digitsVal d)

/-- The exponent part: nothing, or `e`/`E`, an optional sign and at least one digit, and nothing after it. -/
def parseExp : Str → Option Int
  | [] => some 0
  | c :: t =>
    if c = 'e' ∨ c = 'E' then
      match t with
      | [] => none
      | s :: d =>
        if s = '+' then (parseDigits d).map fun (e : Nat) => (e : Int)
        else if s = '-' then (parseDigits d).map fun (e : Nat) => -(e : Int)
        else (parseDigits (s :: d)).map fun (e : Nat) => (e : Int)
    else none

/-- The digits after a point, and what follows them; no digits if there is no point. -/
def fracPart : Str → Str × Str
  | [] => ([], [])
  | c :: t => if c = '.' then (t.takeWhile isDigit, t.dropWhile isDigit) else ([], c :: t)

/-- The unsigned number forms of `f64::from_str`: digits, an optional point and digits (at least one digit in all),
optional exponent.  Result: all digits as one number, and the decimal exponent.  std caps exponents at about 65536;
the model does not, and for such exponents both give 0 or infinity unless the digit string is as long. -/
def parseNumber (s : Str) : Option (Nat × Int) :=
  let ip := s.takeWhile isDigit
  let (fp, r) := fracPart (s.dropWhile isDigit)
  if ip.isEmpty && fp.isEmpty then none
  else match parseExp r with
    | none => none
    | some e => some (digitsVal (ip ++ fp), e - fp.length)

/-- The float nearest to `± m * 10^e`. -/
def ofDec (F : Fmt) (neg : Bool) (m : Nat) (e : Int) : Flt :=
  if 0 ≤ e then ofRat F neg (m * 10 ^ e.toNat) 1 else ofRat F neg m (10 ^ (-e).toNat)

/-- `f64::from_str` after the sign has been removed. -/
def parseUnsignedFloat (F : Fmt) (neg : Bool) (s : Str) : Option Flt :=
  match parseNumber s with
  | some (m, e) => some (ofDec F neg m e)
  | none =>
    if lower s == c!"nan" then some nan
    else if lower s == c!"inf" || lower s == c!"infinity" then some (inf neg)
    else none

/-- `f64::from_str` (the grammar documented since Rust 1.55); operands.rs:83. -/
def fromStr (F : Fmt) : Str → Option Flt
  | [] => none
  | c :: t =>
    if c = '-' then parseUnsignedFloat F true t
    else if c = '+' then parseUnsignedFloat F false t
    else parseUnsignedFloat F false (c :: t)

end Flt
end Verif
