import Verif.Operands
import Verif.Ast

/-!
# The fragment of Rust that generated code consists of

`make_pluralrules` writes Rust source text and `rustc` gives it its meaning.  This file models that meaning for the
fragment the generator can emit (and that intl_pluralrules/src/rules.rs consists of): tokens, the expression grammar with
Rust's operator precedence, types, and evaluation.  Nothing in this file is in /repo, it is the Rust language; the only
types from /repo are `PluralOperands` and `PluralCategory`.
-/

namespace Verif

/-- intl_pluralrules/src/lib.rs:43-50 and make_pluralrules/src/parser/plural_category.rs:5-12 (`PluralCategory`). -/
inductive PluralCategory where
  | ZERO | ONE | TWO | FEW | MANY | OTHER
  deriving DecidableEq, Repr

/-- A Rust token: identifier or keyword, number literal with its suffix, string literal, or symbol.  Multi-character
symbols are one token; brackets are ordinary symbols. -/
inductive Tok where
  | id (s : Str)
  | lit (n : Nat) (suffix : Str)
  | str (s : Str)
  | sym (s : Str)
  deriving DecidableEq, Repr

namespace Rust

/-- Comparison operators that occur in generated code (make_pluralrules/src/parser/gen_pr.rs:42-45). -/
inductive CmpOp where
  | eq | ne | le | gt
  deriving DecidableEq, Repr

/-- Rust expressions of the fragment.  Parentheses are not kept. -/
inductive RExpr where
  /-- integer literal `k` -/
  | int (k : Nat)
  /-- float literal `k.0` -/
  | flt (k : Nat)
  /-- `po.x` -/
  | field (x : Operand)
  /-- `a % b` -/
  | rem (a b : RExpr)
  /-- `a == b` and so on -/
  | cmp (op : CmpOp) (a b : RExpr)
  /-- `!a` -/
  | not (a : RExpr)
  /-- `a && b` -/
  | and (a b : RExpr)
  /-- `a || b` -/
  | or (a b : RExpr)
  /-- `(lo..=hi).contains(&a)` -/
  | contains (lo hi : Nat) (a : RExpr)
  deriving DecidableEq, Repr

/-! ## Types -/

/-- Types of the fragment; `intLit` is the not yet inferred type of an integer literal. -/
inductive Ty where
  | bool | u64 | usize | intLit | f64
  deriving DecidableEq, Repr

/-- Integer types that an operation on both sides can share. -/
def unifyInt : Ty → Ty → Option Ty
  | .u64, .u64 => some .u64
  | .u64, .intLit => some .u64
  | .intLit, .u64 => some .u64
  | .usize, .usize => some .usize
  | .usize, .intLit => some .usize
  | .intLit, .usize => some .usize
  | .intLit, .intLit => some .intLit
  | _, _ => none

/-- The types of the fields of `PluralOperands`, intl_pluralrules/src/operands.rs:60-70. -/
def fieldTy : Operand → Ty
  | .N => .f64
  | .V => .usize
  | .W => .usize
  | .I => .u64
  | .F => .u64
  | .T => .u64

/-- The type of an expression, if it has one. -/
def RExpr.ty : RExpr → Option Ty
  | .int _ => some .intLit
  | .flt _ => some .f64
  | .field x => some (fieldTy x)
  | .rem a b =>
    match a.ty, b.ty with
    | some s, some t => unifyInt s t
    | _, _ => none
  | .cmp _ a b =>
    match a.ty, b.ty with
    | some .f64, some .f64 => some .bool
    | some s, some t => (unifyInt s t).map fun _ => .bool
    | _, _ => none
  | .not a => if a.ty = some .bool then some .bool else none
  | .and a b => if a.ty = some .bool ∧ b.ty = some .bool then some .bool else none
  | .or a b => if a.ty = some .bool ∧ b.ty = some .bool then some .bool else none
  | .contains _ _ a =>
    match a.ty with
    | some t => (unifyInt .intLit t).map fun _ => .bool
    | none => none

/-! ## Evaluation -/

/-- Values: integers of all widths are natural numbers (the fragment has only `%` and comparisons, which cannot
overflow). -/
inductive Val where
  | bool (b : Bool)
  | int (n : Nat)
  | f64 (x : Flt)
  deriving DecidableEq, Repr

/-- Reading a field of `po`. -/
def readField (po : PluralOperands) : Operand → Val
  | .N => .f64 po.n
  | .I => .int po.i
  | .V => .int po.v
  | .W => .int po.w
  | .F => .int po.f
  | .T => .int po.t

/-- Integer comparison. -/
def cmpInt : CmpOp → Nat → Nat → Bool
  | .eq, a, b => a == b
  | .ne, a, b => a != b
  | .le, a, b => a ≤ b
  | .gt, a, b => b < a

/-- Float comparison; `!=` is the negation of `==`, so it is true for NaN. -/
def cmpFlt : CmpOp → Flt → Flt → Bool
  | .eq, a, b => Flt.eq a b
  | .ne, a, b => !Flt.eq a b
  | .le, a, b => Flt.le a b
  | .gt, a, b => Flt.lt b a

/-- Evaluation.  `none` is a panic (remainder by zero), or an expression that does not type-check; `&&` and `||` do not
evaluate their right side when the left decides. -/
def RExpr.eval (po : PluralOperands) : RExpr → Option Val
  | .int k => some (.int k)
  | .flt k => some (.f64 (Flt.ofNat b64 k))
  | .field x => some (readField po x)
  | .rem a b =>
    match a.eval po, b.eval po with
    | some (.int x), some (.int y) => if y = 0 then none else some (.int (x % y))
    | _, _ => none
  | .cmp op a b =>
    match a.eval po, b.eval po with
    | some (.int x), some (.int y) => some (.bool (cmpInt op x y))
    | some (.f64 x), some (.f64 y) => some (.bool (cmpFlt op x y))
    | _, _ => none
  | .not a =>
    match a.eval po with
    | some (.bool x) => some (.bool (!x))
    | _ => none
  | .and a b =>
    match a.eval po with
    | some (.bool false) => some (.bool false)
    | some (.bool true) =>
      match b.eval po with
      | some (.bool y) => some (.bool y)
      | _ => none
    | _ => none
  | .or a b =>
    match a.eval po with
    | some (.bool true) => some (.bool true)
    | some (.bool false) =>
      match b.eval po with
      | some (.bool y) => some (.bool y)
      | _ => none
    | _ => none
  | .contains lo hi a =>
    match a.eval po with
    | some (.int x) => some (.bool (lo ≤ x && x ≤ hi))
    | _ => none

/-- A generated closure body: an `if … else if … else …` chain of categories (make_pluralrules/src/parser/gen_rs.rs:120-135,
and every closure of intl_pluralrules/src/rules.rs). -/
structure Closure where
  arms : List (RExpr × PluralCategory)
  last : PluralCategory
  deriving DecidableEq, Repr

/-- Running the chain; `none` is a panic. -/
def evalArms (po : PluralOperands) : List (RExpr × PluralCategory) → PluralCategory → Option PluralCategory
  | [], c => some c
  | (e, c) :: rest, d =>
    match e.eval po with
    | some (.bool true) => some c
    | some (.bool false) => evalArms po rest d
    | _ => none

/-- Calling the closure: `pr(&ops)`, intl_pluralrules/src/lib.rs:147. -/
def Closure.call (f : Closure) (po : PluralOperands) : Option PluralCategory := evalArms po f.arms f.last

/-- Every condition of the closure is a boolean expression. -/
def Closure.wellTyped (f : Closure) : Bool := f.arms.all fun a => a.1.ty = some .bool

/-! ## Grammar: precedence of `||` < `&&` < comparison < `%` < unary `!` < method call -/

def symOr : Tok := .sym c!"||"
def symAnd : Tok := .sym c!"&&"
def symRem : Tok := .sym c!"%"
def symNot : Tok := .sym c!"!"
def symAmp : Tok := .sym c!"&"
def symDot : Tok := .sym c!"."
def symRange : Tok := .sym c!"..="
def symOpen : Tok := .sym c!"("
def symClose : Tok := .sym c!")"
def symLBrace : Tok := .sym c!"{"
def symRBrace : Tok := .sym c!"}"
def symPath : Tok := .sym c!"::"

/-- Comparison operators. -/
def cmpOf (t : Tok) : Option CmpOp :=
  if t = .sym c!"==" then some .eq
  else if t = .sym c!"!=" then some .ne
  else if t = .sym c!"<=" then some .le
  else if t = .sym c!">" then some .gt
  else none

/-- Field names of `PluralOperands`. -/
def operandOfIdent (s : Str) : Option Operand :=
  if s = c!"n" then some .N
  else if s = c!"i" then some .I
  else if s = c!"v" then some .V
  else if s = c!"w" then some .W
  else if s = c!"f" then some .F
  else if s = c!"t" then some .T
  else none

/-- The tokens `( lo ..= hi ) . contains ( &`, and what follows them. -/
def rangeHead : List Tok → Option (Nat × Nat × List Tok)
  | .sym o :: .lit lo [] :: .sym rg :: .lit hi [] :: .sym c :: .sym d :: .id m :: .sym o2 :: .sym amp :: r =>
    if o = c!"(" ∧ rg = c!"..=" ∧ c = c!")" ∧ d = c!"." ∧ m = c!"contains" ∧ o2 = c!"(" ∧ amp = c!"&" then
      some (lo, hi, r)
    else none
  | _ => none

mutual
/-- `or := and ("||" and)*` -/
def pOr : Nat → List Tok → Option (RExpr × List Tok)
  | 0, _ => none
  | k + 1, ts =>
    match pAnd k ts with
    | none => none
    | some (a, r) => pOrTail k a r
/-- The loop of `or`, associating to the left. -/
def pOrTail : Nat → RExpr → List Tok → Option (RExpr × List Tok)
  | 0, _, _ => none
  | _ + 1, a, [] => some (a, [])
  | k + 1, a, t :: r =>
    if t = symOr then
      match pAnd k r with
      | none => none
      | some (b, r') => pOrTail k (.or a b) r'
    else some (a, t :: r)
/-- `and := cmp ("&&" cmp)*` -/
def pAnd : Nat → List Tok → Option (RExpr × List Tok)
  | 0, _ => none
  | k + 1, ts =>
    match pCmp k ts with
    | none => none
    | some (a, r) => pAndTail k a r
/-- The loop of `and`, associating to the left. -/
def pAndTail : Nat → RExpr → List Tok → Option (RExpr × List Tok)
  | 0, _, _ => none
  | _ + 1, a, [] => some (a, [])
  | k + 1, a, t :: r =>
    if t = symAnd then
      match pCmp k r with
      | none => none
      | some (b, r') => pAndTail k (.and a b) r'
    else some (a, t :: r)
/-- `cmp := rem (op rem)?`; comparisons do not chain in Rust. -/
def pCmp : Nat → List Tok → Option (RExpr × List Tok)
  | 0, _ => none
  | k + 1, ts =>
    match pRem k ts with
    | none => none
    | some (a, []) => some (a, [])
    | some (a, t :: r) =>
      match cmpOf t with
      | none => some (a, t :: r)
      | some op =>
        match pRem k r with
        | none => none
        | some (b, r') => some (.cmp op a b, r')
/-- `rem := unary ("%" unary)*` -/
def pRem : Nat → List Tok → Option (RExpr × List Tok)
  | 0, _ => none
  | k + 1, ts =>
    match pUnary k ts with
    | none => none
    | some (a, r) => pRemTail k a r
/-- The loop of `rem`, associating to the left. -/
def pRemTail : Nat → RExpr → List Tok → Option (RExpr × List Tok)
  | 0, _, _ => none
  | _ + 1, a, [] => some (a, [])
  | k + 1, a, t :: r =>
    if t = symRem then
      match pUnary k r with
      | none => none
      | some (b, r') => pRemTail k (.rem a b) r'
    else some (a, t :: r)
/-- `unary := "!" unary | primary` -/
def pUnary : Nat → List Tok → Option (RExpr × List Tok)
  | 0, _ => none
  | _ + 1, [] => none
  | k + 1, t :: r =>
    if t = symNot then
      match pUnary k r with
      | none => none
      | some (a, r') => some (.not a, r')
    else pPrimary k (t :: r)
/-- `primary := po.x | k.0 | k | (lo ..= hi).contains(& unary) | ( or )`.  A literal, a point and the literal `0` are
read as one float literal: the generator writes them as three tokens (gen_pr.rs:93,118), and `rustfmt`, which
make_pluralrules/src/main.rs:31-36 runs on the output, joins them. -/
def pPrimary : Nat → List Tok → Option (RExpr × List Tok)
  | 0, _ => none
  | k + 1, ts =>
    match rangeHead ts with
    | some (lo, hi, r) =>
      match pUnary k r with
      | some (a, .sym c :: r') => if c = c!")" then some (.contains lo hi a, r') else none
      | _ => none
    | none =>
      match ts with
      | .id a :: .sym d :: .id x :: r =>
        if a = c!"po" ∧ d = c!"." then (operandOfIdent x).map fun o => (.field o, r) else none
      | .lit n [] :: r =>
        match r with
        | .sym d :: .lit z [] :: r' => if d = c!"." ∧ z = 0 then some (.flt n, r') else some (.int n, r)
        | _ => some (.int n, r)
      | .sym o :: r =>
        if o = c!"(" then
          match pOr k r with
          | some (a, .sym c :: r') => if c = c!")" then some (a, r') else none
          | _ => none
        else none
      | _ => none
end

/-- Fuel that is enough for any token list (each token is entered through at most eight levels). -/
def fuelFor (ts : List Tok) : Nat := 10 * ts.length + 20

/-- A whole token list as an expression. -/
def parseExpr (ts : List Tok) : Option RExpr :=
  match pOr (fuelFor ts) ts with
  | some (e, []) => some e
  | _ => none

/-- Category names. -/
def categoryOfIdent (s : Str) : Option PluralCategory :=
  if s = c!"ZERO" then some .ZERO
  else if s = c!"ONE" then some .ONE
  else if s = c!"TWO" then some .TWO
  else if s = c!"FEW" then some .FEW
  else if s = c!"MANY" then some .MANY
  else if s = c!"OTHER" then some .OTHER
  else none

/-- `{ PluralCategory::X }` -/
def pBlock (ts : List Tok) : Option (PluralCategory × List Tok) :=
  match ts with
  | .sym o :: .id p :: .sym d :: .id x :: .sym c :: r =>
    if o = c!"{" ∧ p = c!"PluralCategory" ∧ d = c!"::" ∧ c = c!"}" then
      match categoryOfIdent x with
      | some k => some (k, r)
      | none => none
    else none
  | _ => none

/-- `if e { c } else if e { c } … else { c }`, after the first `if`. -/
def pChain : Nat → List Tok → List (RExpr × PluralCategory) → Option Closure
  | 0, _, _ => none
  | k + 1, ts, acc =>
    match pOr (fuelFor ts) ts with
    | none => none
    | some (e, r) =>
      match pBlock r with
      | none => none
      | some (c, .id el :: .id i :: r') =>
        if el = c!"else" ∧ i = c!"if" then pChain k r' ((e, c) :: acc) else none
      | some (c, .id el :: r') =>
        if el = c!"else" then
          match pBlock r' with
          | some (d, []) => some { arms := ((e, c) :: acc).reverse, last := d }
          | _ => none
        else none
      | _ => none

/-- The body of a closure: a chain, or a block with just a category, or just a category. -/
def parseBody (ts : List Tok) : Option Closure :=
  match ts with
  | .id i :: r =>
    if i = c!"if" then pChain ts.length r []
    else match pBlock (symLBrace :: ts ++ [symRBrace]) with
      | some (c, []) => some { arms := [], last := c }
      | _ => none
  | _ =>
    match pBlock ts with
    | some (c, []) => some { arms := [], last := c }
    | _ => none

/-! ## Lexing of source text -/

/-- Letters, digits and underscore. -/
def isIdent (c : Char) : Bool :=
  ('a'.toNat ≤ c.toNat && c.toNat ≤ 'z'.toNat) || ('A'.toNat ≤ c.toNat && c.toNat ≤ 'Z'.toNat) || isDigit c || c == '_'

/-- The symbols of more than one character that occur in generated code. -/
def longSymbols : List Str := [c!"..=", c!"==", c!"!=", c!"<=", c!"&&", c!"||", c!"::", c!"->", c!"=>"]

/-- The next token of source text that does not start with white space.  Strings have no escapes in generated code. -/
def lexOne (s : Str) : Option (Tok × Str) :=
  match s with
  | [] => none
  | c :: t =>
    if isDigit c then
      let w := s.takeWhile isIdent
      some (.lit (digitsVal (w.takeWhile isDigit)) (w.dropWhile isDigit), s.dropWhile isIdent)
    else if isIdent c then some (.id (s.takeWhile isIdent), s.dropWhile isIdent)
    else if c = '"' then some (.str (t.takeWhile (· ≠ '"')), (t.dropWhile (· ≠ '"')).drop 1)
    else
      match longSymbols.find? (·.isPrefixOf s) with
      | some sym => some (.sym sym, s.drop sym.length)
      | none => some (.sym [c], t)

/-- Source text to tokens; white space separates.  The first argument only bounds the recursion. -/
def lexGo : Str → Str → List Tok → List Tok
  | [], _, acc => acc.reverse
  | _ :: k, s, acc =>
    match lexOne (s.dropWhile isWhitespace) with
    | none => acc.reverse
    | some (t, r) => lexGo k r (t :: acc)

/-- Source text to tokens. -/
def lex (s : Str) : List Tok := lexGo s s []

end Rust
end Verif
