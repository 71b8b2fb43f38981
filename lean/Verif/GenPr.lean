import Verif.Rust

/-!
# `make_pluralrules/src/parser/gen_pr.rs`, function by function

A `TokenStream` is a list of tokens (interpolating a `TokenStream` with `quote!` adds its tokens without any grouping),
and a panic is `none`.
-/

namespace Verif.GenPr
open Verif Rust

/-- gen_pr.rs:12-14. -/
def convertLiteral (num : Nat) : Tok := .lit num []

/-- gen_pr.rs:17-22. -/
def convertRange (low up : Nat) : Tok × Tok := (convertLiteral low, convertLiteral up)

/-- gen_pr.rs:25-37: the values and the ranges of the list, each in order. -/
def convertRangl : List RangeListItem → List Tok × List (Tok × Tok)
  | [] => ([], [])
  | .value x :: rest => (convertLiteral x :: (convertRangl rest).1, (convertRangl rest).2)
  | .range lo up :: rest => ((convertRangl rest).1, convertRange lo up :: (convertRangl rest).2)

/-- gen_pr.rs:40-47. -/
def getOperatorSymbol : Operator → Tok
  | .In => .sym c!"=="
  | .Is => .sym c!"=="
  | .EQ => .sym c!"=="
  | .NotIn => .sym c!"!="
  | .IsNot => .sym c!"!="
  | .NotEQ => .sym c!"!="
  | .Within => .sym c!"<="
  | .NotWithin => .sym c!">"

/-- gen_pr.rs:58-66: the field name as an identifier. -/
def operandIdent : Operand → Str
  | .N => c!"n"
  | .I => c!"i"
  | .V => c!"v"
  | .T => c!"t"
  | .W => c!"w"
  | .F => c!"f"

/-- `quote!(po.#l)` -/
def qField (o : Operand) : List Tok := [.id c!"po", symDot, .id (operandIdent o)]

/-- `quote!(po.#l % #m)` -/
def qFieldMod (o : Operand) (m : Tok) : List Tok := qField o ++ [symRem, m]

/-- `quote!(#r.0)` -/
def qFloat (r : Tok) : List Tok := [r, symDot, .lit 0 []]

/-- `#(#xs) sep *` of `quote!`: the streams with `sep` between them. -/
def sepBy (sep : Tok) : List (List Tok) → List Tok
  | [] => []
  | [x] => x
  | x :: y :: rest => x ++ sep :: sepBy sep (y :: rest)

/-- gen_pr.rs:86: the test for the within operators. -/
def isWithin (o : Operator) : Bool := o == .Within || o == .NotWithin

/-- gen_pr.rs:175-185, the two groups of operators. -/
def isPositive (o : Operator) : Bool := o == .In || o == .Is || o == .EQ

/-- gen_pr.rs:86-110: the stream for a within relation; `none` is the panic of the index `[0]` at :87 when the list has
no range. -/
def withinTokens (left : Expression) (operator : Operator) (ranges : List (Tok × Tok)) : Option (List Tok) :=
  let o := getOperatorSymbol operator
  match ranges with
  | [] => none
  | (rfront, rback) :: _ =>
    let (front, back, symbol) :=
      if left.operand = .N then
        match left.modulus with
        | none => (qFloat rfront, qFloat rback, qField left.operand)
        | some m => ([rfront], [rback], qFieldMod .I (convertLiteral m))
      else
        ([rfront], [rback],
          match left.modulus with
          | none => qField left.operand
          | some m => qFieldMod .I (convertLiteral m))
    some (front ++ o :: symbol ++ symAnd :: symbol ++ o :: back)

/-- gen_pr.rs:114-135: the stream for one value of the list. -/
def valueTokens (left : Expression) (operator : Operator) (r : Tok) : List Tok :=
  let o := getOperatorSymbol operator
  let (symbol, rval) :=
    if left.operand = .N then
      match left.modulus with
      | none => (qField left.operand, qFloat r)
      | some m => (qFieldMod .I (convertLiteral m), [r])
    else
      (match left.modulus with
        | none => qField left.operand
        | some m => qFieldMod left.operand (convertLiteral m), [r])
  symbol ++ o :: rval

/-- `(#rfront ..= #rback).contains(&(#symbol))` -/
def qContains (rfront rback : Tok) (symbol : List Tok) : List Tok :=
  symOpen :: rfront :: symRange :: rback :: symClose :: symDot :: .id c!"contains" :: symOpen :: symAmp :: symOpen ::
    symbol ++ [symClose, symClose]

/-- `&& po.f == 0` -/
def qPerim : List Tok := symAnd :: qField .F ++ [.sym c!"==", .lit 0 []]

/-- gen_pr.rs:137-171: the stream for one range of the list.  Note :146: with a modulus on `n` the symbol is `po.i`
without the modulus.  The `panic!` at :167 is for the within operators, which do not get here. -/
def rangeTokens (left : Expression) (operator : Operator) (r : Tok × Tok) : List Tok :=
  let (symbol, perim) :=
    if left.operand = .N then
      match left.modulus with
      | none => (qField .I, qPerim)
      | some _ => (qField .I, [])
    else
      (match left.modulus with
        | none => qField left.operand
        | some m => qFieldMod left.operand (convertLiteral m), [])
  if isPositive operator then qContains r.1 r.2 symbol ++ perim
  else symNot :: qContains r.1 r.2 symbol ++ perim

/-- gen_pr.rs:50-186 (`create_relation`). -/
def createRelation (rel : Relation) : Option (List Tok) :=
  let r1 := convertRangl rel.rangeList
  if isWithin rel.operator then
    -- the one stream of `relations`, joined with `||` at :184
    (withinTokens rel.expression rel.operator r1.2).map fun t => sepBy symOr [t]
  else
    let relations := r1.1.map (valueTokens rel.expression rel.operator) ++
      r1.2.map (rangeTokens rel.expression rel.operator)
    if isPositive rel.operator then
      if relations.length > 1 then some (symOpen :: sepBy symOr relations ++ [symClose])
      else some (sepBy symOr relations)
    else some (sepBy symAnd relations)

/-- All relations in order; a panic in one is a panic of the whole. -/
def mapPanic (f : α → Option β) : List α → Option (List β)
  | [] => some []
  | a :: rest =>
    match f a with
    | none => none
    | some b =>
      match mapPanic f rest with
      | none => none
      | some bs => some (b :: bs)

/-- gen_pr.rs:189-199 (`create_and_condition`). -/
def createAndCondition (acond : AndCondition) : Option (List Tok) :=
  (mapPanic createRelation acond).map fun v => symOpen :: sepBy symAnd v ++ [symClose]

/-- gen_pr.rs:202-212 (`create_condition`). -/
def createCondition (cond : Condition) : Option (List Tok) :=
  (mapPanic createAndCondition cond).map (sepBy symOr)

/-- gen_pr.rs:215-218. -/
def genPr (cond : Condition) : Option (List Tok) := createCondition cond

end Verif.GenPr
