import Verif.Grammar

/-!
# Specification: the syntax of plural rules in UTS #35, as published

https://unicode.org/reports/tr35/tr35-numbers.html#Plural_rules_syntax.  `Verif.Grammar` describes the texts that the parser reads;
this file is the published grammar, production by production, in which white space may stand between or around any tokens and is
never needed:

    condition       = and_condition ('or' and_condition)*
    samples         = ('@integer' sampleList)? ('@decimal' sampleList)?
    and_condition   = relation ('and' relation)*
    relation        = is_relation | in_relation | within_relation
    is_relation     = expr 'is' ('not')? value
    in_relation     = expr (('not')? 'in' | '=' | '!=') range_list
    within_relation = expr ('not')? 'within' range_list
    expr            = operand (('mod' | '%') value)?
    operand         = 'n' | 'i' | 'f' | 't' | 'v' | 'w'
    range_list      = (range | value) (',' range_list)*
    range           = value '..' value
    value           = digit+
    sampleList      = sampleRange (',' sampleRange)* (',' ('…' | '...'))?
    sampleRange     = decimalValue ('~' decimalValue)?
    decimalValue    = value ('.' value)?

A rule has a condition and samples; the condition of `other` is empty.  Every token takes the white space after it, and a rule the
white space before it.  What white space is, is a parameter.
-/

namespace Verif.UtsSyntax
open Verif Spec Uts35 Grammar

/-- `Pattern_White_Space` of Unicode, which UTS #35 names as the white space of these rules. -/
def patternWhite (c : Char) : Bool :=
  let n := c.toNat
  (9 ≤ n && n ≤ 13) || n == 0x20 || n == 0x85 || n == 0x200E || n == 0x200F || n == 0x2028 || n == 0x2029

/-- White space, any amount. -/
def White (s : Str) : Prop := ∀ c ∈ s, patternWhite c = true

variable (W : Str → Prop)

/-- A token. -/
def Token (w s : Str) : Prop := ∃ a, W a ∧ s = w ++ a

/-- `value` -/
def Value (s : Str) (k : Nat) : Prop := ∃ l, l ≠ [] ∧ Token W (digitText l) s ∧ k = digitsNum l

/-- `range | value` -/
inductive Item : Str → RangeListItem → Prop
  | value {s : Str} {k : Nat} : Value W s k → Item s (.value k)
  | range {s m t : Str} {a b : Nat} : Value W s a → Token W c!".." m → Value W t b → Item (s ++ (m ++ t)) (.range a b)

/-- `range_list` -/
def RangeList : Str → List RangeListItem → Prop := SepText (Token W c!",") (Item W) (Item W)

/-- `expr` -/
inductive Expr : Str → Expression → Prop
  | plain {o : Operand} {s : Str} : Token W [operandLetter o] s → Expr s ⟨o, none⟩
  | modulo {o : Operand} {s m t : Str} {k : Nat} : Token W [operandLetter o] s → Token W c!"mod" m ∨ Token W c!"%" m →
      Value W t k → Expr (s ++ (m ++ t)) ⟨o, some k⟩

/-- `'is' ('not')?` -/
inductive IsOp : Str → Operator → Prop
  | is {s : Str} : Token W c!"is" s → IsOp s .Is
  | isNot {s t : Str} : Token W c!"is" s → Token W c!"not" t → IsOp (s ++ t) .IsNot

/-- `('not')? 'in' | '=' | '!='` and `('not')? 'within'` -/
inductive ListOp : Str → Operator → Prop
  | eq {s : Str} : Token W c!"=" s → ListOp s .EQ
  | ne {s : Str} : Token W c!"!=" s → ListOp s .NotEQ
  | in {s : Str} : Token W c!"in" s → ListOp s .In
  | notIn {s t : Str} : Token W c!"not" s → Token W c!"in" t → ListOp (s ++ t) .NotIn
  | within {s : Str} : Token W c!"within" s → ListOp s .Within
  | notWithin {s t : Str} : Token W c!"not" s → Token W c!"within" t → ListOp (s ++ t) .NotWithin

/-- `relation` -/
inductive Rel : Str → Relation → Prop
  | is {s o t : Str} {e : Expression} {op : Operator} {k : Nat} : Expr W s e → IsOp W o op → Value W t k →
      Rel (s ++ (o ++ t)) ⟨e, op, [.value k]⟩
  | list {s o t : Str} {e : Expression} {op : Operator} {l : List RangeListItem} : Expr W s e → ListOp W o op → RangeList W t l →
      Rel (s ++ (o ++ t)) ⟨e, op, l⟩

/-- `and_condition` -/
def AndCond : Str → AndCondition → Prop := SepText (Token W c!"and") (Rel W) (Rel W)

/-- `condition` -/
def Cond : Str → Condition → Prop := SepText (Token W c!"or") (AndCond W) (AndCond W)

/-- `decimalValue` -/
inductive Decimal : Str → DecimalValue → Prop
  | int {s : Str} {a : Nat} : Value W s a → Decimal s ⟨a, none⟩
  | dec {l : List (Fin 10)} {t : Str} {b : Nat} : l ≠ [] → Value W t b → Decimal (digitText l ++ (c!"." ++ t)) ⟨digitsNum l, some b⟩

/-- `sampleRange` -/
inductive SRange : Str → SampleRange → Prop
  | one {s : Str} {a : DecimalValue} : Decimal W s a → SRange s ⟨a, none⟩
  | two {s m t : Str} {a b : DecimalValue} : Decimal W s a → Token W c!"~" m → Decimal W t b → SRange (s ++ (m ++ t)) ⟨a, some b⟩

/-- `sampleRange (',' sampleRange)*` -/
def SRanges : Str → List SampleRange → Prop := SepText (Token W c!",") (SRange W) (SRange W)

/-- `sampleList` -/
inductive SList : Str → SampleList → Prop
  | plain {s : Str} {l : List SampleRange} : SRanges W s l → SList s ⟨l, false⟩
  | more {s m e : Str} {l : List SampleRange} : SRanges W s l → Token W c!"," m → Token W c!"…" e ∨ Token W c!"..." e →
      SList (s ++ (m ++ e)) ⟨l, true⟩

/-- `samples` -/
inductive SamplesPart : Str → Option Samples → Prop
  | none : SamplesPart [] none
  | int {m s : Str} {l : SampleList} : Token W c!"@integer" m → SList W s l → SamplesPart (m ++ s) (some ⟨some l, none⟩)
  | dec {m s : Str} {l : SampleList} : Token W c!"@decimal" m → SList W s l → SamplesPart (m ++ s) (some ⟨none, some l⟩)
  | both {m s m' s' : Str} {l l' : SampleList} : Token W c!"@integer" m → SList W s l → Token W c!"@decimal" m' → SList W s' l' →
      SamplesPart (m ++ (s ++ (m' ++ s'))) (some ⟨some l, some l'⟩)

/-- A rule, without its keyword. -/
inductive RuleOf : Str → Rule → Prop
  | cond {a s t : Str} {c : Condition} {x : Option Samples} : W a → Cond W s c → SamplesPart W t x → RuleOf (a ++ (s ++ t)) ⟨c, x⟩
  | other {a t : Str} {x : Option Samples} : W a → SamplesPart W t x → RuleOf (a ++ t) ⟨[], x⟩

/-- A rule as UTS #35 writes it. -/
def UtsRule : Str → Rule → Prop := RuleOf White

/-- The text without its white space. -/
def strip (s : Str) : Str := s.filter fun c => !patternWhite c

end Verif.UtsSyntax
