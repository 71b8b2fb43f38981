import Verif.Spec

/-!
# Specification: the text of plural rules

The plural-rule syntax of UTS #35 (https://unicode.org/reports/tr35/tr35-numbers.html#Plural_rules_syntax), as relations
between a text and what it denotes, with free spacing: blanks and tabs, at least one around `and` and `or` and after `mod`,
`is`, `not` and the sample markers.  Nothing here is code of /repo; of the modelled code only the syntax trees
(`Verif.Ast`) are used.  Numbers are below `2 ^ bits`.
-/

namespace Verif.Grammar
open Verif Spec Uts35

/-- Zero or more blanks and tabs. -/
def Spaces (s : Str) : Prop := ∀ c ∈ s, c = ' ' ∨ c = '\t'

/-- One or more blanks and tabs. -/
def Spaces1 (s : Str) : Prop := Spaces s ∧ s ≠ []

/-- Elements between separators: `E` for every element but the last, `L` for the last. -/
inductive SepText {α : Type} (Sep : Str → Prop) (E L : Str → α → Prop) : Str → List α → Prop
  | last {s : Str} {a : α} : L s a → SepText Sep E L s [a]
  | cons {s m t : Str} {a : α} {l : List α} : E s a → Sep m → SepText Sep E L t l → SepText Sep E L (s ++ (m ++ t)) (a :: l)

/-- A word between spaces. -/
def Word (w : Str) (s : Str) : Prop := ∃ a b, Spaces1 a ∧ Spaces1 b ∧ s = a ++ (w ++ b)

/-- A mark with optional spaces around it. -/
def Mark (w : Str) (s : Str) : Prop := ∃ a b, Spaces a ∧ Spaces b ∧ s = a ++ (w ++ b)

variable (bits : Nat)

/-- A number: one or more digits. -/
def ValueText (s : Str) (k : Nat) : Prop := ∃ l, l ≠ [] ∧ s = digitText l ∧ k = digitsNum l ∧ k < 2 ^ bits

/-- A number, or a range `a..b`. -/
inductive ItemText : Str → RangeListItem → Prop
  | value {s : Str} {k : Nat} : ValueText bits s k → ItemText s (.value k)
  | range {s t : Str} {a b : Nat} : ValueText bits s a → ValueText bits t b → ItemText (s ++ (c!".." ++ t)) (.range a b)

/-- Numbers and ranges, separated by commas. -/
def ListText : Str → List RangeListItem → Prop := SepText (Mark c!",") (ItemText bits) (ItemText bits)

/-- The letter of an operand. -/
def operandLetter : Operand → Char
  | .N => 'n' | .I => 'i' | .V => 'v' | .W => 'w' | .F => 'f' | .T => 't'

/-- An operand with an optional `mod 10` or `% 10`. -/
inductive ExprText : Str → Expression → Prop
  | plain (o : Operand) : ExprText [operandLetter o] ⟨o, none⟩
  | modulo (o : Operand) {a m b s : Str} {k : Nat} : Spaces a → m = c!"mod" ∨ m = c!"%" → Spaces1 b → ValueText bits s k →
      ExprText (operandLetter o :: (a ++ (m ++ (b ++ s)))) ⟨o, some k⟩

/-- An operator. -/
inductive OpText : Str → Operator → Prop
  | eq : OpText c!"=" .EQ
  | ne : OpText c!"!=" .NotEQ
  | is {a : Str} : Spaces1 a → OpText (c!"is" ++ a) .Is
  | isNot {a : Str} : Spaces1 a → OpText (c!"is" ++ (a ++ c!"not")) .IsNot
  | in : OpText c!"in" .In
  | notIn {a : Str} : Spaces1 a → OpText (c!"not" ++ (a ++ c!"in")) .NotIn
  | notWithin {a : Str} : Spaces1 a → OpText (c!"not" ++ (a ++ c!"within")) .NotWithin
  | within : OpText c!"within" .Within

/-- A relation. -/
inductive RelText : Str → Relation → Prop
  | mk {s a o b t : Str} {e : Expression} {op : Operator} {l : List RangeListItem} : ExprText bits s e → Spaces a → OpText o op →
      Spaces b → ListText bits t l → RelText (s ++ (a ++ (o ++ (b ++ t)))) ⟨e, op, l⟩

/-- A relation whose list is missing: not UTS #35, but accepted at the end of a condition. -/
inductive OpenText : Str → Relation → Prop
  | mk {s a o b : Str} {e : Expression} {op : Operator} : ExprText bits s e → Spaces a → OpText o op → Spaces b →
      OpenText (s ++ (a ++ (o ++ b))) ⟨e, op, []⟩

/-- Relations joined by `and`. -/
def AndText : Str → AndCondition → Prop := SepText (Word c!"and") (RelText bits) (RelText bits)

/-- And-conditions joined by `or`. -/
def CondText : Str → Condition → Prop := SepText (Word c!"or") (AndText bits) (AndText bits)

/-- The same, where the last relation has no list. -/
def OpenCondText : Str → Condition → Prop :=
  SepText (Word c!"or") (AndText bits) (SepText (Word c!"and") (RelText bits) (OpenText bits))

/-- A sample number, with or without fraction. -/
inductive DecimalText : Str → DecimalValue → Prop
  | int {s : Str} {a : Nat} : ValueText bits s a → DecimalText s ⟨a, none⟩
  | dec {s t : Str} {a b : Nat} : ValueText bits s a → ValueText bits t b → DecimalText (s ++ (c!"." ++ t)) ⟨a, some b⟩

/-- A sample number or a range `a~b` of them. -/
inductive SampleRangeText : Str → SampleRange → Prop
  | one {s : Str} {a : DecimalValue} : DecimalText bits s a → SampleRangeText s ⟨a, none⟩
  | two {s m t : Str} {a b : DecimalValue} : DecimalText bits s a → Mark c!"~" m → DecimalText bits t b →
      SampleRangeText (s ++ (m ++ t)) ⟨a, some b⟩

/-- Sample ranges separated by commas, with or without an ellipsis at the end. -/
inductive SampleListText : Str → SampleList → Prop
  | plain {s : Str} {l : List SampleRange} : SepText (Mark c!",") (SampleRangeText bits) (SampleRangeText bits) s l →
      SampleListText s ⟨l, false⟩
  | more {s m e : Str} {l : List SampleRange} : SepText (Mark c!",") (SampleRangeText bits) (SampleRangeText bits) s l →
      Mark c!"," m → e = c!"..." ∨ e = c!"…" → SampleListText (s ++ (m ++ e)) ⟨l, true⟩

/-- `@integer` samples, `@decimal` samples, or both in this order. -/
inductive SamplesText : Str → Samples → Prop
  | int {m s : Str} {l : SampleList} : Word c!"@integer" m → SampleListText bits s l → SamplesText (m ++ s) ⟨some l, none⟩
  | dec {m s : Str} {l : SampleList} : Word c!"@decimal" m → SampleListText bits s l → SamplesText (m ++ s) ⟨none, some l⟩
  | both {m s m' s' : Str} {l l' : SampleList} : Word c!"@integer" m → SampleListText bits s l → Word c!"@decimal" m' →
      SampleListText bits s' l' → SamplesText (m ++ (s ++ (m' ++ s'))) ⟨some l, some l'⟩

/-- White space only, or `@` after white space. -/
def NoCondition (s : Str) : Prop := ∃ a b, (∀ c ∈ a, isWhitespace c = true) ∧ s = a ++ b ∧ (b = [] ∨ ∃ t, b = '@' :: t)

/-- A rule: nothing or samples only (which are not looked at); a condition; or a condition and samples. -/
inductive RuleText : Str → Rule → Prop
  | empty {s : Str} : NoCondition s → RuleText s ⟨[], none⟩
  | cond {s : Str} {c : Condition} : CondText bits s c → RuleText s ⟨c, none⟩
  | openCond {s : Str} {c : Condition} : OpenCondText bits s c → RuleText s ⟨c, none⟩
  | full {s t : Str} {c : Condition} {x : Samples} : CondText bits s c → SamplesText bits t x → RuleText (s ++ t) ⟨c, some x⟩

/-! ## Canonical text -/

/-- The decimal digits of a number. -/
def natDigits (n : Nat) : List (Fin 10) :=
  if n < 10 then [Fin.ofNat 10 n] else natDigits (n / 10) ++ [Fin.ofNat 10 n]

def printNat (n : Nat) : Str := digitText (natDigits n)

/-- Joined with a separator. -/
def join (sep : Str) : List Str → Str
  | [] => []
  | [x] => x
  | x :: y :: l => x ++ (sep ++ join sep (y :: l))

def printItem : RangeListItem → Str
  | .value k => printNat k
  | .range a b => printNat a ++ (c!".." ++ printNat b)

def printExpr (e : Expression) : Str :=
  operandLetter e.operand :: match e.modulus with
    | none => []
    | some m => c!" " ++ (c!"%" ++ (c!" " ++ printNat m))

def printOp : Operator → Str
  | .EQ => c!"=" | .NotEQ => c!"!=" | .Is => c!"is" | .IsNot => c!"is not" | .In => c!"in" | .NotIn => c!"not in"
  | .Within => c!"within" | .NotWithin => c!"not within"

def printRelation (r : Relation) : Str :=
  printExpr r.expression ++ (c!" " ++ (printOp r.operator ++ (c!" " ++ join c!"," (r.rangeList.map printItem))))

def printCondition (c : Condition) : Str := join c!" or " (c.map fun a => join c!" and " (a.map printRelation))

def printDecimal (d : DecimalValue) : Str :=
  match d.decimal with
  | none => printNat d.integer
  | some f => printNat d.integer ++ (c!"." ++ printNat f)

def printSampleRange (r : SampleRange) : Str :=
  match r.upper with
  | none => printDecimal r.lower
  | some u => printDecimal r.lower ++ (c!"~" ++ printDecimal u)

def printSampleList (l : SampleList) : Str :=
  join c!", " (l.ranges.map printSampleRange) ++ if l.ellipsis then c!", …" else []

def printSamples (s : Samples) : Str :=
  (match s.integer with | none => [] | some l => c!" @integer " ++ printSampleList l) ++
  (match s.decimal with | none => [] | some l => c!" @decimal " ++ printSampleList l)

def printRule (r : Rule) : Str :=
  printCondition r.condition ++ match r.samples with | none => [] | some s => printSamples s

/-! ## Well-formed syntax trees -/

/-- All numbers of a list item satisfy a condition. -/
def itemNumbers (Q : Nat → Prop) : RangeListItem → Prop
  | .value k => Q k
  | .range a b => Q a ∧ Q b

/-- All numbers of a relation. -/
def relNumbers (Q : Nat → Prop) (r : Relation) : Prop :=
  (∀ m, r.expression.modulus = some m → Q m) ∧ ∀ x ∈ r.rangeList, itemNumbers Q x

/-- All numbers of a sample list. -/
def sampleNumbers (Q : Nat → Prop) (l : SampleList) : Prop :=
  ∀ x ∈ l.ranges, Q x.lower.integer ∧ (∀ d, x.lower.decimal = some d → Q d) ∧
    ∀ u, x.upper = some u → Q u.integer ∧ ∀ d, u.decimal = some d → Q d

/-- All numbers of a rule. -/
def ruleNumbers (Q : Nat → Prop) (r : Rule) : Prop :=
  (∀ a ∈ r.condition, ∀ x ∈ a, relNumbers Q x) ∧
  ∀ s, r.samples = some s → (∀ l, s.integer = some l → sampleNumbers Q l) ∧ ∀ l, s.decimal = some l → sampleNumbers Q l

/-- A condition: no list is empty. -/
def CondOk (c : Condition) : Prop := c ≠ [] ∧ ∀ a ∈ c, a ≠ [] ∧ ∀ r ∈ a, r.rangeList ≠ []

/-- Samples: one of the two kinds is there, and none is an empty list. -/
def SamplesOk (s : Samples) : Prop := (s.integer ≠ none ∨ s.decimal ≠ none) ∧
  (∀ l, s.integer = some l → l.ranges ≠ []) ∧ ∀ l, s.decimal = some l → l.ranges ≠ []

/-- A rule: no list is empty, and all numbers are below `2 ^ bits`. -/
def RuleOk (r : Rule) : Prop := CondOk r.condition ∧ (∀ s, r.samples = some s → SamplesOk s) ∧ ruleNumbers (· < 2 ^ bits) r

/-- What cannot continue a condition: after spaces no comma, `a` or `o` (`and`, `or`), and no digit or point at once. -/
def CondStop (rest : Str) : Prop := (∀ c t, rest = c :: t → isDigit c = false ∧ c ≠ '.') ∧
  ∀ c t sp, Spaces sp → rest = sp ++ c :: t → c ≠ ',' ∧ c ≠ 'a' ∧ c ≠ 'o'

end Verif.Grammar
