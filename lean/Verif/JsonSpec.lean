import Verif.Json

/-!
# Specification: the JSON grammar (RFC 8259)

No code of /repo and no parser: which text stands for which value.  Only the type of values, and `Elem` for the
characters of a string, are shared with the model.
-/

namespace Verif.JsonSpec
open Verif Json

/-- RFC 8259 section 2: `ws`. -/
def Ws (s : Str) : Prop := ∀ c ∈ s, c = ' ' ∨ c = '\t' ∨ c = '\n' ∨ c = '\r'

/-- Section 7: the escapes of two characters. -/
def escapes : List (Char × Char) :=
  [('"', '"'), ('\\', '\\'), ('/', '/'), ('b', '\x08'), ('f', '\x0c'), ('n', '\n'), ('r', '\r'), ('t', '\t')]

/-- Section 7: hexadecimal digits and their values. -/
def hexDigits : List (Char × Nat) :=
  [('0', 0), ('1', 1), ('2', 2), ('3', 3), ('4', 4), ('5', 5), ('6', 6), ('7', 7), ('8', 8), ('9', 9),
    ('a', 10), ('b', 11), ('c', 12), ('d', 13), ('e', 14), ('f', 15),
    ('A', 10), ('B', 11), ('C', 12), ('D', 13), ('E', 14), ('F', 15)]

/-- Section 7: the text between the quotes of a string, and what it stands for: characters, and code units of UTF-16. -/
inductive Chars : Str → List Elem → Prop
  | nil : Chars [] []
  | plain {c s l} : c ≠ '"' → c ≠ '\\' → 32 ≤ c.toNat → Chars s l → Chars (c :: s) (.ch c :: l)
  | esc {x c s l} : (x, c) ∈ escapes → Chars s l → Chars ('\\' :: x :: s) (.ch c :: l)
  | uni {a b c d na nb nc nd s l} : (a, na) ∈ hexDigits → (b, nb) ∈ hexDigits → (c, nc) ∈ hexDigits → (d, nd) ∈ hexDigits →
      Chars s l → Chars ('\\' :: 'u' :: a :: b :: c :: d :: s) (.unit (4096 * na + 256 * nb + 16 * nc + nd) :: l)

/-- The UTF-16 code units of a character. -/
def utf16 (c : Char) : List Nat :=
  if c.toNat < 0x10000 then [c.toNat]
  else [0xD800 + (c.toNat - 0x10000) / 0x400, 0xDC00 + (c.toNat - 0x10000) % 0x400]

/-- The text a list of elements stands for: every character is given as such or by all of its code units. -/
inductive Decodes : List Elem → Str → Prop
  | nil : Decodes [] []
  | ch {c l s} : Decodes l s → Decodes (.ch c :: l) (c :: s)
  | units {c l s} : Decodes l s → Decodes ((utf16 c).map .unit ++ l) (c :: s)

/-- A string with its quotes, and the text it stands for, if there is one. -/
def IsString (s : Str) (v : Option Str) : Prop :=
  ∃ b l, s = '"' :: b ++ ['"'] ∧ Chars b l ∧
    ((∃ t, v = some t ∧ Decodes l t) ∨ (v = none ∧ ∀ t, ¬ Decodes l t))

/-- Decimal digits, at least one. -/
def Digits (s : Str) : Prop := s ≠ [] ∧ ∀ c ∈ s, '0' ≤ c ∧ c ≤ '9'

/-- Section 6: `number`. -/
def IsNumber (s : Str) : Prop :=
  ∃ sg i f e, s = sg ++ i ++ f ++ e ∧ (sg = [] ∨ sg = ['-']) ∧ (i = ['0'] ∨ (Digits i ∧ ∀ t, i ≠ '0' :: t)) ∧
    (f = [] ∨ ∃ d, f = '.' :: d ∧ Digits d) ∧
    (e = [] ∨ ∃ x g d, e = x :: g ++ d ∧ (x = 'e' ∨ x = 'E') ∧ (g = [] ∨ g = ['+'] ∨ g = ['-']) ∧ Digits d)

mutual
/-- Section 3: the text of a value, with no white space around it. -/
inductive IsValue : Str → Json → Prop
  | null : IsValue c!"null" .null
  | tru : IsValue c!"true" (.bool true)
  | fls : IsValue c!"false" (.bool false)
  | num {s} : IsNumber s → IsValue s (.num s)
  | str {s v} : IsString s v → IsValue s (.str v)
  | arrNil {w} : Ws w → IsValue ('[' :: w ++ [']']) (.arr [])
  | arr {s l} : IsElements s l → IsValue ('[' :: s ++ [']']) (.arr l)
  | objNil {w} : Ws w → IsValue ('{' :: w ++ ['}']) (.obj [])
  | obj {s l} : IsMembers s l → IsValue ('{' :: s ++ ['}']) (.obj l)
/-- Section 5: values separated by commas. -/
inductive IsElements : Str → List Json → Prop
  | one {w1 s j w2} : Ws w1 → IsValue s j → Ws w2 → IsElements (w1 ++ s ++ w2) [j]
  | cons {w1 s j w2 r l} : Ws w1 → IsValue s j → Ws w2 → IsElements r l →
      IsElements (w1 ++ s ++ w2 ++ ',' :: r) (j :: l)
/-- Section 4: members separated by commas. -/
inductive IsMembers : Str → List (Option Str × Json) → Prop
  | one {w1 k key w2 w3 s j w4} : Ws w1 → IsString k key → Ws w2 → Ws w3 → IsValue s j → Ws w4 →
      IsMembers (w1 ++ k ++ w2 ++ ':' :: w3 ++ s ++ w4) [(key, j)]
  | cons {w1 k key w2 w3 s j w4 r l} : Ws w1 → IsString k key → Ws w2 → Ws w3 → IsValue s j → Ws w4 → IsMembers r l →
      IsMembers (w1 ++ k ++ w2 ++ ':' :: w3 ++ s ++ w4 ++ ',' :: r) ((key, j) :: l)
end

/-- Section 2: a JSON text. -/
def IsText (s : Str) (j : Json) : Prop := ∃ w1 v w2, s = w1 ++ v ++ w2 ∧ Ws w1 ∧ IsValue v j ∧ Ws w2

end Verif.JsonSpec
