import Verif.Grammar
import Verif.LangId

/-!
# Specification: what a JSON object, a version text and an identifier say

What the property theorems about the generator are stated with.
-/

namespace Verif.Spec
open Verif

/-- A JSON object gives this value for the key: it is the last member with the key. -/
def LastOf (members : List (Str × α)) (k : Str) (v : α) : Prop :=
  ∃ before after, members = before ++ (k, v) :: after ∧ ∀ p ∈ after, p.1 ≠ k

/-- The third part of a name with parts separated by `-`. -/
def ThirdPart (name part : Str) : Prop :=
  ∃ a b rest, '-' ∉ a ∧ '-' ∉ b ∧ '-' ∉ part ∧ name = a ++ '-' :: (b ++ '-' :: (part ++ rest)) ∧
    (rest = [] ∨ ∃ r, rest = '-' :: r)

/-- A decimal number with an optional sign, in the range of `isize`. -/
def VersionText (s : Str) : Prop := ∃ l, l ≠ [] ∧
  ((s = digitText l ∨ s = '+' :: digitText l) ∧ Uts35.digitsNum l < 2 ^ 63 ∨ s = '-' :: digitText l ∧ Uts35.digitsNum l ≤ 2 ^ 63)

/-- A subtag of at most `n` ASCII characters, none of them NUL. -/
def Ascii (n : Nat) (s : Str) : Prop := s.length ≤ n ∧ ∀ c ∈ s, 0 < c.toNat ∧ c.toNat < 128

/-- An identifier with a language and no variants, whose subtags have lengths that a generated entry can hold. -/
structure Writable (id : LangId) : Prop where
  language : ∃ l, id.language = some l ∧ Ascii 8 l
  script : ∀ s, id.script = some s → Ascii 4 s
  region : ∀ s, id.region = some s → Ascii 4 s
  variants : id.variants = none

end Verif.Spec
