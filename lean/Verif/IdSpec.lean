import Verif.LangId

/-!
# Specification: texts of language identifiers

Subtags as in UTS #35 (`unicode_language_id` without extensions), separated by `-` or `_`.
-/

namespace Verif.Spec
open Verif

def Letter (c : Char) : Prop := 'a' ≤ c ∧ c ≤ 'z' ∨ 'A' ≤ c ∧ c ≤ 'Z'

def Numeral (c : Char) : Prop := '0' ≤ c ∧ c ≤ '9'

/-- 2, 3, or 5 to 8 letters. -/
def LanguageTag (s : Str) : Prop := (s.length = 2 ∨ s.length = 3 ∨ 5 ≤ s.length ∧ s.length ≤ 8) ∧ ∀ c ∈ s, Letter c

/-- 4 letters. -/
def ScriptTag (s : Str) : Prop := s.length = 4 ∧ ∀ c ∈ s, Letter c

/-- 2 letters or 3 digits. -/
def RegionTag (s : Str) : Prop := s.length = 2 ∧ (∀ c ∈ s, Letter c) ∨ s.length = 3 ∧ ∀ c ∈ s, Numeral c

/-- 5 to 8 letters and digits, or a digit and 3 letters and digits. -/
def VariantTag (s : Str) : Prop := (5 ≤ s.length ∧ s.length ≤ 8 ∨ s.length = 4 ∧ ∃ c t, s = c :: t ∧ Numeral c) ∧
  ∀ c ∈ s, Letter c ∨ Numeral c

/-- The parts, separated by `-` or `_`. -/
inductive Joined : List Str → Str → Prop
  | one (s : Str) : Joined [s] s
  | more (s : Str) {sep : Char} {ps : List Str} {t : Str} : sep = '-' ∨ sep = '_' → Joined ps t → Joined (s :: ps) (s ++ sep :: t)

def lower (s : Str) : Str := s.map Char.toLower
def upper (s : Str) : Str := s.map Char.toUpper
def title : Str → Str
  | [] => []
  | c :: t => c.toUpper :: lower t

/-- Variants as they are stored: none, or in order and each once. -/
def StoredVariants (vs : List Str) : Option (List Str) → Prop
  | none => vs = []
  | some ws => vs ≠ [] ∧ ws.Pairwise (· < ·) ∧ ∀ x, x ∈ ws ↔ x ∈ vs

/-- The text writes the identifier: a language (`und` for none), a script or not, a region or not, and variants, in any case. -/
def IdText (s : Str) (id : LangId) : Prop := ∃ (l : Str) (sc rg : Option Str) (vs : List Str),
  Joined (l :: (sc.toList ++ (rg.toList ++ vs))) s ∧
  LanguageTag l ∧ (∀ x ∈ sc, ScriptTag x) ∧ (∀ x ∈ rg, RegionTag x) ∧ (∀ x ∈ vs, VariantTag x) ∧
  (lower l = c!"und" ∧ id.language = none ∨ lower l ≠ c!"und" ∧ id.language = some (lower l)) ∧
  id.script = sc.map title ∧ id.region = rg.map upper ∧ StoredVariants (vs.map lower) id.variants

/-- A character without its case, and with `-` for `_`. -/
def foldChar (c : Char) : Char := if c = '_' then '-' else c.toLower

/-- Texts that differ only in the case of letters and in `-` or `_`. -/
def SameSpelling (s t : Str) : Prop := s.map foldChar = t.map foldChar

end Verif.Spec
