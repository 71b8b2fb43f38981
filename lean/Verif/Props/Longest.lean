import Verif.Lemmas.Longest

/-!
# The condition that a text begins with
-/

namespace Verif.Props
open Verif Spec Uts35 Grammar Verif.Parser

variable (bits : Nat)

/-- C89: the condition parser accepts a text and returns a condition exactly when the text begins with it: a blank text is
the empty condition; otherwise the condition is the longest one at the front of the text, and the rest is not looked at. -/
theorem C89_condition (s : Str) (c : Condition) : parsePluralCondition bits s = .ok c ↔ ConditionOf bits s c :=
  parsePluralCondition_ok

/-- C89: a text begins with one condition at most. -/
theorem C89_one (s : Str) (c c' : Condition) (h : ConditionOf bits s c) (h' : ConditionOf bits s c') : c = c' := by
  rw [← C89_condition] at h h'
  rw [h] at h'
  cases h'; rfl

/-- The first relation of a condition, up to its operator. -/
theorem front_open {t : Str} {c : Condition} (h : CondText bits t c ∨ OpenCondText bits t c) :
    ∃ s y u, t = s ++ u ∧ OpenText bits s y := by
  have k1 : ∀ {s : Str} {y : Relation}, RelText bits s y ∨ OpenText bits s y → ∃ s' y' u, s = s' ++ u ∧ OpenText bits s' y' := by
    rintro s y (h | h)
    · obtain @⟨s, a, o, b, t, e, op, l, hs, ha, ho, hb, ht⟩ := h
      exact ⟨_, _, t, by simp, .mk hs ha ho hb⟩
    · exact ⟨s, y, [], by simp, h⟩
  have k2 : ∀ {t : Str} {a : AndCondition}, AndText bits t a ∨ OpenAnd bits t a → ∃ s y u, t = s ++ u ∧ OpenText bits s y := by
    rintro t a (h | h)
    all_goals
      obtain ⟨s, y, u, rfl, hs⟩ := Nom.SepText.head h
      obtain ⟨s', y', u', rfl, hs'⟩ := k1 (s := s) (y := y) (by tauto)
      exact ⟨s', y', _, List.append_assoc _ _ _, hs'⟩
  rcases h with h | h
  all_goals
    obtain ⟨s, y, u, rfl, hs⟩ := Nom.SepText.head h
    obtain ⟨s', y', u', rfl, hs'⟩ := k2 (t := s) (a := y) (by tauto)
    exact ⟨s', y', _, List.append_assoc _ _ _, hs'⟩

/-- C89: the parser accepts exactly the blank texts and the texts that begin with an operand, with or without a modulus, and
an operator. -/
theorem C89_accepted (s : Str) :
    (∃ c, parsePluralCondition bits s = .ok c) ↔ NoCondition s ∨ ∃ t u x, s = t ++ u ∧ OpenText bits t x := by
  constructor
  · rintro ⟨c, h⟩
    rcases (C89_condition bits s c).1 h with ⟨h, -⟩ | ⟨t, ⟨u, rfl, -, ht⟩, -⟩
    · exact .inl h
    · obtain ⟨s, y, v, rfl, hs⟩ := front_open bits ht
      exact .inr ⟨s, v ++ u, y, List.append_assoc _ _ _, hs⟩
  · rintro (h | ⟨t, u, x, rfl, h⟩)
    · exact ⟨[], (C89_condition bits s []).2 (.inl ⟨h, rfl⟩)⟩
    · have hc : OpenCondText bits t [[x]] := .last (.last h)
      obtain ⟨r, c, h1⟩ := conditionList_any (.inr hc) u
      refine ⟨c, ?_⟩
      unfold parsePluralCondition
      rw [parseCondition_list (cond_not_blank (.inr hc)), h1]

/-- C89: a text that is not accepted is reported. -/
theorem C89_refused (s : Str) (h : ∀ c, ¬ ConditionOf bits s c) : parsePluralCondition bits s = .error c!"Parser failed" := by
  cases e : parsePluralCondition bits s with
  | ok c => exact absurd ((C89_condition bits s c).1 e) (h c)
  | error m =>
    unfold parsePluralCondition at e
    split at e
    · cases e
    · cases e; rfl

/-- The number that goes on is not read: the list stays empty, and the text is accepted. -/
example : (parsePluralCondition 64 c!"n = 99999999999999999999").toOption = some [[⟨⟨.N, none⟩, .EQ, []⟩]] ∧
    (parsePluralCondition 64 c!"n = 1..99999999999999999999").toOption = some [[⟨⟨.N, none⟩, .EQ, [.value 1]⟩]] ∧
    (parsePluralCondition 64 c!"n is nothing").toOption = some [[⟨⟨.N, none⟩, .IsNot, []⟩]] ∧
    (parsePluralCondition 64 c!"n = 1 and").toOption = some [[⟨⟨.N, none⟩, .EQ, [.value 1]⟩]] ∧
    (parsePluralCondition 64 c!"n = 1, 2 and i").toOption = some [[⟨⟨.N, none⟩, .EQ, [.value 1, .value 2]⟩]] := by decide +kernel

example : ConditionOf 64 c!"n = 1 and" [[⟨⟨.N, none⟩, .EQ, [.value 1]⟩]] ∧
    FrontCondition 64 c!"n = 1 and" c!"n = 1" [[⟨⟨.N, none⟩, .EQ, [.value 1]⟩]] := by
  have h : ValueText 64 c!"1" 1 := ⟨[1], by simp, by decide, by decide, by decide⟩
  have hs : Spaces c!" " := by simp [Spaces]
  refine ⟨(C89_condition 64 _ _).1 ?_, c!" and", rfl, ?_, .inl (.last (.last (.mk (.plain .N) hs .eq hs (.last (.value h)))))⟩
  · unfold parsePluralCondition
    with_unfolding_all rfl
  · rintro j k a v - h
    have : ' ' = digitChar k := by simpa using congrArg List.head? h
    clear h
    revert this; revert k; decide

end Verif.Props
