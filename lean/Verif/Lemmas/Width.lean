import Verif.HostWidth
import Verif.Lemmas.Strings

/-! Helper lemmas for C90: parsers that differ only in the width of numbers agree on texts with small numbers. -/

namespace Verif.Width
open Verif Nom Verif.Parser Spec Uts35 Strings

/-- The parsers agree on every end of the text, and leave an end of what they are given. -/
def Agree (s : Str) (p q : P α) : Prop := ∀ u, u <:+ s → p u = q u ∧ ∀ r a, p u = some (r, a) → r <:+ u

variable {s : Str}

theorem Agree.map {p q : P α} (h : Agree s p q) (f : α → β) : Agree s (map p f) (map q f) := by
  intro u hu
  obtain ⟨h1, h2⟩ := h u hu
  unfold Nom.map
  rw [← h1]
  refine ⟨rfl, fun r a => ?_⟩
  cases hp : p u with
  | none => simp
  | some x => simp only [Option.some.injEq, Prod.mk.injEq]; rintro ⟨rfl, -⟩; exact h2 _ _ hp

theorem Agree.opt {p q : P α} (h : Agree s p q) : Agree s (opt p) (opt q) := by
  intro u hu
  obtain ⟨h1, h2⟩ := h u hu
  unfold Nom.opt
  rw [← h1]
  refine ⟨rfl, fun r a => ?_⟩
  cases hp : p u with
  | none => simp only [Option.some.injEq, Prod.mk.injEq]; rintro ⟨rfl, -⟩; exact List.suffix_refl _
  | some x => simp only [Option.some.injEq, Prod.mk.injEq]; rintro ⟨rfl, -⟩; exact h2 _ _ hp

theorem Agree.alt {p q p' q' : P α} (h : Agree s p q) (h' : Agree s p' q') : Agree s (alt p p') (alt q q') := by
  intro u hu
  obtain ⟨h1, h2⟩ := h u hu
  obtain ⟨h3, h4⟩ := h' u hu
  unfold Nom.alt
  rw [← h1, ← h3]
  refine ⟨rfl, fun r a => ?_⟩
  cases hp : p u with
  | none => simp only; exact h4 _ _
  | some x => simp only [Option.some.injEq]; rintro rfl; exact h2 _ _ hp

theorem Agree.pair {p q : P α} {p' q' : P β} (h : Agree s p q) (h' : Agree s p' q') : Agree s (pair p p') (pair q q') := by
  intro u hu
  obtain ⟨h1, h2⟩ := h u hu
  unfold Nom.pair
  rw [← h1]
  cases hp : p u with
  | none => simp
  | some x =>
    obtain ⟨r, a⟩ := x
    have hr := h2 _ _ hp
    obtain ⟨h3, h4⟩ := h' r (hr.trans hu)
    simp only [← h3]
    refine ⟨trivial, fun r' b => ?_⟩
    cases hq : p' r with
    | none => simp
    | some y => simp only [Option.some.injEq, Prod.mk.injEq]; rintro ⟨rfl, -⟩; exact (h4 _ _ hq).trans hr

theorem Agree.preceded {p q : P α} {p' q' : P β} (h : Agree s p q) (h' : Agree s p' q') :
    Agree s (preceded p p') (preceded q q') := (h.pair h').map _

theorem Agree.separatedPair {p q : P α} {p' q' : P β} {t t' : P σ} (h : Agree s p q) (ht : Agree s t t') (h' : Agree s p' q') :
    Agree s (separatedPair p t p') (separatedPair q t' q') := (h.pair (ht.pair h')).map _

theorem sepLoop_agree {t t' : P σ} {p q : P α} (ht : Agree s t t') (h : Agree s p q) :
    ∀ n u acc, u <:+ s → sepLoop t p n u acc = sepLoop t' q n u acc ∧ ∀ r l, sepLoop t p n u acc = some (r, l) → r <:+ u := by
  intro n
  induction n with
  | zero => intro u acc _; simp [sepLoop]
  | succ n ih =>
    intro u acc hu
    obtain ⟨h1, h2⟩ := ht u hu
    unfold sepLoop
    rw [← h1]
    cases hp : t u with
    | none => simp only [Option.some.injEq, Prod.mk.injEq, true_and]; rintro r l ⟨rfl, -⟩; exact List.suffix_refl _
    | some x =>
      obtain ⟨i1, a⟩ := x
      have hi := h2 _ _ hp
      obtain ⟨h3, h4⟩ := h i1 (hi.trans hu)
      simp only [← h3]
      split
      · simp
      · cases hq : p i1 with
        | none => simp only [Option.some.injEq, Prod.mk.injEq, true_and]; rintro r l ⟨rfl, -⟩; exact List.suffix_refl _
        | some y =>
          obtain ⟨i2, o⟩ := y
          have hi2 := (h4 _ _ hq).trans hi
          simp only
          split
          · simp
          · obtain ⟨e, h5⟩ := ih i2 (o :: acc) (hi2.trans hu)
            exact ⟨e, fun r l hl => (h5 r l hl).trans hi2⟩

theorem Agree.separatedList {t t' : P σ} {p q : P α} (ht : Agree s t t') (h : Agree s p q) :
    Agree s (separatedList t p) (separatedList t' q) := by
  intro u hu
  obtain ⟨h1, h2⟩ := h u hu
  unfold Nom.separatedList
  rw [← h1]
  cases hp : p u with
  | none => simp only [Option.some.injEq, Prod.mk.injEq, true_and]; rintro r l ⟨rfl, -⟩; exact List.suffix_refl _
  | some x =>
    obtain ⟨i1, a⟩ := x
    have hi := h2 _ _ hp
    obtain ⟨e, h3⟩ := sepLoop_agree ht h (i1.length + 1) i1 [a] (hi.trans hu)
    simp only
    split
    · simp
    · exact ⟨e, fun r l hl => (h3 r l hl).trans hi⟩

theorem Agree.separatedNonemptyList {t t' : P σ} {p q : P α} (ht : Agree s t t') (h : Agree s p q) :
    Agree s (separatedNonemptyList t p) (separatedNonemptyList t' q) := by
  intro u hu
  obtain ⟨h1, h2⟩ := h u hu
  unfold Nom.separatedNonemptyList
  rw [← h1]
  cases hp : p u with
  | none => simp
  | some x =>
    obtain ⟨i1, a⟩ := x
    have hi := h2 _ _ hp
    obtain ⟨e, h3⟩ := sepLoop_agree ht h (i1.length + 1) i1 [a] (hi.trans hu)
    simp only
    split
    · simp
    · exact ⟨e, fun r l hl => (h3 r l hl).trans hi⟩

theorem agree_tag (t : Str) : Agree s (tag t) (tag t) := by
  intro u _
  refine ⟨rfl, fun r a => ?_⟩
  unfold tag
  split
  · simp only [Option.some.injEq, Prod.mk.injEq]; rintro ⟨rfl, -⟩; exact List.drop_suffix _ _
  · simp

theorem agree_space0 : Agree s space0 space0 := by
  intro u _
  refine ⟨rfl, fun r a => ?_⟩
  simp only [space0, Option.some.injEq, Prod.mk.injEq]; rintro ⟨rfl, -⟩; exact List.dropWhile_suffix _

theorem agree_space1 : Agree s space1 space1 := by
  intro u _
  refine ⟨rfl, fun r a => ?_⟩
  unfold space1
  split
  · simp
  · simp only [Option.some.injEq, Prod.mk.injEq]; rintro ⟨rfl, -⟩; exact List.dropWhile_suffix _

theorem agree_oneOf (cs : Str) : Agree s (oneOf cs) (oneOf cs) := by
  intro u _
  refine ⟨rfl, fun r a => ?_⟩
  unfold oneOf
  cases u with
  | nil => simp
  | cons c t =>
    simp only
    split
    · simp only [Option.some.injEq, Prod.mk.injEq]; rintro ⟨rfl, -⟩; exact List.suffix_cons _ _
    · simp

/-! ## The parsers of rules -/

variable {b b' : Nat} (hs : ∀ a l z, s = a ++ digitText l ++ z → digitsNum l < 2 ^ b ∧ digitsNum l < 2 ^ b')
include hs

theorem agree_value : Agree s (value b) (value b') := by
  rintro u ⟨a, rfl⟩
  have key : ∀ c, value c u = (Nom.mapRes digit1 (parseUnsigned c)) u := fun _ => rfl
  rw [key, key]
  unfold mapRes digit1
  split
  · rename_i r x hd
    split at hd
    · cases hd
    · cases hd
      obtain ⟨l, hl⟩ := all_digits (u.takeWhile isDigit) (List.all_takeWhile ..)
      have hb := hs a l (u.dropWhile isDigit) (by rw [← hl, List.append_assoc, List.takeWhile_append_dropWhile])
      rw [hl, parseUnsigned_digits, parseUnsigned_digits]
      by_cases hn : l ≠ []
      · rw [if_pos ⟨hn, hb.1⟩, if_pos ⟨hn, hb.2⟩]
        refine ⟨rfl, ?_⟩
        simp only [Option.some.injEq, Prod.mk.injEq]; rintro r a ⟨rfl, -⟩; exact List.dropWhile_suffix _
      · rw [if_neg (fun h => hn h.1), if_neg (fun h => hn h.1)]
        simp
  · simp

theorem agree_rangeListItem : Agree s (rangeListItem b) (rangeListItem b') :=
  (((agree_value hs).separatedPair (agree_tag _) (agree_value hs)).map _).alt ((agree_value hs).map _)

omit hs in
theorem agree_commaSep : Agree s commaSep commaSep := agree_space0.pair ((agree_tag _).pair agree_space0)

theorem agree_rangeList : Agree s (rangeList b) (rangeList b') := agree_commaSep.separatedList (agree_rangeListItem hs)

theorem agree_modExpression : Agree s (modExpression b) (modExpression b') :=
  ((agree_space0.pair (((agree_tag _).alt (agree_tag _)).pair agree_space1)).preceded (agree_value hs)).opt

theorem agree_expression : Agree s (expression b) (expression b') :=
  (((agree_oneOf _).map _).pair (agree_modExpression hs)).map _

omit hs in
theorem agree_operator : Agree s relationOperator relationOperator :=
  ((agree_tag _).map _).alt <| ((agree_tag _).map _).alt <|
    (((agree_tag _).pair (agree_space1.pair (agree_tag _).opt)).map _).alt <| ((agree_tag _).map _).alt <|
    (((agree_tag _).pair (agree_space1.pair (((agree_tag _).map _).alt ((agree_tag _).map _)))).map _).alt <| (agree_tag _).map _

theorem agree_relation : Agree s (relation b) (relation b') :=
  ((agree_expression hs).pair (agree_space0.pair (agree_operator.pair (agree_space0.pair (agree_rangeList hs))))).map _

omit hs in
theorem agree_word (t : Str) : Agree s (pair space1 (pair (tag t) space1)) (pair space1 (pair (tag t) space1)) :=
  agree_space1.pair ((agree_tag _).pair agree_space1)

theorem agree_andCondition : Agree s (andCondition b) (andCondition b') :=
  (agree_word _).separatedNonemptyList (agree_relation hs)

theorem agree_parseCondition : Agree s (parseCondition b) (parseCondition b') := by
  intro u hu
  have h := ((agree_word (s := s) c!"or").separatedNonemptyList (agree_andCondition hs)) u hu
  unfold parseCondition
  rw [← h.1]
  refine ⟨rfl, fun r a => ?_⟩
  split
  · simp only [Option.some.injEq, Prod.mk.injEq]; rintro ⟨rfl, -⟩; exact List.nil_suffix
  · split
    · simp only [Option.some.injEq, Prod.mk.injEq]; rintro ⟨rfl, -⟩; exact List.nil_suffix
    · exact h.2 r a

theorem agree_decimalValue : Agree s (decimalValue b) (decimalValue b') :=
  ((agree_value hs).pair ((agree_tag _).preceded (agree_value hs)).opt).map _

theorem agree_sampleRange : Agree s (sampleRange b) (sampleRange b') :=
  ((agree_decimalValue hs).pair
    ((agree_space0.pair ((agree_tag _).pair agree_space0)).preceded (agree_decimalValue hs)).opt).map _

theorem agree_sampleList : Agree s (sampleList b) (sampleList b') :=
  ((agree_commaSep.separatedNonemptyList (agree_sampleRange hs)).pair
    (agree_commaSep.preceded ((agree_tag _).alt (agree_tag _))).opt).map _

theorem agree_samples : Agree s (samples b) (samples b') :=
  ((((agree_word _).preceded (agree_sampleList hs)).opt).pair (((agree_word _).preceded (agree_sampleList hs)).opt)).map _

theorem agree_parseRule : Agree s (parseRule b) (parseRule b') :=
  ((agree_parseCondition hs).pair (agree_samples hs)).map _

theorem condition_agree : parsePluralCondition b s = parsePluralCondition b' s := by
  unfold parsePluralCondition
  rw [((agree_parseCondition hs) s (List.suffix_refl s)).1]

theorem rule_agree : parsePluralRule b s = parsePluralRule b' s := by
  unfold parsePluralRule
  rw [((agree_parseRule hs) s (List.suffix_refl s)).1]

end Verif.Width
