import Verif.Lemmas.Print

/-!
# C27–C37: the parser reads the UTS #35 syntax

`bits` is the width of `usize`, 64 on the targets considered (`Parser.usizeBits`); the theorems hold for every width.
-/

namespace Verif.Props
open Verif Parser Grammar Spec Uts35 Nom

variable (bits : Nat)

/-! ## C27, C28, C29 -/

/-- C27: a rule that is returned is what the text denotes, all of the text. -/
theorem C27_sound (s : Str) (r : Rule) (h : parsePluralRule bits s = .ok r) : RuleText bits s r := parsePluralRule_ok.1 h

example : RuleText 64 c!"n=1 @integer 1" ⟨[[⟨⟨.N, none⟩, .EQ, [.value 1]⟩]], some ⟨some ⟨[⟨⟨1, none⟩, none⟩], false⟩, none⟩⟩ :=
  C27_sound 64 _ _ (by with_unfolding_all rfl)

/-- C28: canonical text parses to the rule it was printed from. -/
theorem C28_round_trip (r : Rule) (h : RuleOk bits r) : parsePluralRule bits (printRule r) = .ok r :=
  parsePluralRule_ok.2 (printRule_text h)

/-- A rule with every kind of part. -/
def sampleRule : Rule :=
  { condition := [[⟨⟨.N, some 10⟩, .EQ, [.value 2, .range 3 18446744073709551615]⟩, ⟨⟨.I, none⟩, .IsNot, [.value 1]⟩],
      [⟨⟨.V, none⟩, .Within, [.range 0 1]⟩]]
    samples := some ⟨some ⟨[⟨⟨2, none⟩, some ⟨4, none⟩⟩], true⟩, some ⟨[⟨⟨0, some 5⟩, none⟩, ⟨⟨1, some 0⟩, none⟩], false⟩⟩ }

example : RuleOk 64 sampleRule := by
  refine ⟨⟨by simp [sampleRule], by simp [sampleRule]⟩, by simp [sampleRule, SamplesOk], ?_⟩
  refine ⟨by simp [sampleRule, relNumbers, itemNumbers], by simp [sampleRule, sampleNumbers]⟩

example : printRule sampleRule =
    c!"n % 10 = 2,3..18446744073709551615 and i is not 1 or v within 0..1 @integer 2~4, … @decimal 0.5, 1.0" := by decide +kernel

/-- C29: every text that denotes a rule, in whatever spacing, parses to that rule. -/
theorem C29_complete (s : Str) (r : Rule) (h : RuleText bits s r) : parsePluralRule bits s = .ok r := parsePluralRule_ok.2 h

/-- C29: a relation, with any spaces between its parts, and with `mod` or `%`. -/
theorem C29_relation (o : Operand) (a b c d : Str) (m k : Str) (w : Str) (op : Operator) (l : Str) (mv : Nat) (items : List RangeListItem)
    (ha : Spaces a) (hb : Spaces1 b) (hc : Spaces c) (hd : Spaces d) (hm : m = c!"mod" ∨ m = c!"%") (hk : ValueText bits k mv)
    (hw : OpText w op) (hl : ListText bits l items) :
    parsePluralRule bits (operandLetter o :: (a ++ (m ++ (b ++ k))) ++ (c ++ (w ++ (d ++ l)))) =
      .ok ⟨[[⟨⟨o, some mv⟩, op, items⟩]], none⟩ :=
  parsePluralRule_ok.2 (.cond (.last (.last (.mk (.modulo o ha hm hb hk) hc hw hd hl))))

/-- C29: two rules that differ only in spacing (both denote the same tree) give the same result. -/
theorem C29_same (s s' : Str) (r : Rule) (h : RuleText bits s r) (h' : RuleText bits s' r) :
    parsePluralRule bits s = parsePluralRule bits s' := by
  rw [parsePluralRule_ok.2 h, parsePluralRule_ok.2 h']

example : RuleText 64 c!"n  mod\t10   =2 ,  3..5" ⟨[[⟨⟨.N, some 10⟩, .EQ, [.value 2, .range 3 5]⟩]], none⟩ :=
  parsePluralRule_ok.1 (by
    have h : (parsePluralRule 64 c!"n  mod\t10   =2 ,  3..5").toOption =
        some ⟨[[⟨⟨.N, some 10⟩, .EQ, [.value 2, .range 3 5]⟩]], none⟩ := by decide +kernel
    cases h' : parsePluralRule 64 c!"n  mod\t10   =2 ,  3..5" with
    | ok r => rw [h'] at h; simpa [Except.toOption] using h
    | error e => rw [h'] at h; cases h)

/-! ## C30 -/

/-- What a result says about the text. -/
theorem result_cases (s : Str) : (∃ r, parsePluralRule bits s = .ok r ∧ parseRule bits s = some ([], r)) ∨
    (∃ c t r, parsePluralRule bits s = .error (c!"Left string: " ++ c :: t) ∧ parseRule bits s = some (c :: t, r)) ∨
    (parsePluralRule bits s = .error c!"Parser failed" ∧ parseRule bits s = none) := by
  unfold parsePluralRule
  cases h : parseRule bits s with
  | none => exact .inr (.inr ⟨rfl, rfl⟩)
  | some y =>
    obtain ⟨l, r⟩ := y
    cases l with
    | nil => exact .inl ⟨r, rfl, rfl⟩
    | cons c t => exact .inr (.inl ⟨c, t, r, rfl, rfl⟩)

theorem left_ne_failed (t : Str) : c!"Left string: " ++ t ≠ c!"Parser failed" := by
  intro h
  simp at h

/-- C30: "Parser failed" exactly when no prefix of the text is a condition (and the text is not blank, nor samples only). -/
theorem C30_failed_iff (s : Str) : parsePluralRule bits s = .error c!"Parser failed" ↔
    ¬ NoCondition s ∧ ∀ pre rest c, s = pre ++ rest → ¬ CondText bits pre c ∧ ¬ OpenCondText bits pre c := by
  rw [← parseRule_none]
  rcases result_cases bits s with ⟨r, h1, h2⟩ | ⟨c, t, r, h1, h2⟩ | ⟨h1, h2⟩
  · rw [h1, h2]; simp
  · rw [h1, h2]
    simp only [reduceCtorEq, iff_false, Except.error.injEq]
    exact left_ne_failed _
  · rw [h1, h2]; simp

/-- C30: any other error is "Left string: " and a non-empty suffix of the text; what comes before it is a rule. -/
theorem C30_leftover (s e : Str) (h : parsePluralRule bits s = .error e) (he : e ≠ c!"Parser failed") :
    ∃ pre rest r, s = pre ++ rest ∧ rest ≠ [] ∧ e = c!"Left string: " ++ rest ∧ RuleText bits pre r ∧ parsePluralRule bits pre = .ok r := by
  rcases result_cases bits s with ⟨r, h1, h2⟩ | ⟨c, t, r, h1, h2⟩ | ⟨h1, h2⟩
  · rw [h1] at h; cases h
  · rw [h1] at h; cases h
    obtain ⟨pre, e, hp⟩ := parseRule_sound h2
    exact ⟨pre, c :: t, r, e, by simp, rfl, hp, parsePluralRule_ok.2 hp⟩
  · rw [h1] at h; cases h; contradiction

/-- What cannot continue a rule: at once no digit and no point, and after spaces none of `,` `a` `o` `~` `@`. -/
def RuleStop (rest : Str) : Prop := (∀ c t, rest = c :: t → isDigit c = false ∧ c ≠ '.') ∧
  ∀ c t sp, Spaces sp → rest = sp ++ c :: t → c ≠ ',' ∧ c ≠ 'a' ∧ c ≠ 'o' ∧ c ≠ '~' ∧ c ≠ '@'

theorem dropSpaces_split {r t : Str} {c : Char} (h : r.dropWhile isSpace = c :: t) : ∃ sp, Spaces sp ∧ r = sp ++ c :: t := by
  refine ⟨r.takeWhile isSpace, (spaces_iff _).2 (takeWhile_all isSpace r), ?_⟩
  rw [← h, List.takeWhile_append_dropWhile]

theorem ruleStop_end {r : Str} (h : RuleStop r) : RuleEnd r := by
  obtain ⟨h1, h2⟩ := h
  constructor
  · intro c t hr
    obtain ⟨h3, h4⟩ := h1 c t hr
    simp [digitOrPoint, h3, h4]
  · intro c t hr
    obtain ⟨sp, hsp, e⟩ := dropSpaces_split hr
    obtain ⟨a, b, c', d, e'⟩ := h2 c t sp hsp e
    simp [a, b, c', d, e']

/-- C30: a rule followed by text that cannot continue it: exactly that text is reported. -/
theorem C30_exact (pre rest : Str) (r : Rule) (h : RuleText bits pre r) (hc : CondOk r.condition) (hr : RuleStop rest) (hne : rest ≠ []) :
    parsePluralRule bits (pre ++ rest) = .error (c!"Left string: " ++ rest) := by
  have h1 : parseRule bits (pre ++ rest) = some (rest, r) := by
    refine parseRule_complete ?_ (ruleStop_end hr)
    cases h with
    | empty h => exact absurd rfl hc.1
    | cond h => exact .inl ⟨h, rfl⟩
    | openCond h =>
      obtain ⟨A, B, e, op, rfl, -, -⟩ := OpenCondText.shape h
      exact absurd rfl ((hc.2 (B ++ [⟨e, op, []⟩]) (by simp)).2 ⟨e, op, []⟩ (by simp))
    | full h1 h2 => exact .inr ⟨_, _, _, rfl, h1, h2, rfl⟩
  unfold parsePluralRule
  rw [h1]
  cases rest with
  | nil => contradiction
  | cons c t => rfl

example : parsePluralRule 64 c!"n = 1 xyz" = .error c!"Left string:  xyz" := by
  have h : RuleText 64 (printRule ⟨[[⟨⟨.N, none⟩, .EQ, [.value 1]⟩]], none⟩) ⟨[[⟨⟨.N, none⟩, .EQ, [.value 1]⟩]], none⟩ := by
    refine printRule_text ⟨⟨by simp, by simp⟩, by simp, by simp [relNumbers, itemNumbers], by simp⟩
  have e : printRule ⟨[[⟨⟨.N, none⟩, .EQ, [.value 1]⟩]], none⟩ = c!"n = 1" := by decide +kernel
  rw [e] at h
  refine C30_exact 64 c!"n = 1" c!" xyz" _ h ⟨by simp, by simp⟩ ⟨?_, ?_⟩ (by simp)
  · rintro c t ⟨⟩; decide
  · intro c t sp hsp hr
    cases sp with
    | nil => cases hr; decide
    | cons x sp =>
      cases sp with
      | nil => cases hr; decide
      | cons y sp =>
        have hy : 'x' = y := by simp only [List.cons_append, List.cons.injEq] at hr; exact hr.2.1
        exact absurd (hsp y (by simp)) (by rw [← hy]; decide)

example : parsePluralRule 64 c!"1 = n" = .error c!"Parser failed" := rfl

/-! ## C31, C32, C33 -/

theorem condition_of_rule {s r : Str} {x : Rule} (h : parseRule bits s = some (r, x)) : ∃ r', parseCondition bits s = some (r', x.condition) := by
  rw [parseRule, map_some] at h
  obtain ⟨⟨c, y⟩, h, rfl⟩ := h
  obtain ⟨r1, h1, -⟩ := pair_some.1 h
  exact ⟨r1, h1⟩

/-- C31: where the rule parser succeeds the condition parser gives the same condition. -/
theorem C31_agree (s : Str) (r : Rule) (h : parsePluralRule bits s = .ok r) : parsePluralCondition bits s = .ok r.condition := by
  obtain ⟨r', h'⟩ := condition_of_rule bits (parseRule_text (parsePluralRule_ok.1 h))
  unfold parsePluralCondition
  rw [h']

/-- C31: the condition parser ignores text after the condition that cannot continue it. -/
theorem C31_ignores (s rest : Str) (c : Condition) (h : CondText bits s c) (hr : CondStop rest) :
    parsePluralCondition bits (s ++ rest) = .ok c := by
  obtain ⟨h1, h2⟩ := hr
  have hnext : ∀ p : Char → Bool, (∀ c, c ≠ ',' ∧ c ≠ 'a' ∧ c ≠ 'o' → p c = false) → NoNext p rest := by
    intro p hp c t hc
    obtain ⟨sp, hsp, e⟩ := dropSpaces_split hc
    exact hp c (h2 c t sp hsp e)
  have h3 : conditionList bits (s ++ rest) = some (rest, c) := by
    refine conditionList_complete h ?_ (hnext _ ?_) (hnext _ ?_) (hnext _ ?_)
    · intro c t hr
      obtain ⟨h3, h4⟩ := h1 c t hr
      simp [digitOrPoint, h3, h4]
    · intro c h; simp [h.1]
    · intro c h; simp [h.2.1]
    · intro c h; simp [h.2.2]
  unfold parsePluralCondition
  rw [parseCondition_list (cond_not_blank (.inl h)), h3]

example : (parsePluralCondition 64 c!"n = 1 rubbish" ).toOption = some [[⟨⟨.N, none⟩, .EQ, [.value 1]⟩]] ∧
    (parsePluralRule 64 c!"n = 1 rubbish").isOk = false := by decide +kernel

/-- C32: samples after a condition do not change it. -/
theorem C32_samples (s t : Str) (c : Condition) (x : Samples) (hs : CondText bits s c) (ht : SamplesText bits t x) :
    parsePluralRule bits s = .ok ⟨c, none⟩ ∧ parsePluralRule bits (s ++ t) = .ok ⟨c, some x⟩ ∧
    parsePluralCondition bits s = .ok c ∧ parsePluralCondition bits (s ++ t) = .ok c := by
  have h1 : parsePluralRule bits s = .ok ⟨c, none⟩ := parsePluralRule_ok.2 (.cond hs)
  have h2 : parsePluralRule bits (s ++ t) = .ok ⟨c, some x⟩ := parsePluralRule_ok.2 (.full hs ht)
  exact ⟨h1, h2, C31_agree bits _ _ h1, C31_agree bits _ _ h2⟩

example : ∃ s t c x, CondText 64 s c ∧ SamplesText 64 t x ∧ s ++ t = printRule sampleRule := by
  refine ⟨printCondition sampleRule.condition, _, _, _, printCondition_text ⟨by simp [sampleRule], by simp [sampleRule]⟩ ?_,
    printSamples_text (s := ⟨some ⟨[⟨⟨2, none⟩, some ⟨4, none⟩⟩], true⟩, some ⟨[⟨⟨0, some 5⟩, none⟩, ⟨⟨1, some 0⟩, none⟩], false⟩⟩) ?_ ?_ ?_, rfl⟩
  · simp [sampleRule, relNumbers, itemNumbers]
  · simp [SamplesOk]
  · simp [sampleNumbers]
  · simp [sampleNumbers]

/-- C33: blank text, and text whose first character after white space is `@`, is the empty rule. -/
theorem C33_empty (s : Str) (h : NoCondition s) :
    parsePluralRule bits s = .ok ⟨[], none⟩ ∧ parsePluralCondition bits s = .ok [] := by
  have h1 : parsePluralRule bits s = .ok ⟨[], none⟩ := parsePluralRule_ok.2 (.empty h)
  exact ⟨h1, C31_agree bits _ _ h1⟩

/-- C33: and no other text is. -/
theorem C33_only (s : Str) (r : Rule) (h : parsePluralRule bits s = .ok r) (hr : r.condition = []) : NoCondition s := by
  replace h := parsePluralRule_ok.1 h
  cases h with
  | empty h => exact h
  | cond h => exact absurd hr (CondText.ok h).1
  | openCond h => obtain ⟨A, B, e, op, rfl, -, -⟩ := OpenCondText.shape h; simp at hr
  | full h _ => exact absurd hr (CondText.ok h).1

example : NoCondition c!" \n @integer not even samples" :=
  ⟨c!" \n ", _, by decide +kernel, rfl, .inr ⟨_, rfl⟩⟩

/-! ## C34, C35 -/

/-- C34: all numbers of a parsed rule are below `2 ^ bits` (that they are the written ones is part of C27). -/
theorem C34_numbers (s : Str) (r : Rule) (h : parsePluralRule bits s = .ok r) : ruleNumbers (· < 2 ^ bits) r :=
  (parsePluralRule_ok.1 h).numbers

/-- C34: a text that denotes a rule with a number of `2 ^ bits` or more (that is, with room for larger numbers) is rejected. -/
theorem C34_too_large (bits' : Nat) (s : Str) (r : Rule) (h : RuleText bits' s r) (hr : ¬ ruleNumbers (· < 2 ^ bits) r) :
    ∃ e, parsePluralRule bits s = .error e := by
  cases h1 : parsePluralRule bits s with
  | error e => exact ⟨e, rfl⟩
  | ok r' =>
    have h2 := parsePluralRule_ok.1 h1
    have h3 := h2.numbers
    have h4 := parsePluralRule_ok.2 (RuleText.mono (le_max_left bits bits') h2)
    have h5 := parsePluralRule_ok.2 (RuleText.mono (le_max_right bits bits') h)
    rw [h4] at h5
    cases h5
    exact absurd h3 hr

example : (parsePluralRule 64 c!"n = 18446744073709551616").isOk = false ∧ (parsePluralRule 64 c!"n = 18446744073709551615").isOk = true ∧
    (parsePluralRule 65 c!"n = 18446744073709551616").toOption = some ⟨[[⟨⟨.N, none⟩, .EQ, [.value 18446744073709551616]⟩]], none⟩ := by
  decide +kernel

example : ¬ ruleNumbers (· < 2 ^ 64) ⟨[[⟨⟨.N, none⟩, .EQ, [.value 18446744073709551616]⟩]], none⟩ := by
  simp [ruleNumbers, relNumbers, itemNumbers]

/-- C35: the shape of a parsed rule: empty; or all lists non-empty; or the last list of the last and-condition, and only that, empty
and no samples. -/
theorem C35_shape (s : Str) (r : Rule) (h : parsePluralRule bits s = .ok r) :
    (NoCondition s ∧ r = ⟨[], none⟩) ∨
    (¬ NoCondition s ∧ CondOk r.condition ∧ ∀ x, r.samples = some x → SamplesOk x) ∨
    (¬ NoCondition s ∧ r.samples = none ∧ ∃ A B e op, r.condition = A ++ [B ++ [⟨e, op, []⟩]] ∧
      (∀ a ∈ A, a ≠ [] ∧ ∀ r ∈ a, r.rangeList ≠ []) ∧ ∀ r ∈ B, r.rangeList ≠ []) := by
  replace h := parsePluralRule_ok.1 h
  cases h with
  | empty h => exact .inl ⟨h, rfl⟩
  | cond h =>
    refine .inr (.inl ⟨?_, CondText.ok h, by simp⟩)
    simpa using cond_not_blank (r := []) (.inl h)
  | openCond h =>
    refine .inr (.inr ⟨?_, rfl, OpenCondText.shape h⟩)
    simpa using cond_not_blank (r := []) (.inr h)
  | full h ht =>
    refine .inr (.inl ⟨cond_not_blank (.inl h), CondText.ok h, ?_⟩)
    rintro x ⟨⟩
    exact ht.ok

/-- C35: so there is at least one and-condition, with at least one relation each. -/
theorem C35_nonempty (s : Str) (r : Rule) (h : parsePluralRule bits s = .ok r) (hs : ¬ NoCondition s) :
    r.condition ≠ [] ∧ ∀ a ∈ r.condition, a ≠ [] := by
  rcases C35_shape bits s r h with ⟨h, -⟩ | ⟨-, h, -⟩ | ⟨-, -, A, B, e, op, h, hA, -⟩
  · contradiction
  · exact ⟨h.1, fun a ha => (h.2 a ha).1⟩
  · rw [h]
    refine ⟨by simp, ?_⟩
    intro a ha
    rcases List.mem_append.1 ha with ha | ha
    · exact (hA a ha).1
    · rw [List.mem_singleton.1 ha]; simp

example : ([[⟨⟨.N, none⟩, .EQ, []⟩]] : Condition) ≠ [] ∧ ∀ a ∈ ([[⟨⟨.N, none⟩, .EQ, []⟩]] : Condition), a ≠ [] :=
  C35_nonempty 64 c!"n = " ⟨[[⟨⟨.N, none⟩, .EQ, []⟩]], none⟩ (by with_unfolding_all rfl) (by
    rintro ⟨a, b, h1, h2, h3⟩
    cases a with
    | nil => rcases h3 with h3 | ⟨t, h3⟩ <;> (simp only [h3, List.nil_append] at h2; cases h2)
    | cons c t =>
      rw [List.cons_append, List.cons.injEq] at h2
      exact absurd (h1 'n' (by simp [← h2.1])) (by decide))

/-- C35: the list may be missing. -/
theorem C35_empty_list : parsePluralRule bits c!"i =" = .ok ⟨[[⟨⟨.I, none⟩, .EQ, []⟩]], none⟩ :=
  parsePluralRule_ok.2 (.openCond (.last (.last (OpenText.mk (s := c!"i") (a := c!" ") (o := c!"=") (b := []) (.plain .I)
    (by simp [Spaces]) .eq (by simp [Spaces])))))

/-! ## C36, C37 -/

/-- C36: `and` binds tighter than `or`, in the tree and in the meaning. -/
theorem C36_precedence (a b c m m' : Str) (x y z : Relation) (ha : RelText bits a x) (hb : RelText bits b y) (hc : RelText bits c z)
    (hm : Word c!"or" m) (hm' : Word c!"and" m') :
    parsePluralRule bits (a ++ (m ++ (b ++ (m' ++ c)))) = .ok ⟨[[x], [y, z]], none⟩ ∧
    parsePluralRule bits (a ++ (m' ++ b) ++ (m ++ c)) = .ok ⟨[[x, y], [z]], none⟩ ∧
    (∀ d, Holds d [[x], [y, z]] ↔ RelationHolds d x ∨ (RelationHolds d y ∧ RelationHolds d z)) ∧
    (∀ d, Holds d [[x, y], [z]] ↔ (RelationHolds d x ∧ RelationHolds d y) ∨ RelationHolds d z) := by
  refine ⟨parsePluralRule_ok.2 (.cond (.cons (.last ha) hm (.last (.cons hb hm' (.last hc))))),
    parsePluralRule_ok.2 (.cond (.cons (.cons ha hm' (.last hb)) hm (.last (.last hc)))), ?_, ?_⟩ <;> intro d <;> simp [Holds]

example : (parsePluralRule 64 c!"n = 1 or n = 2 and v = 0").toOption =
    some ⟨[[⟨⟨.N, none⟩, .EQ, [.value 1]⟩], [⟨⟨.N, none⟩, .EQ, [.value 2]⟩, ⟨⟨.V, none⟩, .EQ, [.value 0]⟩]], none⟩ := by decide +kernel

/-- C37: a text denotes at most one rule. -/
theorem C37_deterministic (s : Str) (r r' : Rule) (h : RuleText bits s r) (h' : RuleText bits s r') : r = r' := by
  have h1 := parsePluralRule_ok.2 h
  rw [parsePluralRule_ok.2 h'] at h1
  cases h1; rfl

example (r : Rule) (h : RuleText 64 c!"n=1" r) : r = ⟨[[⟨⟨.N, none⟩, .EQ, [.value 1]⟩]], none⟩ :=
  C37_deterministic 64 _ _ _ h (C27_sound 64 _ _ (by with_unfolding_all rfl))

/-- C37: printing is injective. -/
theorem C37_injective (r r' : Rule) (h : RuleOk bits r) (h' : RuleOk bits r') (he : printRule r = printRule r') : r = r' := by
  have h1 := printRule_text h
  rw [he] at h1
  exact C37_deterministic bits _ _ _ h1 (printRule_text h')

example : RuleOk 64 ⟨[[⟨⟨.N, some 10⟩, .NotIn, [.range 2 3]⟩]], none⟩ ∧ RuleOk 64 ⟨[[⟨⟨.N, none⟩, .EQ, [.value 1]⟩]], none⟩ := by
  refine ⟨⟨⟨by simp, by simp⟩, by simp, by simp [relNumbers, itemNumbers], by simp⟩, ⟨⟨by simp, by simp⟩, by simp, by simp [relNumbers, itemNumbers], by simp⟩⟩

end Verif.Props
