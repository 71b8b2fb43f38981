import Verif.ParserSteps
import Mathlib.Tactic.Linarith

/-!
# C105: the parser does not go back and forth
-/

namespace Verif.Props
open Verif Steps

namespace StepCount

/-! ## The results are those of the parser -/

/-- The results of a parser with its steps. -/
def Erases (p : PS α) (q : P α) : Prop := ∀ i, (p i).2 = q i

theorem Erases.map {p : PS α} {q : P α} (h : Erases p q) (f : α → β) : Erases (Steps.map p f) (Nom.map q f) := by
  intro i
  simp only [Steps.map, Nom.map, h i]
  rfl

theorem Erases.mapRes {p : PS Str} {q : P Str} (h : Erases p q) (f : Str → Option β) : Erases (Steps.mapRes p f) (Nom.mapRes q f) := by
  intro i
  have h := h i
  simp only [Steps.mapRes, Nom.mapRes]
  rw [← h]
  cases (p i).2 <;> rfl

theorem Erases.opt {p : PS α} {q : P α} (h : Erases p q) : Erases (Steps.opt p) (Nom.opt q) := by
  intro i
  simp only [Steps.opt, Nom.opt, h i]
  rfl

theorem Erases.alt {p p' : PS α} {q q' : P α} (h : Erases p q) (h' : Erases p' q') : Erases (Steps.alt p p') (Nom.alt q q') := by
  intro i
  have h := h i
  simp only [Steps.alt, Nom.alt]
  rw [← h, ← h' i]
  cases (p i).2 <;> rfl

theorem Erases.pair {p : PS α} {p' : PS β} {q : P α} {q' : P β} (h : Erases p q) (h' : Erases p' q') :
    Erases (Steps.pair p p') (Nom.pair q q') := by
  intro i
  have h := h i
  simp only [Steps.pair, Nom.pair]
  rw [← h]
  cases (p i).2 with
  | none => rfl
  | some x => simp only [h' x.1]; rfl

theorem Erases.preceded {p : PS α} {p' : PS β} {q : P α} {q' : P β} (h : Erases p q) (h' : Erases p' q') :
    Erases (Steps.preceded p p') (Nom.preceded q q') := (h.pair h').map _

theorem Erases.loop {sep : PS σ} {f : PS α} {sep' : P σ} {f' : P α} (hs : Erases sep sep') (hf : Erases f f') (fuel : Nat) (i : Str)
    (acc : List α) : (Steps.sepLoop sep f fuel i acc).2 = Nom.sepLoop sep' f' fuel i acc := by
  induction fuel generalizing i acc with
  | zero => rfl
  | succ fuel ih =>
    rw [Steps.sepLoop.eq_def, Nom.sepLoop.eq_def]
    dsimp only
    rw [← hs i]
    cases (sep i).2 with
    | none => rfl
    | some x =>
      obtain ⟨i1, a⟩ := x
      dsimp only
      split
      · rfl
      · rw [← hf i1]
        cases (f i1).2 with
        | none => rfl
        | some y =>
          obtain ⟨i2, o⟩ := y
          dsimp only
          split
          · rfl
          · exact ih _ _

theorem Erases.list {sep : PS σ} {f : PS α} {sep' : P σ} {f' : P α} (hs : Erases sep sep') (hf : Erases f f') :
    Erases (Steps.separatedList sep f) (Nom.separatedList sep' f') := by
  intro i
  have h := hf i
  simp only [Steps.separatedList, Nom.separatedList]
  rw [← h]
  cases (f i).2 with
  | none => rfl
  | some x =>
    obtain ⟨i1, o⟩ := x
    dsimp only
    split
    · rfl
    · exact Erases.loop hs hf _ _ _

theorem Erases.nonempty {sep : PS σ} {f : PS α} {sep' : P σ} {f' : P α} (hs : Erases sep sep') (hf : Erases f f') :
    Erases (Steps.separatedNonemptyList sep f) (Nom.separatedNonemptyList sep' f') := by
  intro i
  have h := hf i
  simp only [Steps.separatedNonemptyList, Nom.separatedNonemptyList]
  rw [← h]
  cases (f i).2 with
  | none => rfl
  | some x =>
    obtain ⟨i1, o⟩ := x
    dsimp only
    split
    · rfl
    · exact Erases.loop hs hf _ _ _

theorem Erases.tag (t : Str) : Erases (Steps.tag t) (Nom.tag t) := fun _ => rfl
theorem Erases.space0 : Erases Steps.space0 Nom.space0 := fun _ => rfl
theorem Erases.space1 : Erases Steps.space1 Nom.space1 := fun _ => rfl

section
variable (bits : Nat)

theorem Erases.value : Erases (Steps.value bits) (Parser.value bits) := Erases.mapRes (fun _ => rfl) _
theorem Erases.commaSep : Erases Steps.commaSep Parser.commaSep := .pair .space0 (.pair (.tag _) .space0)
theorem Erases.rangeListItem : Erases (Steps.rangeListItem bits) (Parser.rangeListItem bits) :=
  .alt (.map (.map (.pair (.value bits) (.pair (.tag _) (.value bits))) _) _) (.map (.value bits) _)
theorem Erases.rangeList : Erases (Steps.rangeList bits) (Parser.rangeList bits) := .list .commaSep (.rangeListItem bits)
theorem Erases.expression : Erases (Steps.expression bits) (Parser.expression bits) :=
  .map (.pair (.map (fun _ => rfl) _)
    (.opt (.preceded (.pair .space0 (.pair (.alt (.tag _) (.tag _)) .space1)) (.value bits)))) _
theorem Erases.relationOperator : Erases Steps.relationOperator Parser.relationOperator :=
  .alt (.map (.tag _) _) <| .alt (.map (.tag _) _) <| .alt (.map (.pair (.tag _) (.pair .space1 (.opt (.tag _)))) _) <|
    .alt (.map (.tag _) _) <| .alt (.map (.pair (.tag _) (.pair .space1 (.alt (.map (.tag _) _) (.map (.tag _) _)))) _) <|
    .map (.tag _) _
theorem Erases.relation : Erases (Steps.relation bits) (Parser.relation bits) :=
  .map (.pair (.expression bits) (.pair .space0 (.pair .relationOperator (.pair .space0 (.rangeList bits))))) _
theorem Erases.andCondition : Erases (Steps.andCondition bits) (Parser.andCondition bits) :=
  .nonempty (.pair .space1 (.pair (.tag _) .space1)) (.relation bits)
theorem Erases.decimalValue : Erases (Steps.decimalValue bits) (Parser.decimalValue bits) :=
  .map (.pair (.value bits) (.opt (.preceded (.tag _) (.value bits)))) _
theorem Erases.sampleRange : Erases (Steps.sampleRange bits) (Parser.sampleRange bits) :=
  .map (.pair (.decimalValue bits) (.opt (.preceded (.pair .space0 (.pair (.tag _) .space0)) (.decimalValue bits)))) _
theorem Erases.sampleList : Erases (Steps.sampleList bits) (Parser.sampleList bits) :=
  .map (.pair (.nonempty .commaSep (.sampleRange bits)) (.opt (.preceded .commaSep (.alt (.tag _) (.tag _))))) _
theorem Erases.samples : Erases (Steps.samples bits) (Parser.samples bits) :=
  .map (.pair (.opt (.preceded (.pair .space1 (.pair (.tag _) .space1)) (.sampleList bits)))
    (.opt (.preceded (.pair .space1 (.pair (.tag _) .space1)) (.sampleList bits)))) _
theorem Erases.parseCondition : Erases (Steps.parseCondition bits) (Parser.parseCondition bits) := by
  intro i
  unfold Steps.parseCondition Parser.parseCondition
  split
  · rfl
  · split
    · rfl
    · exact Erases.nonempty (.pair .space1 (.pair (.tag _) .space1)) (.andCondition bits) i
theorem Erases.parseRule : Erases (Steps.parseRule bits) (Parser.parseRule bits) :=
  .map (.pair (.parseCondition bits) (.samples bits)) _

end

/-! ## Inversion -/

theorem map_some {p : PS α} {f : α → β} {i r : Str} {b : β} (h : (Steps.map p f i).2 = some (r, b)) : ∃ a, (p i).2 = some (r, a) := by
  simp only [Steps.map] at h
  cases hp : (p i).2 with
  | none => rw [hp] at h; cases h
  | some x => rw [hp] at h; cases h; exact ⟨x.2, rfl⟩

theorem map_none {p : PS α} {f : α → β} {i : Str} (h : (Steps.map p f i).2 = none) : (p i).2 = none := by
  simp only [Steps.map] at h
  cases hp : (p i).2 with
  | none => rfl
  | some x => rw [hp] at h; cases h

theorem pair_some {p : PS α} {q : PS β} {i r' : Str} {c : α × β} (h : (Steps.pair p q i).2 = some (r', c)) :
    ∃ r a b, (p i).2 = some (r, a) ∧ (q r).2 = some (r', b) ∧ (Steps.pair p q i).1 = (p i).1 + (q r).1 := by
  simp only [Steps.pair] at h ⊢
  cases hp : (p i).2 with
  | none => rw [hp] at h; cases h
  | some x =>
    rw [hp] at h
    dsimp only at h
    cases hq : (q x.1).2 with
    | none => rw [hq] at h; cases h
    | some y => rw [hq] at h; cases h; exact ⟨x.1, x.2, y.2, rfl, hq, rfl⟩

theorem pair_none {p : PS α} {q : PS β} {i : Str} (h : (Steps.pair p q i).2 = none) :
    ((p i).2 = none ∧ (Steps.pair p q i).1 = (p i).1) ∨
    ∃ r a, (p i).2 = some (r, a) ∧ (q r).2 = none ∧ (Steps.pair p q i).1 = (p i).1 + (q r).1 := by
  simp only [Steps.pair] at h ⊢
  cases hp : (p i).2 with
  | none => exact .inl ⟨rfl, rfl⟩
  | some x =>
    rw [hp] at h
    dsimp only at h
    cases hq : (q x.1).2 with
    | none => exact .inr ⟨x.1, x.2, rfl, hq, rfl⟩
    | some y => rw [hq] at h; cases h

theorem alt_some {p q : PS α} {i r : Str} {a : α} (h : (Steps.alt p q i).2 = some (r, a)) :
    ((p i).2 = some (r, a) ∧ (Steps.alt p q i).1 = (p i).1) ∨
    ((p i).2 = none ∧ (q i).2 = some (r, a) ∧ (Steps.alt p q i).1 = (p i).1 + (q i).1) := by
  simp only [Steps.alt] at h ⊢
  cases hp : (p i).2 with
  | none => rw [hp] at h; exact .inr ⟨rfl, h, rfl⟩
  | some x => rw [hp] at h; exact .inl ⟨h, rfl⟩

theorem alt_none {p q : PS α} {i : Str} (h : (Steps.alt p q i).2 = none) :
    (p i).2 = none ∧ (q i).2 = none ∧ (Steps.alt p q i).1 = (p i).1 + (q i).1 := by
  simp only [Steps.alt] at h ⊢
  cases hp : (p i).2 with
  | none => rw [hp] at h; exact ⟨rfl, h, rfl⟩
  | some x => rw [hp] at h; cases h

theorem opt_some {p : PS α} {i r : Str} {a : Option α} (h : (Steps.opt p i).2 = some (r, a)) :
    (∃ a, (p i).2 = some (r, a)) ∨ ((p i).2 = none ∧ r = i) := by
  simp only [Steps.opt] at h
  cases hp : (p i).2 with
  | none => rw [hp] at h; cases h; exact .inr ⟨rfl, rfl⟩
  | some x => rw [hp] at h; cases h; exact .inl ⟨_, rfl⟩

/-! ## The primitive parsers -/

/-- Spaces at the beginning. -/
def spaces (i : Str) : Nat := (i.takeWhile Nom.isSpace).length

/-- Digits at the beginning. -/
def digits (i : Str) : Nat := (i.takeWhile isDigit).length

theorem length_while (p : Char → Bool) (i : Str) : (i.takeWhile p).length + (i.dropWhile p).length = i.length := by
  rw [← List.length_append, List.takeWhile_append_dropWhile]

theorem space0_some {i r : Str} {a : Str} (h : (Steps.space0 i).2 = some (r, a)) :
    r = i.dropWhile Nom.isSpace ∧ (Steps.space0 i).1 = spaces i + 1 ∧ spaces i + r.length = i.length := by
  cases h
  exact ⟨rfl, rfl, length_while _ _⟩

theorem space1_some {i r : Str} {a : Str} (h : (Steps.space1 i).2 = some (r, a)) :
    r = i.dropWhile Nom.isSpace ∧ (Steps.space1 i).1 = spaces i + 1 ∧ spaces i + r.length = i.length ∧ 1 ≤ spaces i := by
  simp only [Steps.space1, Nom.space1] at h
  split at h
  · cases h
  · rename_i h1
    cases h
    refine ⟨rfl, rfl, length_while _ _, ?_⟩
    rw [List.isEmpty_iff] at h1
    exact List.length_pos_iff.2 h1

theorem space1_none {i : Str} (h : (Steps.space1 i).2 = none) : (Steps.space1 i).1 = 1 ∧ spaces i = 0 := by
  simp only [Steps.space1, Nom.space1] at h
  split at h
  · rename_i h1
    rw [List.isEmpty_iff] at h1
    simp [Steps.space1, spaces, h1]
  · cases h

theorem compared_le (t i : Str) : compared t i ≤ t.length ∧ compared t i ≤ i.length := by
  induction t generalizing i with
  | nil => simp [compared]
  | cons a t ih =>
    cases i with
    | nil => simp [compared]
    | cons c i =>
      have := ih i
      simp only [compared, List.length_cons]
      split <;> omega

theorem tag_steps (t i : Str) : (Steps.tag t i).1 ≤ t.length + 1 := by
  have := (compared_le t i).1
  simp only [Steps.tag]; omega

theorem tag_some {t i r a : Str} (h : (Steps.tag t i).2 = some (r, a)) : i = t ++ r ∧ t.length + r.length = i.length := by
  simp only [Steps.tag, Nom.tag] at h
  split at h
  · rename_i h1
    obtain ⟨u, rfl⟩ := List.isPrefixOf_iff_prefix.1 h1
    cases h
    simp
  · cases h

theorem value_some {bits : Nat} {i r : Str} {n : Nat} (h : (Steps.value bits i).2 = some (r, n)) :
    r = i.dropWhile isDigit ∧ (Steps.value bits i).1 = 2 * digits i + 1 ∧ digits i + r.length = i.length ∧ 1 ≤ digits i := by
  simp only [Steps.value, Steps.mapRes, Steps.digit1, Nom.digit1] at h ⊢
  by_cases h1 : (i.takeWhile isDigit).isEmpty = true
  · rw [if_pos h1] at h; cases h
  · rw [if_neg h1] at h ⊢
    dsimp only at h ⊢
    have h2 : 1 ≤ digits i := by
      rw [List.isEmpty_iff] at h1
      exact List.length_pos_iff.2 h1
    cases hp : parseUnsigned bits (i.takeWhile isDigit) with
    | none => rw [hp] at h; cases h
    | some m =>
      rw [hp] at h; cases h
      exact ⟨rfl, by unfold digits; omega, length_while _ _, h2⟩

theorem value_steps (bits : Nat) (i : Str) : (Steps.value bits i).1 ≤ 2 * digits i + 1 := by
  simp only [Steps.value, Steps.mapRes, Steps.digit1, Nom.digit1]
  by_cases h1 : (i.takeWhile isDigit).isEmpty = true
  · rw [if_pos h1]; unfold digits; dsimp only; omega
  · rw [if_neg h1]; unfold digits; dsimp only; omega

theorem digits_le (i : Str) : digits i ≤ i.length := by
  have := length_while isDigit i
  unfold digits; omega

theorem spaces_le (i : Str) : spaces i ≤ i.length := by
  have := length_while Nom.isSpace i
  unfold spaces; omega

/-! ## A bound for all outcomes -/

/-- At most `k` steps for each character and for the end, whatever the outcome, and the rest is not longer than the input. -/
def Crude (k : Nat) (p : PS α) : Prop :=
  ∀ i, (p i).1 ≤ k * (i.length + 1) ∧ ∀ r a, (p i).2 = some (r, a) → r.length ≤ i.length

theorem Crude.mono {k l : Nat} {p : PS α} (h : Crude k p) (hk : k ≤ l) : Crude l p :=
  fun i => ⟨(h i).1.trans (Nat.mul_le_mul_right _ hk), (h i).2⟩

theorem Crude.map {k : Nat} {p : PS α} (h : Crude k p) (f : α → β) : Crude k (Steps.map p f) :=
  fun i => ⟨(h i).1, fun r b hr => by obtain ⟨a, ha⟩ := map_some hr; exact (h i).2 r a ha⟩

theorem Crude.opt {k : Nat} {p : PS α} (h : Crude k p) : Crude k (Steps.opt p) :=
  fun i => ⟨(h i).1, fun r b hr => by
    rcases opt_some hr with ⟨a, ha⟩ | ⟨-, rfl⟩
    · exact (h i).2 r a ha
    · exact Nat.le_refl _⟩

theorem Crude.alt {k l : Nat} {p q : PS α} (h : Crude k p) (h' : Crude l q) : Crude (k + l) (Steps.alt p q) := by
  intro i
  have h1 := (h i).1
  have h2 := (h' i).1
  rw [Nat.add_mul]
  constructor
  · simp only [Steps.alt]
    cases (p i).2 <;> dsimp only <;> omega
  · intro r a hr
    rcases alt_some hr with ⟨h3, -⟩ | ⟨-, h3, -⟩
    · exact (h i).2 r a h3
    · exact (h' i).2 r a h3

theorem Crude.pair {k l : Nat} {p : PS α} {q : PS β} (h : Crude k p) (h' : Crude l q) : Crude (k + l) (Steps.pair p q) := by
  intro i
  have h1 := (h i).1
  rw [Nat.add_mul]
  constructor
  · simp only [Steps.pair]
    cases hp : (p i).2 with
    | none => dsimp only; omega
    | some x =>
      dsimp only
      have h2 := (h i).2 x.1 x.2 hp
      have h3 := (h' x.1).1
      have h4 : l * (x.1.length + 1) ≤ l * (i.length + 1) := Nat.mul_le_mul_left _ (by omega)
      omega
  · intro r' c hr
    obtain ⟨r, a, b, h2, h3, -⟩ := pair_some hr
    exact ((h' r).2 r' b h3).trans ((h i).2 r a h2)

theorem Crude.preceded {k l : Nat} {p : PS α} {q : PS β} (h : Crude k p) (h' : Crude l q) : Crude (k + l) (Steps.preceded p q) :=
  (h.pair h').map _

theorem Crude.space0 : Crude 1 Steps.space0 := fun i => by
  refine ⟨?_, fun r a h => ?_⟩
  · have := spaces_le i
    rw [(space0_some (i := i) rfl).2.1]; omega
  · have := (space0_some h).2.2
    omega

theorem Crude.space1 : Crude 1 Steps.space1 := fun i => by
  refine ⟨?_, fun r a h => ?_⟩
  · have := spaces_le i
    show spaces i + 1 ≤ _
    omega
  · have := (space1_some h).2.2.1
    omega

theorem Crude.tag (t : Str) : Crude 2 (Steps.tag t) := fun i => by
  refine ⟨?_, fun r a h => ?_⟩
  · have := (compared_le t i).2
    simp only [Steps.tag]; omega
  · have := (tag_some h).2
    omega

theorem Crude.value (bits : Nat) : Crude 2 (Steps.value bits) := fun i => by
  refine ⟨?_, fun r a h => ?_⟩
  · have := value_steps bits i
    have := digits_le i
    omega
  · have := (value_some h).2.2.1
    omega

theorem Crude.oneOf (cs : Str) : Crude 1 (Steps.oneOf cs) := fun i => by
  refine ⟨by simp only [Steps.oneOf]; omega, fun r a h => ?_⟩
  simp only [Steps.oneOf, Nom.oneOf] at h
  split at h
  · split at h
    · cases h; simp
    · cases h
  · cases h

/-! ## Lists -/

/-- The steps of the last attempt in a list, after which the list ends at `r`. -/
def stopSteps (sep : PS σ) (N : Nat) (r : Str) : Nat :=
  (sep r).1 + match (sep r).2 with
    | some x => N * (x.1.length + 1)
    | none => 0

/-- What is needed of the elements and the separators of a list: an element takes `K` steps for each character of
its text and `look` of the rest, at which it has looked ahead; if a separator follows, it takes what was looked at. -/
structure ListSteps (sep : PS σ) (f : PS α) (K N : Nat) (look : Str → Nat) : Prop where
  item : ∀ i r a, (f i).2 = some (r, a) → (f i).1 + K * r.length ≤ K * i.length + look r ∧ r.length < i.length
  none : ∀ i, (f i).2 = none → (f i).1 ≤ N * (i.length + 1)
  sep : ∀ i r a, (sep i).2 = some (r, a) → (sep i).1 + look i + K * r.length ≤ K * i.length ∧ r.length < i.length

theorem ListSteps.loop {sep : PS σ} {f : PS α} {K N : Nat} {look : Str → Nat} (h : ListSteps sep f K N look) (fuel : Nat) (i : Str)
    (acc : List α) (hi : i.length < fuel) : ∃ r l, (Steps.sepLoop sep f fuel i acc).2 = some (r, l) ∧ r.length ≤ i.length ∧
      (Steps.sepLoop sep f fuel i acc).1 + look i + K * r.length ≤ K * i.length + look r + stopSteps sep N r := by
  induction fuel generalizing i acc with
  | zero => omega
  | succ fuel ih =>
    rw [Steps.sepLoop.eq_def]
    dsimp only
    cases hs : (sep i).2 with
    | none =>
      refine ⟨i, _, rfl, Nat.le_refl _, ?_⟩
      simp only [stopSteps, hs]
      omega
    | some x =>
      obtain ⟨i1, a⟩ := x
      have hsep := h.sep i i1 a hs
      dsimp only
      rw [if_neg (by
        rw [beq_iff_eq]
        rintro rfl
        exact absurd hsep.2 (Nat.lt_irrefl _))]
      cases hf : (f i1).2 with
      | none =>
        refine ⟨i, _, rfl, Nat.le_refl _, ?_⟩
        have := h.none i1 hf
        simp only [stopSteps, hs]
        linarith
      | some y =>
        obtain ⟨i2, o⟩ := y
        have hitem := h.item i1 i2 o hf
        dsimp only
        rw [if_neg (by
          rw [beq_iff_eq]
          rintro rfl
          omega)]
        obtain ⟨r, l, h1, h2, h3⟩ := ih i2 (o :: acc) (by omega)
        exact ⟨r, l, h1, by omega, by omega⟩

theorem ListSteps.nonempty {sep : PS σ} {f : PS α} {K N : Nat} {look : Str → Nat} (h : ListSteps sep f K N look) (i : Str) :
    ((f i).2 = .none ∧ (Steps.separatedNonemptyList sep f i).2 = .none ∧ (Steps.separatedNonemptyList sep f i).1 = (f i).1) ∨
    ∃ r l, (Steps.separatedNonemptyList sep f i).2 = some (r, l) ∧ r.length < i.length ∧
      (Steps.separatedNonemptyList sep f i).1 + K * r.length ≤ K * i.length + look r + stopSteps sep N r := by
  simp only [Steps.separatedNonemptyList]
  cases hf : (f i).2 with
  | none => exact .inl ⟨rfl, rfl, rfl⟩
  | some x =>
    obtain ⟨i1, o⟩ := x
    have hitem := h.item i i1 o hf
    dsimp only
    rw [if_neg (by
      rw [beq_iff_eq]
      rintro rfl
      exact absurd hitem.2 (Nat.lt_irrefl _))]
    obtain ⟨r, l, h1, h2, h3⟩ := h.loop (i1.length + 1) i1 [o] (by omega)
    exact .inr ⟨r, l, h1, by omega, by omega⟩

theorem ListSteps.list {sep : PS σ} {f : PS α} {K N : Nat} {look : Str → Nat} (h : ListSteps sep f K N look) (i : Str) :
    ((f i).2 = .none ∧ (Steps.separatedList sep f i).2 = some (i, []) ∧ (Steps.separatedList sep f i).1 = (f i).1) ∨
    ∃ r l, (Steps.separatedList sep f i).2 = some (r, l) ∧ r.length < i.length ∧
      (Steps.separatedList sep f i).1 + K * r.length ≤ K * i.length + look r + stopSteps sep N r := by
  simp only [Steps.separatedList]
  cases hf : (f i).2 with
  | none => exact .inl ⟨rfl, rfl, rfl⟩
  | some x =>
    obtain ⟨i1, o⟩ := x
    have hitem := h.item i i1 o hf
    dsimp only
    rw [if_neg (by
      rw [beq_iff_eq]
      rintro rfl
      exact absurd hitem.2 (Nat.lt_irrefl _))]
    obtain ⟨r, l, h1, h2, h3⟩ := h.loop (i1.length + 1) i1 [o] (by omega)
    exact .inr ⟨r, l, h1, by omega, by omega⟩

/-! ## Conditions -/

theorem commaSep_some {i r : Str} {a : Str × Str × Str} (h : (Steps.commaSep i).2 = some (r, a)) :
    (i.dropWhile Nom.isSpace).head? = some ',' ∧ (Steps.commaSep i).1 ≤ spaces i + 3 + (i.length - spaces i - r.length) ∧
      spaces i + r.length < i.length := by
  obtain ⟨r1, _, _, h1, h, e⟩ := pair_some h
  obtain ⟨r2, _, _, h2, h3, e'⟩ := pair_some h
  obtain ⟨rfl, h4, h5⟩ := space0_some h1
  obtain ⟨h6, h7⟩ := tag_some h2
  obtain ⟨-, h8, h9⟩ := space0_some h3
  have h10 := tag_steps c!"," (i.dropWhile Nom.isSpace)
  simp only [List.length_cons, List.length_nil] at h7 h10
  refine ⟨by rw [h6]; rfl, ?_, ?_⟩
  · rw [Steps.commaSep, e, e']; omega
  · omega

theorem commaSep_none {i : Str} (h : (Steps.commaSep i).2 = none) : (Steps.commaSep i).1 ≤ spaces i + 3 := by
  rcases pair_none h with ⟨h, -⟩ | ⟨r, a, h1, h, e⟩
  · cases h
  · have h4 := (space0_some h1).2.1
    have h10 := tag_steps c!"," r
    simp only [List.length_cons, List.length_nil] at h10
    rcases pair_none h with ⟨-, e'⟩ | ⟨_, _, _, h, -⟩
    · rw [Steps.commaSep, e, e']; omega
    · cases h

/-- After a value the parser may have looked at a number after two points. -/
def lookPoint (r : Str) : Nat := if r.head? = some '.' then r.length + 1 else 0

theorem rangeListItem_steps (bits : Nat) : Crude 8 (Steps.rangeListItem bits) :=
  ((((Crude.value bits).pair ((Crude.tag _).pair (Crude.value bits))).map _).map _).alt ((Crude.value bits).map _)

theorem rangeListItem_some {bits : Nat} {i r : Str} {a : RangeListItem} (h : (Steps.rangeListItem bits i).2 = some (r, a)) :
    (Steps.rangeListItem bits i).1 + 9 * r.length ≤ 9 * i.length + 2 * lookPoint r ∧ r.length < i.length := by
  rcases alt_some h with ⟨h, e⟩ | ⟨hn, h, e⟩
  · obtain ⟨_, h⟩ := map_some h
    obtain ⟨_, h⟩ := map_some h
    obtain ⟨r1, _, _, h1, h, e1⟩ := pair_some h
    obtain ⟨r2, _, _, h2, h3, e2⟩ := pair_some h
    have h4 := value_some h1
    have h5 := (tag_some h2).2
    have h6 := tag_steps c!".." r1
    have h7 := value_some h3
    simp only [List.length_cons, List.length_nil] at h5 h6
    have e3 : (Steps.rangeListItem bits i).1 = (Steps.value bits i).1 + ((Steps.tag c!".." r1).1 + (Steps.value bits r2).1) := by
      rw [Steps.rangeListItem, e, ← e2, ← e1]; rfl
    omega
  · obtain ⟨_, h⟩ := map_some h
    have h4 := value_some h
    have hn := map_none (map_none hn)
    have h6 := tag_steps c!".." r
    simp only [List.length_cons, List.length_nil] at h6
    have e3 : (Steps.rangeListItem bits i).1 = (Steps.pair (Steps.value bits) (Steps.pair (Steps.tag c!"..") (Steps.value bits)) i).1 +
        (Steps.value bits i).1 := by
      rw [Steps.rangeListItem, e]; rfl
    rcases pair_none hn with ⟨h1, -⟩ | ⟨r1, _, h1, h2, e1⟩
    · rw [h1] at h; cases h
    · obtain rfl : r = r1 := by rw [h1] at h; cases h; rfl
      rcases pair_none h2 with ⟨-, e2⟩ | ⟨r2, _, h3, -, e2⟩
      · omega
      · have h7 := tag_some h3
        have h8 := value_steps bits r2
        have h9 := digits_le r2
        have h10 : lookPoint r = r.length + 1 := by rw [lookPoint, if_pos (by rw [h7.1]; rfl)]
        have h11 := h7.2
        simp only [List.length_cons, List.length_nil] at h11
        omega

theorem rangeList_item (bits : Nat) : ListSteps Steps.commaSep (Steps.rangeListItem bits) 9 8 (fun r => 2 * lookPoint r) where
  item i r a h := by have := rangeListItem_some h; omega
  none i _ := by have := (rangeListItem_steps bits i).1; omega
  sep i r a h := by
    obtain ⟨h1, h2, h3⟩ := commaSep_some h
    have h4 : lookPoint i = 0 := by
      rw [lookPoint, if_neg]
      intro h4
      cases i with
      | nil => cases h4
      | cons c t =>
        obtain rfl : c = '.' := by simpa using h4
        exact absurd h1 (by simp [List.dropWhile, Nom.isSpace])
    omega

/-- Spaces follow, and then a letter of a conjunction. -/
def Word (cs : Str) (r : Str) : Prop := 1 ≤ spaces r ∧ ∃ c ∈ cs, (r.dropWhile Nom.isSpace).head? = some c

instance (cs r : Str) : Decidable (Word cs r) := inferInstanceAs (Decidable (_ ∧ _))

/-- At what follows the parser has looked ahead: over spaces only, if a conjunction follows. -/
def lookWord (cs : Str) (b n : Nat) (r : Str) : Nat := if Word cs r then b * spaces r + 5 * b else n * (r.length + 1)

theorem lookWord_le (cs : Str) (b n : Nat) (h : 5 * b ≤ n) (r : Str) : lookWord cs b n r ≤ n * (r.length + 1) := by
  have h1 := spaces_le r
  unfold lookWord
  split
  · have h2 : b * spaces r ≤ n * r.length := Nat.mul_le_mul (by omega) h1
    rw [Nat.mul_add]; omega
  · exact Nat.le_refl _

theorem spaces_head {r : Str} (h : 1 ≤ spaces r) : ∃ c t, r = c :: t ∧ Nom.isSpace c = true := by
  cases r with
  | nil => simp [spaces] at h
  | cons c t =>
    refine ⟨c, t, rfl, ?_⟩
    by_contra hc
    rw [Bool.not_eq_true] at hc
    simp [spaces, List.takeWhile, hc] at h

theorem stop_comma_word {N : Nat} {r : Str} (h : Word c!"ao" r) : stopSteps Steps.commaSep N r ≤ spaces r + 3 := by
  obtain ⟨-, c, hc, h2⟩ := h
  unfold stopSteps
  cases hs : (Steps.commaSep r).2 with
  | none => exact commaSep_none hs
  | some x =>
    have := (commaSep_some (a := x.2) hs).1
    rw [h2] at this
    cases this
    exact absurd hc (by decide)

theorem Crude.commaSep : Crude 4 Steps.commaSep := Crude.space0.pair ((Crude.tag _).pair .space0)

theorem Crude.stop {sep : PS σ} {k : Nat} (h : Crude k sep) (K : Nat) (r : Str) : stopSteps sep K r ≤ (k + K) * (r.length + 1) := by
  unfold stopSteps
  have h1 := (h r).1
  rw [Nat.add_mul]
  cases hs : (sep r).2 with
  | none => dsimp only; omega
  | some x =>
    have h2 := (h r).2 x.1 x.2 hs
    have h3 : K * (x.1.length + 1) ≤ K * (r.length + 1) := Nat.mul_le_mul_left _ (by omega)
    dsimp only; linarith

theorem rangeList_some {bits : Nat} {i r : Str} {a : List RangeListItem} (h : (Steps.rangeList bits i).2 = some (r, a)) :
    (Steps.rangeList bits i).1 + 9 * r.length ≤ 9 * i.length + lookWord c!"ao" 1 14 r ∧ r.length ≤ i.length := by
  rcases (rangeList_item bits).list i with ⟨h1, h2, h3⟩ | ⟨r', l, h1, h2, h3⟩
  · rw [Steps.rangeList, h2] at h
    cases h
    rw [Steps.rangeList, h3]
    refine ⟨?_, Nat.le_refl _⟩
    have h4 := (rangeListItem_steps bits i).1
    unfold lookWord
    split
    · rename_i hw
      obtain ⟨c, t, rfl, hc⟩ := spaces_head hw.1
      have h5 : digits (c :: t) = 0 := by
        have : isDigit c = false := by
          simp only [Nom.isSpace, Bool.or_eq_true, beq_iff_eq] at hc
          rcases hc with rfl | rfl <;> decide
        simp [digits, List.takeWhile, this]
      obtain ⟨h6, h7, e⟩ := alt_none h1
      have h6 := map_none (map_none h6)
      have h8 := value_steps bits (c :: t)
      have e3 : (Steps.rangeListItem bits (c :: t)).1 =
          (Steps.pair (Steps.value bits) (Steps.pair (Steps.tag c!"..") (Steps.value bits)) (c :: t)).1 + (Steps.value bits (c :: t)).1 := by
        rw [Steps.rangeListItem, e]; rfl
      rcases pair_none h6 with ⟨-, e'⟩ | ⟨r1, _, h9, -⟩
      · omega
      · have := (value_some h9).2.2.2
        omega
    · omega
  · rw [Steps.rangeList, h1] at h
    cases h
    refine ⟨?_, by omega⟩
    rw [Steps.rangeList]
    unfold lookWord
    split
    · rename_i hw
      have h4 := stop_comma_word (N := 8) hw
      obtain ⟨c, t, rfl, hc⟩ := spaces_head hw.1
      have h5 : lookPoint (c :: t) = 0 := by
        rw [lookPoint, if_neg]
        intro h
        obtain rfl : c = '.' := by simpa using h
        cases hc
      omega
    · have h4 := Crude.commaSep.stop 8 r
      have h5 : lookPoint r ≤ r.length + 1 := by unfold lookPoint; split <;> omega
      omega

theorem Crude.rangeList (bits : Nat) : Crude 14 (Steps.rangeList bits) := fun i => by
  have hl : ∀ r, lookWord c!"ao" 1 14 r ≤ 14 * (r.length + 1) := lookWord_le _ _ _ (by decide)
  constructor
  · cases h : (Steps.rangeList bits i).2 with
    | none =>
      rcases (rangeList_item bits).list i with ⟨-, h2, -⟩ | ⟨r, l, h2, -⟩ <;> rw [Steps.rangeList, h2] at h <;> cases h
    | some x =>
      have h1 := rangeList_some (a := x.2) h
      have h2 := hl x.1
      omega
  · intro r a h
    exact (rangeList_some h).2

theorem Crude.operator : Crude 20 Steps.relationOperator :=
  ((Crude.tag _).map _).alt <| ((Crude.tag _).map _).alt <| (((Crude.tag _).pair (Crude.space1.pair (Crude.tag _).opt)).map _).alt <|
    ((Crude.tag _).map _).alt <| (((Crude.tag _).pair (Crude.space1.pair (((Crude.tag _).map _).alt ((Crude.tag _).map _)))).map _).alt
    ((Crude.tag _).map _)

theorem Crude.expression (bits : Nat) : Crude 9 (Steps.expression bits) :=
  (((Crude.oneOf _).map _).pair ((Crude.space0.pair (((Crude.tag _).alt (Crude.tag _)).pair Crude.space1)).preceded (Crude.value bits)).opt).map _

theorem Crude.relation (bits : Nat) : Crude 45 (Steps.relation bits) :=
  ((Crude.expression bits).pair (Crude.space0.pair (Crude.operator.pair (Crude.space0.pair (Crude.rangeList bits))))).map _

theorem tag_head {t i r a : Str} {c : Char} (h : (Steps.tag (c :: t) i).2 = some (r, a)) : i.head? = some c := by
  rw [(tag_some h).1]; rfl

/-- An operator takes steps for what it takes, and begins with one of five characters. -/
theorem operator_some {i r : Str} {a : Operator} (h : (Steps.relationOperator i).2 = some (r, a)) :
    (Steps.relationOperator i).1 + 11 * r.length ≤ 11 * i.length ∧ r.length < i.length ∧ ∃ c ∈ c!"=!inw", i.head? = some c := by
  have t1 := tag_steps c!"=" i
  have t2 := tag_steps c!"!=" i
  have t3 := tag_steps c!"is" i
  have t4 := tag_steps c!"in" i
  have t5 := tag_steps c!"not" i
  have t6 := tag_steps c!"within" i
  simp only [List.length_cons, List.length_nil] at t1 t2 t3 t4 t5 t6
  rw [Steps.relationOperator] at h ⊢
  rcases alt_some h with ⟨h, e1⟩ | ⟨-, h, e1⟩
  · obtain ⟨_, h⟩ := map_some h
    have h1 := (tag_some h).2
    simp only [List.length_cons, List.length_nil] at h1
    refine ⟨?_, by omega, '=', by decide, tag_head h⟩
    rw [e1]; simp only [Steps.map]; omega
  rcases alt_some h with ⟨h, e2⟩ | ⟨-, h, e2⟩
  · obtain ⟨_, h⟩ := map_some h
    have h1 := (tag_some h).2
    simp only [List.length_cons, List.length_nil] at h1
    refine ⟨?_, by omega, '!', by decide, tag_head h⟩
    rw [e1, e2]; simp only [Steps.map]; omega
  rcases alt_some h with ⟨h, e3⟩ | ⟨hn3, h, e3⟩
  · obtain ⟨_, h⟩ := map_some h
    obtain ⟨r1, _, _, h1, h2, e4⟩ := pair_some h
    obtain ⟨r2, _, _, h3, h4, e5⟩ := pair_some h2
    have h5 := (tag_some h1).2
    have h6 := space1_some h3
    have h7 := tag_steps c!"not" r2
    simp only [List.length_cons, List.length_nil] at h5 h7
    have h8 : r.length ≤ r2.length := (Crude.tag c!"not").opt r2 |>.2 _ _ h4
    refine ⟨?_, by omega, 'i', by decide, tag_head h1⟩
    rw [e1, e2, e3]; simp only [Steps.map, e4, e5, Steps.opt]; omega
  have b3 : (Steps.pair (Steps.tag c!"is") (Steps.pair Steps.space1 (Steps.opt (Steps.tag c!"not"))) i).1 ≤ 4 := by
    rcases pair_none (map_none hn3) with ⟨-, e⟩ | ⟨r1, _, h1, h2, e⟩
    · omega
    · rcases pair_none h2 with ⟨h3, e'⟩ | ⟨r2, _, -, h4, -⟩
      · have := space1_none h3
        omega
      · simp only [Steps.opt] at h4
        split at h4 <;> cases h4
  rcases alt_some h with ⟨h, e4⟩ | ⟨-, h, e4⟩
  · obtain ⟨_, h⟩ := map_some h
    have h1 := (tag_some h).2
    simp only [List.length_cons, List.length_nil] at h1
    refine ⟨?_, by omega, 'i', by decide, tag_head h⟩
    rw [e1, e2, e3, e4]; simp only [Steps.map]; omega
  rcases alt_some h with ⟨h, e5⟩ | ⟨hn5, h, e5⟩
  · obtain ⟨_, h⟩ := map_some h
    obtain ⟨r1, _, _, h1, h2, e6⟩ := pair_some h
    obtain ⟨r2, _, _, h3, h4, e7⟩ := pair_some h2
    have h5 := (tag_some h1).2
    have h6 := space1_some h3
    have h7 := tag_steps c!"in" r2
    have h8 := tag_steps c!"within" r2
    simp only [List.length_cons, List.length_nil] at h5 h7 h8
    have h9 : r.length + 2 ≤ r2.length ∧ (Steps.alt (Steps.map (Steps.tag c!"in") fun _ => Operator.NotIn)
        (Steps.map (Steps.tag c!"within") fun _ => Operator.NotWithin) r2).1 ≤ 10 := by
      rcases alt_some h4 with ⟨h, e⟩ | ⟨-, h, e⟩
      · obtain ⟨_, h⟩ := map_some h
        have := (tag_some h).2
        simp only [List.length_cons, List.length_nil] at this
        rw [e]; simp only [Steps.map]; omega
      · obtain ⟨_, h⟩ := map_some h
        have := (tag_some h).2
        simp only [List.length_cons, List.length_nil] at this
        rw [e]; simp only [Steps.map]; omega
    refine ⟨?_, by omega, 'n', by decide, tag_head h1⟩
    rw [e1, e2, e3, e4, e5]; simp only [Steps.map, e6, e7] at h9 ⊢; omega
  · obtain ⟨_, h⟩ := map_some h
    have h1 := (tag_some h).2
    simp only [List.length_cons, List.length_nil] at h1
    have hw := tag_head h
    have b5 : (Steps.pair (Steps.tag c!"not") (Steps.pair Steps.space1
        (Steps.alt (Steps.map (Steps.tag c!"in") fun _ => Operator.NotIn) (Steps.map (Steps.tag c!"within") fun _ => Operator.NotWithin))) i).1 ≤ 4 := by
      rcases pair_none (map_none hn5) with ⟨-, e⟩ | ⟨r1, _, h2, -, -⟩
      · omega
      · have := tag_head h2
        rw [hw] at this
        cases this
    refine ⟨?_, by omega, 'w', by decide, hw⟩
    rw [e1, e2, e3, e4, e5]; simp only [Steps.map]; omega

/-- An expression before an operator takes steps for what it takes and the spaces that follow. -/
theorem expression_some {bits : Nat} {i r : Str} {a : Expression} (h : (Steps.expression bits i).2 = some (r, a))
    (ho : ∃ c ∈ c!"=!inw", (r.dropWhile Nom.isSpace).head? = some c) :
    (Steps.expression bits i).1 + 8 * r.length ≤ 8 * i.length + spaces r ∧ r.length < i.length := by
  obtain ⟨_, h⟩ := map_some h
  obtain ⟨r1, _, _, h1, h2, e⟩ := pair_some h
  obtain ⟨_, h1⟩ := map_some h1
  have h3 : r1.length + 1 = i.length := by
    simp only [Steps.oneOf, Nom.oneOf] at h1
    split at h1
    · split at h1
      · cases h1; rfl
      · cases h1
    · cases h1
  have e' : (Steps.expression bits i).1 = 1 + (Steps.modExpression bits r1).1 := by
    rw [Steps.expression]; simp only [Steps.map, e]; rfl
  rcases opt_some h2 with ⟨_, h4⟩ | ⟨h4, rfl⟩
  · obtain ⟨_, h5⟩ := map_some h4
    obtain ⟨r2, _, _, h6, h7, e1⟩ := pair_some h5
    obtain ⟨r3, _, _, h8, h9, e2⟩ := pair_some h6
    obtain ⟨r4, _, _, h10, h11, e3⟩ := pair_some h9
    have a1 := space0_some h8
    have a2 := space1_some h11
    have a3 := value_some h7
    have t1 := tag_steps c!"mod" r3
    have t2 := tag_steps c!"%" r3
    simp only [List.length_cons, List.length_nil] at t1 t2
    have a4 : (Steps.alt (Steps.tag c!"mod") (Steps.tag c!"%") r3).1 ≤ 6 ∧ r4.length < r3.length := by
      rcases alt_some h10 with ⟨h, e⟩ | ⟨-, h, e⟩ <;>
      · have := (tag_some h).2
        simp only [List.length_cons, List.length_nil] at this
        omega
    have e4 : (Steps.modExpression bits r1).1 = (Steps.space0 r1).1 + ((Steps.alt (Steps.tag c!"mod") (Steps.tag c!"%") r3).1 + (Steps.space1 r4).1) +
        (Steps.value bits r2).1 := by
      rw [← e3, ← e2, ← e1]; rfl
    omega
  · have h5 := map_none h4
    have e4 : (Steps.modExpression bits r).1 =
        (Steps.pair (Steps.pair Steps.space0 (Steps.pair (Steps.alt (Steps.tag c!"mod") (Steps.tag c!"%")) Steps.space1)) (Steps.value bits) r).1 := rfl
    obtain ⟨c, hc, hh⟩ := ho
    have key : ∀ r3 a, (Steps.space0 r).2 = some (r3, a) → (Steps.alt (Steps.tag c!"mod") (Steps.tag c!"%") r3).2 = none ∧
        (Steps.alt (Steps.tag c!"mod") (Steps.tag c!"%") r3).1 ≤ 6 := by
      intro r3 a h
      obtain ⟨rfl, -, -⟩ := space0_some h
      have t1 := tag_steps c!"mod" (r.dropWhile Nom.isSpace)
      have t2 := tag_steps c!"%" (r.dropWhile Nom.isSpace)
      simp only [List.length_cons, List.length_nil] at t1 t2
      cases hx : (Steps.alt (Steps.tag c!"mod") (Steps.tag c!"%") (r.dropWhile Nom.isSpace)).2 with
      | none =>
        obtain ⟨-, -, e⟩ := alt_none hx
        exact ⟨rfl, by omega⟩
      | some x =>
        exfalso
        rcases alt_some (a := x.2) hx with ⟨h, -⟩ | ⟨-, h, -⟩ <;>
        · have := tag_head h
          rw [hh] at this
          cases this
          exact absurd hc (by decide)
    rcases pair_none h5 with ⟨h6, e1⟩ | ⟨r2, _, h6, -, -⟩
    · rcases pair_none h6 with ⟨h7, -⟩ | ⟨r3, _, h7, h8, e2⟩
      · cases h7
      · obtain ⟨k1, k2⟩ := key r3 _ h7
        have a1 := space0_some h7
        rcases pair_none h8 with ⟨-, e3⟩ | ⟨_, _, h9, -⟩
        · omega
        · rw [k1] at h9; cases h9
    · obtain ⟨r3, _, _, h7, h8, -⟩ := pair_some h6
      obtain ⟨_, _, _, h9, -⟩ := pair_some h8
      rw [(key r3 _ h7).1] at h9; cases h9

theorem relation_some {bits : Nat} {i r : Str} {a : Relation} (h : (Steps.relation bits i).2 = some (r, a)) :
    (Steps.relation bits i).1 + 11 * r.length ≤ 11 * i.length + lookWord c!"ao" 1 14 r ∧ r.length < i.length := by
  obtain ⟨_, h⟩ := map_some h
  obtain ⟨r1, _, _, h1, h2, e1⟩ := pair_some h
  obtain ⟨r2, _, _, h3, h4, e2⟩ := pair_some h2
  obtain ⟨r3, _, _, h5, h6, e3⟩ := pair_some h4
  obtain ⟨r4, _, _, h7, h8, e4⟩ := pair_some h6
  obtain ⟨rfl, a1, a2⟩ := space0_some h3
  obtain ⟨b1, b2, b3⟩ := operator_some h5
  have c1 := expression_some h1 b3
  have a3 := space0_some h7
  have d1 := rangeList_some h8
  have e : (Steps.relation bits i).1 = (Steps.expression bits i).1 + ((Steps.space0 r1).1 + ((Steps.relationOperator (r1.dropWhile Nom.isSpace)).1 +
      ((Steps.space0 r3).1 + (Steps.rangeList bits r4).1))) := by
    rw [← e4, ← e3, ← e2, ← e1]; rfl
  omega

theorem relation_none {bits : Nat} {i : Str} (h : (Steps.relation bits i).2 = none) : (Steps.relation bits i).1 ≤ 30 * (i.length + 1) := by
  have h := map_none h
  have c1 := (Crude.expression bits i).1
  have e : (Steps.relation bits i).1 = (Steps.pair (Steps.expression bits) (Steps.pair Steps.space0 (Steps.pair Steps.relationOperator
      (Steps.pair Steps.space0 (Steps.rangeList bits)))) i).1 := rfl
  rcases pair_none h with ⟨-, e1⟩ | ⟨r1, _, h1, h, e1⟩
  · omega
  · have c2 := (Crude.expression bits i).2 _ _ h1
    have c3 := (Crude.space0 r1).1
    rcases pair_none h with ⟨h2, -⟩ | ⟨r2, _, h2, h, e2⟩
    · cases h2
    · have c4 := (Crude.space0 r1).2 _ _ h2
      have c5 := (Crude.operator r2).1
      rcases pair_none h with ⟨-, e3⟩ | ⟨r3, _, h3, h, e3⟩
      · omega
      · rcases pair_none h with ⟨h4, -⟩ | ⟨r4, _, h4, h, -⟩
        · cases h4
        · rcases (rangeList_item bits).list r4 with ⟨-, h5, -⟩ | ⟨r, l, h5, -⟩ <;> rw [Steps.rangeList, h5] at h <;> cases h

/-- A conjunction takes steps for what it takes; it begins with spaces and its first letter. -/
theorem conj_some {w : Str} {c : Char} {i r : Str} {a : Str × Str × Str}
    (h : (Steps.pair Steps.space1 (Steps.pair (Steps.tag (c :: w)) Steps.space1) i).2 = some (r, a)) :
    1 ≤ spaces i ∧ (i.dropWhile Nom.isSpace).head? = some c ∧ spaces i + w.length + r.length + 2 ≤ i.length ∧
      (Steps.pair Steps.space1 (Steps.pair (Steps.tag (c :: w)) Steps.space1) i).1 + r.length ≤ i.length + 3 := by
  obtain ⟨r1, _, _, h1, h, e1⟩ := pair_some h
  obtain ⟨r2, _, _, h2, h3, e2⟩ := pair_some h
  obtain ⟨rfl, a1, a2, a3⟩ := space1_some h1
  have b1 := tag_some h2
  have b2 := tag_steps (c :: w) (i.dropWhile Nom.isSpace)
  have a4 := space1_some h3
  have b3 := b1.2
  simp only [List.length_cons] at b2 b3
  exact ⟨a3, tag_head h2, by omega, by omega⟩

theorem conj_none {w : Str} {i : Str} (h : (Steps.pair Steps.space1 (Steps.pair (Steps.tag w) Steps.space1) i).2 = none) :
    (Steps.pair Steps.space1 (Steps.pair (Steps.tag w) Steps.space1) i).1 ≤ spaces i + w.length + 3 := by
  rcases pair_none h with ⟨h1, e1⟩ | ⟨r1, _, h1, h, e1⟩
  · have := space1_none h1
    omega
  · have a1 := space1_some h1
    have b2 := tag_steps w r1
    rcases pair_none h with ⟨-, e2⟩ | ⟨r2, _, h2, h3, e2⟩
    · omega
    · have := space1_none h3
      omega

theorem Crude.conj (w : Str) : Crude 4 (Steps.pair Steps.space1 (Steps.pair (Steps.tag w) Steps.space1)) :=
  Crude.space1.pair ((Crude.tag _).pair Crude.space1)

theorem word_mono {cs ds r : Str} (h : Word cs r) (hs : ∀ c ∈ cs, c ∈ ds) : Word ds r :=
  ⟨h.1, h.2.imp fun c hc => ⟨hs c hc.1, hc.2⟩⟩

theorem andCondition_item (bits : Nat) : ListSteps (Steps.pair Steps.space1 (Steps.pair (Steps.tag c!"and") Steps.space1))
    (Steps.relation bits) 11 30 (lookWord c!"ao" 1 14) where
  item i r a h := relation_some h
  none i h := relation_none h
  sep i r a h := by
    obtain ⟨h1, h2, h3, h4⟩ := conj_some h
    have h5 : lookWord c!"ao" 1 14 i = 1 * spaces i + 5 * 1 := if_pos ⟨h1, 'a', by decide, h2⟩
    simp only [List.length_cons, List.length_nil] at h3
    omega

theorem andCondition_some {bits : Nat} {i r : Str} {a : AndCondition} (h : (Steps.andCondition bits i).2 = some (r, a)) :
    (Steps.andCondition bits i).1 + 11 * r.length ≤ 11 * i.length + lookWord c!"o" 3 48 r ∧ r.length < i.length := by
  rcases (andCondition_item bits).nonempty i with ⟨-, h2, -⟩ | ⟨r', l, h1, h2, h3⟩
  · rw [Steps.andCondition, h2] at h; cases h
  · rw [Steps.andCondition, h1] at h
    cases h
    refine ⟨?_, h2⟩
    rw [Steps.andCondition]
    have h4 := lookWord_le c!"ao" 1 14 (by decide) r
    by_cases hw : Word c!"o" r
    · have h5 : lookWord c!"ao" 1 14 r = 1 * spaces r + 5 * 1 := if_pos (word_mono hw (by decide))
      have h6 : lookWord c!"o" 3 48 r = 3 * spaces r + 5 * 3 := if_pos hw
      have h7 : stopSteps (Steps.pair Steps.space1 (Steps.pair (Steps.tag c!"and") Steps.space1)) 30 r ≤ spaces r + 6 := by
        unfold stopSteps
        cases hs : (Steps.pair Steps.space1 (Steps.pair (Steps.tag c!"and") Steps.space1) r).2 with
        | none =>
          have := conj_none hs
          simp only [List.length_cons, List.length_nil] at this
          dsimp only; omega
        | some x =>
          have h8 := (conj_some (a := x.2) hs).2.1
          obtain ⟨-, c, hc, h9⟩ := hw
          rw [h9] at h8
          cases h8
          exact absurd hc (by decide)
      omega
    · have h6 : lookWord c!"o" 3 48 r = 48 * (r.length + 1) := if_neg hw
      have h7 := (Crude.conj c!"and").stop 30 r
      omega

theorem condition_item (bits : Nat) : ListSteps (Steps.pair Steps.space1 (Steps.pair (Steps.tag c!"or") Steps.space1))
    (Steps.andCondition bits) 11 30 (lookWord c!"o" 3 48) where
  item i r a h := andCondition_some h
  none i h := by
    rcases (andCondition_item bits).nonempty i with ⟨h1, -, h2⟩ | ⟨r', l, h1, -⟩
    · rw [Steps.andCondition, h2]
      exact relation_none h1
    · rw [Steps.andCondition, h1] at h; cases h
  sep i r a h := by
    obtain ⟨h1, h2, h3, h4⟩ := conj_some h
    have h5 : lookWord c!"o" 3 48 i = 3 * spaces i + 5 * 3 := if_pos ⟨h1, 'o', by decide, h2⟩
    simp only [List.length_cons, List.length_nil] at h3
    omega

theorem Crude.parseCondition (bits : Nat) : Crude 86 (Steps.parseCondition bits) := by
  intro i
  unfold Steps.parseCondition
  split
  · exact ⟨by dsimp only; omega, fun r a h => by cases h; simp⟩
  · split
    · exact ⟨by dsimp only; omega, fun r a h => by cases h; simp⟩
    · dsimp only
      rcases (condition_item bits).nonempty i with ⟨h1, h2, h3⟩ | ⟨r', l, h1, h2, h3⟩
      · have := (condition_item bits).none i h1
        exact ⟨by omega, fun r a h => by rw [h2] at h; cases h⟩
      · have h4 := lookWord_le c!"o" 3 48 (by decide) r'
        have h5 := (Crude.conj c!"or").stop 30 r'
        refine ⟨by omega, fun r a h => ?_⟩
        rw [h1] at h; cases h
        omega

/-! ## Samples -/

theorem Crude.decimalValue (bits : Nat) : Crude 6 (Steps.decimalValue bits) :=
  ((Crude.value bits).pair ((Crude.tag _).preceded (Crude.value bits)).opt).map _

theorem decimalValue_some {bits : Nat} {i r : Str} {a : DecimalValue} (h : (Steps.decimalValue bits i).2 = some (r, a)) :
    (Steps.decimalValue bits i).1 + 5 * r.length ≤ 5 * i.length + 2 * lookPoint r ∧ r.length < i.length := by
  obtain ⟨_, h⟩ := map_some h
  obtain ⟨r1, _, _, h1, h2, e1⟩ := pair_some h
  have a1 := value_some h1
  have b1 := tag_steps c!"." r1
  simp only [List.length_cons, List.length_nil] at b1
  have e : (Steps.decimalValue bits i).1 = (Steps.value bits i).1 + (Steps.pair (Steps.tag c!".") (Steps.value bits) r1).1 := by
    rw [Steps.decimalValue]; simp only [Steps.map, e1]; rfl
  rcases opt_some h2 with ⟨_, h3⟩ | ⟨h3, rfl⟩
  · obtain ⟨_, h3⟩ := map_some h3
    obtain ⟨r2, _, _, h4, h5, e2⟩ := pair_some h3
    have b2 := (tag_some h4).2
    have a2 := value_some h5
    simp only [List.length_cons, List.length_nil] at b2
    omega
  · rcases pair_none (map_none h3) with ⟨-, e2⟩ | ⟨r2, _, h4, -, e2⟩
    · omega
    · have b2 := (tag_some h4).2
      simp only [List.length_cons, List.length_nil] at b2
      have a2 := value_steps bits r2
      have a3 := digits_le r2
      have a4 : lookPoint r = r.length + 1 := if_pos (tag_head h4)
      omega

theorem Crude.sampleRange (bits : Nat) : Crude 16 (Steps.sampleRange bits) :=
  ((Crude.decimalValue bits).pair
    ((Crude.space0.pair ((Crude.tag _).pair Crude.space0)).preceded (Crude.decimalValue bits)).opt).map _

/-- After a sample the parser has looked ahead over spaces only, if a comma follows. -/
def lookComma (r : Str) : Nat := if (r.dropWhile Nom.isSpace).head? = some ',' then spaces r + 3 else 12 * (r.length + 1)

theorem lookComma_le (r : Str) : lookComma r ≤ 12 * (r.length + 1) := by
  have := spaces_le r
  unfold lookComma; split <;> omega

theorem lookPoint_zero {r : Str} {c : Char} (hc : c ≠ '.') (h : (r.dropWhile Nom.isSpace).head? = some c) : lookPoint r = 0 := by
  refine if_neg fun h1 => hc ?_
  cases r with
  | nil => cases h1
  | cons d t =>
    obtain rfl : d = '.' := by simpa using h1
    rw [List.dropWhile_cons, if_neg (by decide)] at h
    simpa using h.symm

theorem sampleRange_some {bits : Nat} {i r : Str} {a : SampleRange} (h : (Steps.sampleRange bits i).2 = some (r, a)) :
    (Steps.sampleRange bits i).1 + 7 * r.length ≤ 7 * i.length + lookComma r ∧ r.length < i.length := by
  obtain ⟨_, h⟩ := map_some h
  obtain ⟨r1, _, _, h1, h2, e1⟩ := pair_some h
  obtain ⟨a1, a2⟩ := decimalValue_some h1
  have e : (Steps.sampleRange bits i).1 = (Steps.decimalValue bits i).1 +
      (Steps.pair (Steps.pair Steps.space0 (Steps.pair (Steps.tag c!"~") Steps.space0)) (Steps.decimalValue bits) r1).1 := by
    rw [Steps.sampleRange]; simp only [Steps.map, e1]; rfl
  have lp : ∀ r, lookPoint r ≤ r.length + 1 := fun r => by unfold lookPoint; split <;> omega
  rcases opt_some h2 with ⟨_, h3⟩ | ⟨h3, rfl⟩
  · obtain ⟨_, h3⟩ := map_some h3
    obtain ⟨r2, _, _, h4, h5, e2⟩ := pair_some h3
    obtain ⟨r3, _, _, h6, h7, e3⟩ := pair_some h4
    obtain ⟨r4, _, _, h8, h9, e4⟩ := pair_some h7
    obtain ⟨rfl, b1, b2⟩ := space0_some h6
    have b3 := (tag_some h8).2
    have b4 := tag_steps c!"~" (r1.dropWhile Nom.isSpace)
    simp only [List.length_cons, List.length_nil] at b3 b4
    have b5 := space0_some h9
    obtain ⟨b6, b7⟩ := decimalValue_some h5
    have z := lookPoint_zero (c := '~') (by decide) (tag_head h8)
    refine ⟨?_, by omega⟩
    unfold lookComma
    split
    · rename_i hc
      have := lookPoint_zero (by decide) hc
      omega
    · have := lp r
      omega
  · refine ⟨?_, a2⟩
    have h4 := map_none h3
    unfold lookComma
    split
    · rename_i hc
      have z := lookPoint_zero (by decide) hc
      have hn : ∀ r3 x, (Steps.tag c!"~" (r.dropWhile Nom.isSpace)).2 ≠ some (r3, x) := by
        intro r3 x h
        have := tag_head h
        rw [hc] at this
        cases this
      have b4 := tag_steps c!"~" (r.dropWhile Nom.isSpace)
      simp only [List.length_cons, List.length_nil] at b4
      rcases pair_none h4 with ⟨h5, e2⟩ | ⟨r2, _, h5, -, -⟩
      · rcases pair_none h5 with ⟨h6, -⟩ | ⟨r3, _, h6, h7, e3⟩
        · cases h6
        · obtain ⟨rfl, b1, b2⟩ := space0_some h6
          rcases pair_none h7 with ⟨-, e4⟩ | ⟨_, _, h8, -⟩
          · omega
          · exact absurd h8 (hn _ _)
      · obtain ⟨r3, _, _, h6, h7, -⟩ := pair_some h5
        obtain ⟨rfl, -, -⟩ := space0_some h6
        obtain ⟨_, _, _, h8, -⟩ := pair_some h7
        exact absurd h8 (hn _ _)
    · have := lp r
      have := ((Crude.space0.pair ((Crude.tag c!"~").pair Crude.space0)).pair (Crude.decimalValue bits) r).1
      omega

theorem sampleList_item (bits : Nat) : ListSteps Steps.commaSep (Steps.sampleRange bits) 7 16 lookComma where
  item i r a h := sampleRange_some h
  none i _ := (Crude.sampleRange bits i).1
  sep i r a h := by
    obtain ⟨h1, h2, h3⟩ := commaSep_some h
    have h4 : lookComma i = spaces i + 3 := if_pos h1
    omega

theorem Crude.sampleList (bits : Nat) : Crude 40 (Steps.sampleList bits) := by
  have h : Crude 32 (Steps.separatedNonemptyList Steps.commaSep (Steps.sampleRange bits)) := by
    intro i
    rcases (sampleList_item bits).nonempty i with ⟨h1, h2, h3⟩ | ⟨r', l, h1, h2, h3⟩
    · have := (sampleList_item bits).none i h1
      exact ⟨by omega, fun r a h => by rw [h2] at h; cases h⟩
    · have h4 := lookComma_le r'
      have h5 := Crude.commaSep.stop 16 r'
      refine ⟨by omega, fun r a h => ?_⟩
      rw [h1] at h; cases h
      omega
  exact (h.pair (Crude.commaSep.preceded ((Crude.tag _).alt (Crude.tag _))).opt).map _

theorem Crude.samples (bits : Nat) : Crude 88 (Steps.samples bits) :=
  (((Crude.conj _).preceded (Crude.sampleList bits)).opt.pair ((Crude.conj _).preceded (Crude.sampleList bits)).opt).map _

theorem Crude.parseRule (bits : Nat) : Crude 174 (Steps.parseRule bits) :=
  ((Crude.parseCondition bits).pair (Crude.samples bits)).map _

end StepCount

/-! ## The property -/

open StepCount

/-- C105: the parser with its steps gives the results of the parser, for rules and for conditions. -/
theorem C105_same (bits : Nat) (s : Str) : (Steps.parseRule bits s).2 = Parser.parseRule bits s ∧
    (Steps.parseCondition bits s).2 = Parser.parseCondition bits s := ⟨Erases.parseRule bits s, Erases.parseCondition bits s⟩

/-- C105: the number of steps is at most linear in the length of the text, whether it is read or refused. -/
theorem C105_linear (bits : Nat) (s : Str) : (Steps.parseRule bits s).1 ≤ 174 * (s.length + 1) ∧
    (Steps.parseCondition bits s).1 ≤ 86 * (s.length + 1) := ⟨(Crude.parseRule bits s).1, (Crude.parseCondition bits s).1⟩

/-- The steps for a text that is read, and for texts that are refused after a number has been read twice. -/
example : (Steps.parseRule 64 c!"n % 10 = 3..4,9 and n != 12 @integer 3, 4, 9").1 = 234 ∧
    (Steps.parseRule 64 c!"n = 1..99999999999999999999").1 = 127 ∧
    (Steps.parseCondition 64 c!"n = 1 or n = 2 or n = 3 or n = x").1 = 192 := by decide +kernel

end Verif.Props
