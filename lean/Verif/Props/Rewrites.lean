import Verif.Props.OnOperands

/-!
# C114: rules written in another way

Which changes to a rule that do not change its meaning leave the generated code with the same answers.
-/

namespace Verif.Props
open Verif Api Rust Uts35 Spec Verif.Parser Verif.Grammar Generate GenPr GenRs RulesRead FileRead Gen Maps Lib Sem Eval ResourceSpec Resource
open PluralOperands

/-- The list has the integer, as a value or in a range. -/
def Covers (l : List RangeListItem) (k : Nat) : Prop := .value k ∈ l ∨ ∃ lo hi, .range lo hi ∈ l ∧ lo ≤ k ∧ k ≤ hi

/-- The lists have the same integers. -/
def SameIntegers (l l' : List RangeListItem) : Prop := ∀ k, Covers l k ↔ Covers l' k

/-- The lists have the same items, in any order and any number of times. -/
def SameItems (l l' : List RangeListItem) : Prop := ∀ x, x ∈ l ↔ x ∈ l'

/-- The same relation with its list reordered, or for operands but `n` with a list of the same integers.  A `within` has the same list. -/
def Relisted (r r' : Relation) : Prop :=
  r'.expression = r.expression ∧ r'.operator = r.operator ∧
    (r'.rangeList = r.rangeList ∨ ¬ IsWithin r.operator ∧ SameItems r.rangeList r'.rangeList ∨
      ¬ IsWithin r.operator ∧ r.expression.operand ≠ .N ∧ SameIntegers r.rangeList r'.rangeList)

/-- Or for `n` without modulus, not negated, with a list of the same integers. -/
def Rewritten (r r' : Relation) : Prop :=
  Relisted r r' ∨ r'.expression = r.expression ∧ r'.operator = r.operator ∧ r.expression.modulus = none ∧ Positive r.operator ∧
    SameIntegers r.rangeList r'.rangeList

/-- The same relations up to `R`, in any order and any number of times. -/
def AlikeAnd (R : Relation → Relation → Prop) (a a' : AndCondition) : Prop := (∀ r ∈ a, ∃ r' ∈ a', R r r') ∧ ∀ r' ∈ a', ∃ r ∈ a, R r r'

/-- The same alternatives up to `R`, in any order and any number of times. -/
def AlikeOr (R : Relation → Relation → Prop) (c c' : Condition) : Prop :=
  (∀ a ∈ c, ∃ a' ∈ c', AlikeAnd R a a') ∧ ∀ a' ∈ c', ∃ a ∈ c, AlikeAnd R a a'

/-- The same rules, with conditions that differ so. -/
def RewrittenRules (rules rules' : RuleObj) : Prop :=
  (∀ name c cond, TestedRule rules name c cond → ∃ cond', TestedRule rules' name c cond' ∧ AlikeOr Relisted cond cond') ∧
  ∀ name c cond', TestedRule rules' name c cond' → ∃ cond, TestedRule rules name c cond ∧ AlikeOr Relisted cond cond'

/-! ## Proofs -/

theorem holds_alike {R : Relation → Relation → Prop} {H : Relation → Prop} (hR : ∀ r r', R r r' → (H r ↔ H r')) {c c' : Condition}
    (h : AlikeOr R c c') : (∃ a ∈ c, ∀ r ∈ a, H r) ↔ ∃ a ∈ c', ∀ r ∈ a, H r := by
  have hand : ∀ a a', AlikeAnd R a a' → ((∀ r ∈ a, H r) ↔ ∀ r ∈ a', H r) := by
    rintro a a' ⟨h1, h2⟩
    constructor
    · intro h r' hr'
      obtain ⟨r, hr, k⟩ := h2 r' hr'
      exact (hR r r' k).1 (h r hr)
    · intro h r hr
      obtain ⟨r', hr', k⟩ := h1 r hr
      exact (hR r r' k).2 (h r' hr')
  constructor
  · rintro ⟨a, ha, k⟩
    obtain ⟨a', ha', k'⟩ := h.1 a ha
    exact ⟨a', ha', (hand a a' k').1 k⟩
  · rintro ⟨a', ha', k⟩
    obtain ⟨a, ha, k'⟩ := h.2 a' ha'
    exact ⟨a, ha, (hand a a' k').2 k⟩

theorem covers_iff (l : List RangeListItem) (k : Nat) :
    Covers l k ↔ ∃ x ∈ l, x = .value k ∨ ∃ lo hi, x = .range lo hi ∧ lo ≤ k ∧ k ≤ hi := by
  constructor
  · rintro (h | ⟨lo, hi, h, h'⟩)
    · exact ⟨_, h, .inl rfl⟩
    · exact ⟨_, h, .inr ⟨lo, hi, rfl, h'⟩⟩
  · rintro ⟨x, h, rfl | ⟨lo, hi, rfl, h'⟩⟩
    · exact .inl h
    · exact .inr ⟨lo, hi, h, h'⟩

/-- For operands but `n` the tests of a list say whether it has the integer. -/
theorem accepts_covers (po : PluralOperands) (e : Expression) (he : e.operand ≠ .N) (l : List RangeListItem) :
    ((∃ x ∈ l, OnOperands.Accepts po e x) ↔ Covers l (OnOperands.look po e)) ∧
    ((∀ x ∈ l, OnOperands.Rejects po e x) ↔ ¬ Covers l (OnOperands.look po e)) := by
  have hp : ¬ OnOperands.Plain e := fun h => he h.1
  have key : ∀ x, (OnOperands.Accepts po e x ↔ (x = .value (OnOperands.look po e) ∨ ∃ lo hi, x = .range lo hi ∧ lo ≤ OnOperands.look po e ∧ OnOperands.look po e ≤ hi)) ∧
      (OnOperands.Rejects po e x ↔ ¬ OnOperands.Accepts po e x) := by
    intro x
    cases x with
    | value k =>
      simp only [OnOperands.Accepts, OnOperands.Rejects, OnOperands.Equals, hp, false_implies, not_false_eq_true, true_implies, true_and, RangeListItem.value.injEq,
        reduceCtorEq, false_and, exists_false, or_false, and_true]
      exact eq_comm
    | range lo hi =>
      simp only [OnOperands.Accepts, OnOperands.Rejects, he, if_false, reduceCtorEq, RangeListItem.range.injEq, false_or, and_true]
      exact ⟨fun h => ⟨lo, hi, ⟨rfl, rfl⟩, h⟩, fun ⟨a, b, ⟨h1, h2⟩, h⟩ => by subst h1; subst h2; exact h⟩
  have h1 : (∃ x ∈ l, OnOperands.Accepts po e x) ↔ Covers l (OnOperands.look po e) := by
    rw [covers_iff]
    exact exists_congr fun x => and_congr_right fun _ => (key x).1
  refine ⟨h1, ?_⟩
  rw [← h1]
  simp only [(key _).2, not_exists, not_and]

theorem relisted_holds (po : PluralOperands) (r r' : Relation) (h : Relisted r r') :
    OnOperands.RelationHolds po r ↔ OnOperands.RelationHolds po r' := by
  obtain ⟨e, op, l⟩ := r
  obtain ⟨e', op', l'⟩ := r'
  obtain ⟨h1, h2, h3⟩ := h
  simp only at h1 h2 h3
  subst h1 h2
  rcases h3 with rfl | ⟨hw, hl⟩ | ⟨hw, hn, hl⟩
  · rfl
  · have hex : (∃ x ∈ l, OnOperands.Accepts po e' x) ↔ ∃ x ∈ l', OnOperands.Accepts po e' x := exists_congr fun x => and_congr_left fun _ => hl x
    have hall : (∀ x ∈ l, OnOperands.Rejects po e' x) ↔ ∀ x ∈ l', OnOperands.Rejects po e' x := forall_congr' fun x => by rw [hl x]
    cases op' <;> simp [IsWithin] at hw <;> simp only [OnOperands.RelationHolds] <;> assumption
  · obtain ⟨a1, a2⟩ := accepts_covers po e' hn l
    obtain ⟨b1, b2⟩ := accepts_covers po e' hn l'
    have hex : (∃ x ∈ l, OnOperands.Accepts po e' x) ↔ ∃ x ∈ l', OnOperands.Accepts po e' x := by rw [a1, b1, hl]
    have hall : (∀ x ∈ l, OnOperands.Rejects po e' x) ↔ ∀ x ∈ l', OnOperands.Rejects po e' x := by rw [a2, b2, hl]
    cases op' <;> simp [IsWithin] at hw <;> simp only [OnOperands.RelationHolds] <;> assumption

/-- For `n` without modulus on a number. -/
theorem actual_covers (d : Dec) (l : List RangeListItem) :
    (∃ x ∈ l, Actual.Accepts d ⟨.N, none⟩ x) ↔ d.f = 0 ∧ Covers l d.i := by
  rw [covers_iff]
  constructor
  · rintro ⟨x, hx, h⟩
    cases x with
    | value k => exact ⟨h.2 ⟨rfl, rfl⟩, _, hx, .inl (by rw [← h.1]; rfl)⟩
    | range lo hi =>
      simp only [Actual.Accepts, if_true, true_implies] at h
      exact ⟨h.2.2, _, hx, .inr ⟨lo, hi, rfl, h.1, h.2.1⟩⟩
  · rintro ⟨h0, x, hx, rfl | ⟨lo, hi, rfl, h⟩⟩
    · exact ⟨_, hx, rfl, fun _ => h0⟩
    · refine ⟨_, hx, ?_⟩
      simp only [Actual.Accepts, if_true, true_implies]
      exact ⟨h.1, h.2, h0⟩

/-- On one relation. -/
theorem actual_relation (po : PluralOperands) (d : Dec) (ho : OperandsOf po d) (hd : Fits d) (r : Relation) (hr : Listed r ∧ ¬ DividesByZero r)
    (hx : Actual.Exact r) : OnOperands.RelationHolds po r ↔ Actual.RelationHolds d r := by
  have := C96_numbers [[r]] ⟨by simp, by simpa using hr⟩ (by simpa using hx) po d ho hd
  simpa [OnOperands.Holds, Actual.Holds] using this

theorem first_alike {H : Condition → Prop} {rules rules' : RuleObj} (h : RewrittenRules rules rules')
    (hH : ∀ c c', AlikeOr Relisted c c' → (H c ↔ H c')) (c : PluralCategory) (hc : FirstWith H rules c) : FirstWith H rules' c := by
  rcases hc with ⟨name, cond, h1, h2, h3⟩ | ⟨rfl, h3⟩
  · obtain ⟨cond', k1, k2⟩ := h.1 name c cond h1
    refine .inl ⟨name, cond', k1, (hH _ _ k2).1 h2, fun name' c' cond'' h4 h5 h6 => ?_⟩
    obtain ⟨cond0, k3, k4⟩ := h.2 name' c' cond'' h4
    exact h3 name' c' cond0 k3 h5 ((hH _ _ k4).2 h6)
  · refine .inr ⟨rfl, fun name' c' cond'' h4 h6 => ?_⟩
    obtain ⟨cond0, k3, k4⟩ := h.2 name' c' cond'' h4
    exact h3 name' c' cond0 k3 ((hH _ _ k4).2 h6)

/-! ## C114 -/

/-- C114: the order of alternatives, of the relations in them and of the items of a list, repetitions, and for operands but `n` how the integers
of a list are written, do not matter on any operands. -/
theorem C114_order (c c' : Condition) (hc : AllRelations (fun r => Listed r ∧ ¬ DividesByZero r) c)
    (hc' : AllRelations (fun r => Listed r ∧ ¬ DividesByZero r) c') (h : AlikeOr Relisted c c') (po : PluralOperands) :
    ∃ e e' b, Code c e ∧ Code c' e' ∧ e.eval po = some (.bool b) ∧ e'.eval po = some (.bool b) := by
  obtain ⟨e, b, h1, h2, h3⟩ := C96_code c hc po
  obtain ⟨e', b', h1', h2', h3'⟩ := C96_code c' hc' po
  have : b = b' := by
    rw [Bool.eq_iff_iff, h3, h3']
    exact holds_alike (relisted_holds po) h
  subst this
  exact ⟨e, e', b, h1, h1', h2, h2'⟩

/-- C114: on numbers, how the integers of a list are written does not matter for `n` either, without modulus and negation. -/
theorem C114_numbers (c c' : Condition) (hc : AllRelations (fun r => Listed r ∧ ¬ DividesByZero r) c)
    (hc' : AllRelations (fun r => Listed r ∧ ¬ DividesByZero r) c') (hx : ∀ a ∈ c, ∀ r ∈ a, Actual.Exact r) (hx' : ∀ a ∈ c', ∀ r ∈ a, Actual.Exact r)
    (h : AlikeOr Rewritten c c') (po : PluralOperands) (d : Dec) (ho : OperandsOf po d) (hd : Fits d) :
    ∃ e e' b, Code c e ∧ Code c' e' ∧ e.eval po = some (.bool b) ∧ e'.eval po = some (.bool b) := by
  obtain ⟨e, b, h1, h2, h3⟩ := C96_code c hc po
  obtain ⟨e', b', h1', h2', h3'⟩ := C96_code c' hc' po
  have hQ : AlikeOr (fun r r' => Rewritten r r' ∧ (Listed r ∧ ¬ DividesByZero r) ∧ (Listed r' ∧ ¬ DividesByZero r') ∧ Actual.Exact r ∧ Actual.Exact r') c c' := by
    have hand : ∀ a ∈ c, ∀ a' ∈ c', AlikeAnd Rewritten a a' → AlikeAnd (fun r r' => Rewritten r r' ∧ (Listed r ∧ ¬ DividesByZero r) ∧
        (Listed r' ∧ ¬ DividesByZero r') ∧ Actual.Exact r ∧ Actual.Exact r') a a' := by
      rintro a ha a' ha' ⟨g1, g2⟩
      refine ⟨fun r hr => ?_, fun r' hr' => ?_⟩
      · obtain ⟨r', hr', k⟩ := g1 r hr
        exact ⟨r', hr', k, (hc.2 a ha).2 r hr, (hc'.2 a' ha').2 r' hr', hx a ha r hr, hx' a' ha' r' hr'⟩
      · obtain ⟨r, hr, k⟩ := g2 r' hr'
        exact ⟨r, hr, k, (hc.2 a ha).2 r hr, (hc'.2 a' ha').2 r' hr', hx a ha r hr, hx' a' ha' r' hr'⟩
    refine ⟨fun a ha => ?_, fun a' ha' => ?_⟩
    · obtain ⟨a', ha', k⟩ := h.1 a ha
      exact ⟨a', ha', hand a ha a' ha' k⟩
    · obtain ⟨a, ha, k⟩ := h.2 a' ha'
      exact ⟨a, ha, hand a ha a' ha' k⟩
  have : b = b' := by
    rw [Bool.eq_iff_iff, h3, h3']
    refine holds_alike (fun r r' hr => ?_) hQ
    obtain ⟨k | ⟨k1, k2, k3, k4, k5⟩, q1, q2, q3, q4⟩ := hr
    · exact relisted_holds po r r' k
    · by_cases hn : r.expression.operand = .N
      · rw [actual_relation po d ho hd r q1 q3, actual_relation po d ho hd r' q2 q4]
        obtain ⟨⟨o, m⟩, op, l⟩ := r
        obtain ⟨e', op', l'⟩ := r'
        simp only at k1 k2 k3 k4 k5 hn
        subst k1 k2 k3 hn
        have := (actual_covers d l).trans ((and_congr_right fun _ => k5 d.i).trans (actual_covers d l').symm)
        rcases k4 with rfl | rfl | rfl <;> exact this
      · refine relisted_holds po r r' ⟨k1, k2, .inr (.inr ⟨?_, hn, k5⟩)⟩
        rcases k4 with k | k | k <;> simp [k, IsWithin]
  subst this
  exact ⟨e, e', b, h1, h1', h2, h2'⟩

/-- C114: a range may be written out as its values exactly if the operand is not `n`, or is `n` without modulus and negation; else there is a
number on which the code of the two relations differs. -/
theorem C114_written_out (ex : Expression) (op : Operator) (hop : Positive op ∨ Negative op) (lo hi : Nat) (h : lo ≤ hi) (hm : ex.modulus ≠ some 0)
    (hb : hi + ex.modulus.getD 0 < 2 ^ 53) :
    (∀ po d, OperandsOf po d → Fits d → ∃ e e' b, Code [[⟨ex, op, [.range lo hi]⟩]] e ∧
      Code [[⟨ex, op, (List.range' lo (hi + 1 - lo)).map .value⟩]] e' ∧ e.eval po = some (.bool b) ∧ e'.eval po = some (.bool b)) ↔
    ex.operand ≠ .N ∨ ex.modulus = none ∧ Positive op := by
  have hw : ¬ IsWithin op := by rcases hop with (rfl | rfl | rfl) | (rfl | rfl | rfl) <;> simp [IsWithin]
  have hmem : ∀ x, x ∈ (List.range' lo (hi + 1 - lo)).map RangeListItem.value ↔ ∃ k, x = .value k ∧ lo ≤ k ∧ k ≤ hi := by
    intro x
    rw [List.mem_map]
    constructor
    · rintro ⟨k, hk, rfl⟩
      rw [List.mem_range'_1] at hk
      exact ⟨k, rfl, by omega⟩
    · rintro ⟨k, rfl, hk⟩
      exact ⟨k, by rw [List.mem_range'_1]; omega, rfl⟩
  have hsame : SameIntegers [.range lo hi] ((List.range' lo (hi + 1 - lo)).map .value) := by
    intro k
    simp [Covers, hmem]
  obtain ⟨l', hl'⟩ : ∃ l', l' = (List.range' lo (hi + 1 - lo)).map RangeListItem.value := ⟨_, rfl⟩
  rw [← hl'] at hmem hsame ⊢
  have g : ∀ l : List RangeListItem, l ≠ [] → Listed ⟨ex, op, l⟩ ∧ ¬ DividesByZero ⟨ex, op, l⟩ := fun l hl =>
    ⟨⟨hl, fun h => absurd h hw⟩, fun h => hm h.1⟩
  have g1 := g [.range lo hi] (by simp)
  have g2 := g l' (fun h0 => by have := (hmem (.value lo)).2 ⟨lo, rfl, le_refl _, h⟩; rw [h0] at this; cases this)
  have x1 : Actual.Exact ⟨ex, op, [.range lo hi]⟩ := by
    intro _ _
    rcases hop with (rfl | rfl | rfl) | (rfl | rfl | rfl) <;> simp
  have x2 : Actual.Exact ⟨ex, op, l'⟩ := by
    intro _ _
    have : ∀ k, RangeListItem.value k ∈ l' → k < 2 ^ 53 := fun k hk => by
      obtain ⟨k', hk', h1, h2⟩ := (hmem _).1 hk
      cases hk'
      omega
    rcases hop with (rfl | rfl | rfl) | (rfl | rfl | rfl) <;> exact this
  have one : ∀ r, (Listed r ∧ ¬ DividesByZero r) → AllRelations (fun r => Listed r ∧ ¬ DividesByZero r) [[r]] := fun r hr => ⟨by simp, by simpa using hr⟩
  have alike : ∀ r r', Rewritten r r' → AlikeOr Rewritten [[r]] [[r']] := fun r r' hr => by simpa [AlikeOr, AlikeAnd] using hr
  constructor
  · intro hall
    by_contra hcon
    rw [not_or, not_not] at hcon
    obtain ⟨hn, hcon⟩ := hcon
    have hsame' : ∀ po d, OperandsOf po d → Fits d →
        (Actual.RelationHolds d ⟨ex, op, [.range lo hi]⟩ ↔ Actual.RelationHolds d ⟨ex, op, l'⟩) := by
      intro po d ho hd
      obtain ⟨e, e', b, c1, c2, c3, c4⟩ := hall po d ho hd
      obtain ⟨e1, b1, d1, d2, d3⟩ := C96_code _ (one _ g1) po
      obtain ⟨e2, b2, f1, f2, f3⟩ := C96_code _ (one _ g2) po
      cases code_unique c1 d1
      cases code_unique c2 f1
      rw [c3] at d2; cases d2
      rw [c4] at f2; cases f2
      rw [← actual_relation po d ho hd _ g1 x1, ← actual_relation po d ho hd _ g2 x2]
      simpa [OnOperands.Holds] using d3.symm.trans f3
    obtain ⟨o, m⟩ := ex
    simp only at hn hcon hm hb
    subst hn
    cases m with
    | none =>
      -- one half
      have hneg : Negative op := hop.resolve_left fun hp => hcon ⟨rfl, hp⟩
      obtain ⟨po, h3, h4, -⟩ := C11_decimal [] (.inl rfl) [0] [5] (by simp) (by simp) (by decide) (by decide)
      have hf : (decOf [0] [5]).f = 5 := by decide
      have := hsame' po _ h4 (.inl ⟨by decide, by decide⟩)
      have r1 : ¬ ∀ x ∈ [RangeListItem.range lo hi], Actual.Rejects (decOf [0] [5]) ⟨.N, none⟩ x := by
        simp [Actual.Rejects, hf]
      have r2 : ∀ x ∈ l', Actual.Rejects (decOf [0] [5]) ⟨.N, none⟩ x := by
        intro x hx
        obtain ⟨k, rfl, -⟩ := (hmem x).1 hx
        simp [Actual.Rejects, hf]
      rcases hneg with rfl | rfl | rfl <;> exact r1 (this.2 r2)
    | some m =>
      have hm0 : 0 < m := Nat.pos_of_ne_zero fun h0 => hm (by rw [h0])
      simp only [Option.getD_some] at hb
      have hwit : ∃ i, i < 2 ^ 53 ∧ ¬ ((lo ≤ i ∧ i ≤ hi) ↔ (lo ≤ i % m ∧ i % m ≤ hi)) := by
        by_cases hlm : lo < m
        · have e1 := Nat.div_add_mod (hi - lo) m
          have e2 := Nat.mod_lt (hi - lo) hm0
          refine ⟨lo + m * ((hi - lo) / m + 1), ?_, fun hiff => ?_⟩
          · rw [Nat.mul_add]; omega
          · rw [Nat.add_mul_mod_self_left, Nat.mod_eq_of_lt hlm] at hiff
            have := (hiff.2 ⟨le_refl _, h⟩).2
            rw [Nat.mul_add] at this
            omega
        · refine ⟨lo, by omega, fun hiff => ?_⟩
          have := (hiff.1 ⟨le_refl _, h⟩).1
          have := Nat.mod_lt lo hm0
          omega
      obtain ⟨i, hi1, hi2⟩ := hwit
      have := hsame' _ _ (C08_operands i) (fits_nat i (by omega))
      have p1 : (∃ x ∈ [RangeListItem.range lo hi], Actual.Accepts ⟨i, []⟩ ⟨.N, some m⟩ x) ↔ (lo ≤ i ∧ i ≤ hi) := by
        simp [Actual.Accepts, Dec.i]
      have p2 : (∃ x ∈ l', Actual.Accepts ⟨i, []⟩ ⟨.N, some m⟩ x) ↔ (lo ≤ i % m ∧ i % m ≤ hi) := by
        simp [hmem, Actual.Accepts, Actual.look, Dec.i]
      have q1 : (∀ x ∈ [RangeListItem.range lo hi], Actual.Rejects ⟨i, []⟩ ⟨.N, some m⟩ x) ↔ ¬ (lo ≤ i ∧ i ≤ hi) := by
        simp [Actual.Rejects, Dec.i]
      have q2 : (∀ x ∈ l', Actual.Rejects ⟨i, []⟩ ⟨.N, some m⟩ x) ↔ ¬ (lo ≤ i % m ∧ i % m ≤ hi) := by
        simp only [hmem]
        constructor
        · intro hr hc
          simpa [Actual.Rejects, Actual.look, Dec.i] using hr _ ⟨i % m, rfl, hc⟩
        · rintro hr x ⟨k, rfl, hk⟩
          simp only [Actual.Rejects, Actual.look, Dec.i]
          rintro ⟨rfl, -⟩
          exact hr hk
      rcases hop with (rfl | rfl | rfl) | (rfl | rfl | rfl) <;> simp only [Actual.RelationHolds] at this
      all_goals first
        | exact hi2 (p1.symm.trans (this.trans p2))
        | exact hi2 (not_iff_not.1 (q1.symm.trans (this.trans q2)))
  · intro hgood po d ho hd
    refine C114_numbers _ _ (one _ g1) (one _ g2) (by simpa using x1) (by simpa using x2) (alike _ _ ?_) po d ho hd
    rcases hgood with hn | ⟨h1, h2⟩
    · exact .inl ⟨rfl, rfl, .inr (.inr ⟨hw, hn, hsame⟩)⟩
    · exact .inr ⟨rfl, rfl, h1, h2, hsame⟩

/-- C114: two libraries whose files have alike rules for a locale give the same answers on all operands. -/
theorem C114_library (texts : List Str) (rs : List Generate.Resource) (hr : List.Forall₂ ResourceText texts rs) (out : Str)
    (h : generateText LangId.parse texts = some out) (text : Str) (hf : Formatted out text) (lib : Library) (hb : build text = some lib) (t : PluralRuleType) (obj : TypeObj)
    (ho : rs.filterMap (dataOf t) = [obj]) (texts' : List Str) (rs' : List Generate.Resource) (hr' : List.Forall₂ ResourceText texts' rs') (out' : Str)
    (h' : generateText LangId.parse texts' = some out') (text' : Str) (hf' : Formatted out' text') (lib' : Library) (hb' : build text' = some lib') (obj' : TypeObj)
    (ho' : rs'.filterMap (dataOf t) = [obj']) (search : List (LangId × Closure) → LangId → Except Nat Nat) (hs : Searches search)
    (id : LangId) (pr pr' : PluralRules) (hc : lib.create search id t = some (.ok pr)) (hc' : lib'.create search id t = some (.ok pr'))
    (halike : ∀ key rules key' rules' x x', LastOf obj key rules → LastOf obj' key' rules' → LangId.parse key = some x → LangId.parse key' = some x' →
      id = { x with variants := none } → id = { x' with variants := none } → RewrittenRules rules rules') :
    ∀ po, ∃ c, pr.function.call po = some c ∧ pr'.function.call po = some c := by
  intro po
  obtain ⟨key, rules, x, k1, -, k3, k4, k5⟩ := C96_library texts rs hr out h text hf lib hb t obj ho search hs id pr hc
  obtain ⟨key', rules', x', k1', -, k3', k4', k5'⟩ := C96_library texts' rs' hr' out' h' text' hf' lib' hb' t obj' ho' search hs id pr' hc'
  have htot : pr.function.call po ≠ none := by
    have := C93_create texts rs hr out h text hf lib hb t obj ho search hs id
    rw [hc] at this
    exact this.2.1 po
  obtain ⟨c, hcall⟩ := Option.ne_none_iff_exists'.1 htot
  refine ⟨c, hcall, (k5' po c).2 (first_alike (halike _ _ _ _ _ _ k1 k1' k3 k3' k4 k4') (fun c c' hcc => ?_) c ((k5 po c).1 hcall))⟩
  exact holds_alike (relisted_holds po) hcc

/-! ## Examples -/

/-- `v = 0 and i = 1..3 or i % 10 = 4` and `i % 10 = 4,4 or i = 3,1..2 and v = 0`. -/
example : AlikeOr Relisted [[⟨⟨.V, none⟩, .EQ, [.value 0]⟩, ⟨⟨.I, none⟩, .EQ, [.range 1 3]⟩], [⟨⟨.I, some 10⟩, .EQ, [.value 4]⟩]]
    [[⟨⟨.I, some 10⟩, .EQ, [.value 4, .value 4]⟩], [⟨⟨.I, none⟩, .EQ, [.value 3, .range 1 2]⟩, ⟨⟨.V, none⟩, .EQ, [.value 0]⟩]] := by
  have h1 : Relisted ⟨⟨.V, none⟩, .EQ, [.value 0]⟩ ⟨⟨.V, none⟩, .EQ, [.value 0]⟩ := ⟨rfl, rfl, .inl rfl⟩
  have h2 : Relisted ⟨⟨.I, none⟩, .EQ, [.range 1 3]⟩ ⟨⟨.I, none⟩, .EQ, [.value 3, .range 1 2]⟩ :=
    ⟨rfl, rfl, .inr (.inr ⟨by simp [IsWithin], by simp, fun k => by simp [Covers]; omega⟩)⟩
  have h3 : Relisted ⟨⟨.I, some 10⟩, .EQ, [.value 4]⟩ ⟨⟨.I, some 10⟩, .EQ, [.value 4, .value 4]⟩ :=
    ⟨rfl, rfl, .inr (.inl ⟨by simp [IsWithin], fun x => by simp⟩)⟩
  simp [AlikeOr, AlikeAnd, h1, h2, h3]

/-- `n = 1..3` and `n = 1,2,3` are the same on numbers; `n % 10 = 2..4` and `n % 10 = 2,3,4` are not. -/
example : (∀ po d, OperandsOf po d → Fits d → ∃ e e' b, Code [[⟨⟨.N, none⟩, .EQ, [.range 1 3]⟩]] e ∧
      Code [[⟨⟨.N, none⟩, .EQ, [.value 1, .value 2, .value 3]⟩]] e' ∧ e.eval po = some (.bool b) ∧ e'.eval po = some (.bool b)) ∧
    ¬ (∀ po d, OperandsOf po d → Fits d → ∃ e e' b, Code [[⟨⟨.N, some 10⟩, .EQ, [.range 2 4]⟩]] e ∧
      Code [[⟨⟨.N, some 10⟩, .EQ, [.value 2, .value 3, .value 4]⟩]] e' ∧ e.eval po = some (.bool b) ∧ e'.eval po = some (.bool b)) :=
  ⟨(C114_written_out ⟨.N, none⟩ .EQ (.inl (by simp [Positive])) 1 3 (by omega) (by simp) (by norm_num)).2 (by simp [Positive]),
    fun h => by simpa using (C114_written_out ⟨.N, some 10⟩ .EQ (.inl (by simp [Positive])) 2 4 (by omega) (by simp) (by norm_num)).1 h⟩

/-- The rules `i = 1..2` and `i = 2,1` are alike. -/
example : RewrittenRules [(c!"pluralRule-count-one", c!"i = 1..2")] [(c!"pluralRule-count-one", c!"i = 2,1")] := by
  have h1 : ConditionOf 64 c!"i = 1..2" [[⟨⟨.I, none⟩, .EQ, [.range 1 2]⟩]] := parsePluralCondition_ok.1 (by with_unfolding_all rfl)
  have h2 : ConditionOf 64 c!"i = 2,1" [[⟨⟨.I, none⟩, .EQ, [.value 2, .value 1]⟩]] := parsePluralCondition_ok.1 (by with_unfolding_all rfl)
  have h3 : AlikeOr Relisted [[⟨⟨.I, none⟩, .EQ, [.range 1 2]⟩]] [[⟨⟨.I, none⟩, .EQ, [.value 2, .value 1]⟩]] := by
    have : Relisted ⟨⟨.I, none⟩, .EQ, [.range 1 2]⟩ ⟨⟨.I, none⟩, .EQ, [.value 2, .value 1]⟩ :=
      ⟨rfl, rfl, .inr (.inr ⟨by simp [IsWithin], by simp, fun k => by simp [Covers]; omega⟩)⟩
    simp [AlikeOr, AlikeAnd, this]
  constructor
  · rintro name c cond ⟨k1, k2, text, hl, hp⟩
    have hm := (lastOf_nodup (by decide) name text).1 hl
    simp only [List.mem_singleton, Prod.mk.injEq] at hm
    obtain ⟨rfl, rfl⟩ := hm
    cases C89_one 64 _ _ _ hp h1
    exact ⟨_, ⟨k1, k2, _, ⟨[], [], rfl, by simp⟩, h2⟩, h3⟩
  · rintro name c cond ⟨k1, k2, text, hl, hp⟩
    have hm := (lastOf_nodup (by decide) name text).1 hl
    simp only [List.mem_singleton, Prod.mk.injEq] at hm
    obtain ⟨rfl, rfl⟩ := hm
    cases C89_one 64 _ _ _ hp h2
    exact ⟨_, ⟨k1, k2, _, ⟨[], [], rfl, by simp⟩, h1⟩, h3⟩

end Verif.Props
