import Verif.Lemmas.Parser

/-!
# Lemmas: canonical text, monotonicity and well-formedness of the grammar
-/

namespace Verif.Grammar
open Verif Spec Uts35 Strings

theorem natDigits_ne (n : Nat) : natDigits n ≠ [] := by
  unfold natDigits; split_ifs <;> simp

theorem digitsNum_natDigits (n : Nat) : digitsNum (natDigits n) = n := by
  induction n using Nat.strong_induction_on with
  | _ n ih =>
    unfold natDigits
    split_ifs with h
    · simp [digitsNum, Fin.ofNat]; omega
    · rw [digitsNum_append, ih (n / 10) (by omega)]
      simp [digitsNum, Fin.ofNat]; omega

variable {bits : Nat}

theorem printNat_text {n : Nat} (h : n < 2 ^ bits) : ValueText bits (printNat n) n :=
  ⟨natDigits n, natDigits_ne n, rfl, (digitsNum_natDigits n).symm, h⟩

/-- Joined texts. -/
theorem join_text {α : Type} {Sep : Str → Prop} {E : Str → α → Prop} {sep : Str} {f : α → Str} (hsep : Sep sep) :
    ∀ l : List α, l ≠ [] → (∀ a ∈ l, E (f a) a) → SepText Sep E E (join sep (l.map f)) l
  | [], h, _ => absurd rfl h
  | [a], _, h => .last (h a (by simp))
  | a :: b :: l, _, h => .cons (h a (by simp)) hsep (join_text hsep (b :: l) (by simp) fun x hx => h x (by simp [hx]))

theorem spaces1_one : Spaces1 c!" " := ⟨by simp [Spaces], by simp⟩
theorem spaces_one : Spaces c!" " := spaces1_one.1
theorem spaces_nil : Spaces [] := by simp [Spaces]

theorem printItem_text {x : RangeListItem} (h : itemNumbers (· < 2 ^ bits) x) : ItemText bits (printItem x) x := by
  cases x with
  | value k => exact .value (printNat_text h)
  | range a b => exact .range (printNat_text h.1) (printNat_text h.2)

theorem printExpr_text {e : Expression} (h : ∀ m, e.modulus = some m → m < 2 ^ bits) : ExprText bits (printExpr e) e := by
  obtain ⟨o, m⟩ := e
  cases m with
  | none => exact .plain o
  | some m => exact .modulo o spaces_one (.inr rfl) spaces1_one (printNat_text (h m rfl))

theorem comma_mark : Mark c!"," c!"," := ⟨[], [], spaces_nil, spaces_nil, rfl⟩
theorem word_one (w : Str) : Word w (c!" " ++ (w ++ c!" ")) := ⟨c!" ", c!" ", spaces1_one, spaces1_one, rfl⟩

theorem printRelation_text {r : Relation} (h : relNumbers (· < 2 ^ bits) r) (hl : r.rangeList ≠ []) :
    RelText bits (printRelation r) r := by
  obtain ⟨e, op, l⟩ := r
  obtain ⟨h1, h2⟩ := h
  have he := printExpr_text (bits := bits) h1
  have ht : ListText bits (join c!"," (l.map printItem)) l := join_text comma_mark l hl fun x hx => printItem_text (h2 x hx)
  have key : ∀ {o b : Str}, OpText o op → Spaces b → o ++ b = printOp op ++ c!" " → RelText bits (printRelation ⟨e, op, l⟩) ⟨e, op, l⟩ := by
    intro o b ho hb h
    have := RelText.mk he spaces_one ho hb ht
    have e : printRelation ⟨e, op, l⟩ = printExpr e ++ (c!" " ++ ((printOp op ++ c!" ") ++ join c!"," (l.map printItem))) := by
      unfold printRelation; simp
    rw [e, ← h]
    simpa using this
  cases op with
  | EQ => exact key .eq spaces_one rfl
  | NotEQ => exact key .ne spaces_one rfl
  | Is => exact key (.is spaces1_one) spaces_nil rfl
  | IsNot => exact key (.isNot spaces1_one) spaces_one rfl
  | In => exact key .in spaces_one rfl
  | NotIn => exact key (.notIn spaces1_one) spaces_one rfl
  | Within => exact key .within spaces_one rfl
  | NotWithin => exact key (.notWithin spaces1_one) spaces_one rfl

theorem printCondition_text {c : Condition} (hc : CondOk c) (hn : ∀ a ∈ c, ∀ x ∈ a, relNumbers (· < 2 ^ bits) x) :
    CondText bits (printCondition c) c :=
  join_text (word_one c!"or") c hc.1 fun a ha =>
    join_text (word_one c!"and") a (hc.2 a ha).1 fun r hr => printRelation_text (hn a ha r hr) ((hc.2 a ha).2 r hr)

theorem printDecimal_text {d : DecimalValue} (h : d.integer < 2 ^ bits ∧ ∀ f, d.decimal = some f → f < 2 ^ bits) :
    DecimalText bits (printDecimal d) d := by
  obtain ⟨i, f⟩ := d
  cases f with
  | none => exact .int (printNat_text h.1)
  | some f => exact .dec (printNat_text h.1) (printNat_text (h.2 f rfl))

theorem printSampleRange_text {x : SampleRange} (h : x.lower.integer < 2 ^ bits ∧ (∀ d, x.lower.decimal = some d → d < 2 ^ bits) ∧
    ∀ u, x.upper = some u → u.integer < 2 ^ bits ∧ ∀ d, u.decimal = some d → d < 2 ^ bits) :
    SampleRangeText bits (printSampleRange x) x := by
  obtain ⟨l, u⟩ := x
  cases u with
  | none => exact .one (printDecimal_text ⟨h.1, h.2.1⟩)
  | some u => exact .two (printDecimal_text ⟨h.1, h.2.1⟩) ⟨[], [], spaces_nil, spaces_nil, rfl⟩ (printDecimal_text (h.2.2 u rfl))

theorem printSampleList_text {l : SampleList} (h : sampleNumbers (· < 2 ^ bits) l) (hne : l.ranges ≠ []) :
    SampleListText bits (printSampleList l) l := by
  obtain ⟨l, e⟩ := l
  have hm : Mark c!"," c!", " := ⟨[], c!" ", spaces_nil, spaces_one, rfl⟩
  have ht : SepText (Mark c!",") (SampleRangeText bits) (SampleRangeText bits) (join c!", " (l.map printSampleRange)) l :=
    join_text hm l hne fun x hx => printSampleRange_text (h x hx)
  cases e with
  | false => simpa [printSampleList] using SampleListText.plain ht
  | true => exact .more ht hm (.inr rfl)

theorem printSamples_text {s : Samples} (hok : SamplesOk s) (hi : ∀ l, s.integer = some l → sampleNumbers (· < 2 ^ bits) l)
    (hd : ∀ l, s.decimal = some l → sampleNumbers (· < 2 ^ bits) l) : SamplesText bits (printSamples s) s := by
  obtain ⟨i, d⟩ := s
  obtain ⟨h0, h1, h2⟩ := hok
  cases i with
  | none =>
    cases d with
    | none => simp at h0
    | some d =>
      have := SamplesText.dec (word_one c!"@decimal") (printSampleList_text (hd d rfl) (h2 d rfl))
      simpa [printSamples] using this
  | some i =>
    replace hi := printSampleList_text (hi i rfl) (h1 i rfl)
    cases d with
    | none =>
      have := SamplesText.int (word_one c!"@integer") hi
      simpa [printSamples] using this
    | some d =>
      have := SamplesText.both (word_one c!"@integer") hi (word_one c!"@decimal") (printSampleList_text (hd d rfl) (h2 d rfl))
      simpa [printSamples] using this

theorem printRule_text {r : Rule} (h : RuleOk bits r) : RuleText bits (printRule r) r := by
  obtain ⟨c, s⟩ := r
  obtain ⟨h1, h2, h3, h4⟩ := h
  have hc := printCondition_text h1 h3
  cases s with
  | none => simpa [printRule] using RuleText.cond hc
  | some s => exact .full hc (printSamples_text (h2 s rfl) (h4 s rfl).1 (h4 s rfl).2)

/-! ## Larger numbers -/

section mono
variable {b b' : Nat} (hb : b ≤ b')
include hb

theorem ValueText.mono {s : Str} {k : Nat} (h : ValueText b s k) : ValueText b' s k := by
  obtain ⟨l, h1, h2, h3, h4⟩ := h
  exact ⟨l, h1, h2, h3, lt_of_lt_of_le h4 (Nat.pow_le_pow_right (by omega) hb)⟩

theorem ItemText.mono {s : Str} {x : RangeListItem} (h : ItemText b s x) : ItemText b' s x := by
  cases h with
  | value h => exact .value (h.mono hb)
  | range h1 h2 => exact .range (h1.mono hb) (h2.mono hb)

theorem ExprText.mono {s : Str} {x : Expression} (h : ExprText b s x) : ExprText b' s x := by
  cases h with
  | plain o => exact .plain o
  | modulo o h1 h2 h3 h4 => exact .modulo o h1 h2 h3 (h4.mono hb)

theorem RelText.mono {s : Str} {x : Relation} (h : RelText b s x) : RelText b' s x := by
  obtain ⟨hs, ha, ho, hb', ht⟩ := h
  exact .mk (hs.mono hb) ha ho hb' (Nom.SepText.mono (fun _ _ h => h.mono hb) (fun _ _ h => h.mono hb) ht)

theorem OpenText.mono {s : Str} {x : Relation} (h : OpenText b s x) : OpenText b' s x := by
  obtain ⟨hs, ha, ho, hb'⟩ := h
  exact .mk (hs.mono hb) ha ho hb'

theorem CondText.mono {s : Str} {x : Condition} (h : CondText b s x) : CondText b' s x :=
  have ha : ∀ s a, AndText b s a → AndText b' s a := fun _ _ h => Nom.SepText.mono (fun _ _ h => h.mono hb) (fun _ _ h => h.mono hb) h
  Nom.SepText.mono ha ha h

theorem OpenCondText.mono {s : Str} {x : Condition} (h : OpenCondText b s x) : OpenCondText b' s x :=
  have ha : ∀ s a, AndText b s a → AndText b' s a := fun _ _ h => Nom.SepText.mono (fun _ _ h => h.mono hb) (fun _ _ h => h.mono hb) h
  Nom.SepText.mono ha (fun _ _ h => Nom.SepText.mono (fun _ _ h => h.mono hb) (fun _ _ h => h.mono hb) h) h

theorem DecimalText.mono {s : Str} {x : DecimalValue} (h : DecimalText b s x) : DecimalText b' s x := by
  cases h with
  | int h => exact .int (h.mono hb)
  | dec h1 h2 => exact .dec (h1.mono hb) (h2.mono hb)

theorem SampleRangeText.mono {s : Str} {x : SampleRange} (h : SampleRangeText b s x) : SampleRangeText b' s x := by
  cases h with
  | one h => exact .one (h.mono hb)
  | two h1 h2 h3 => exact .two (h1.mono hb) h2 (h3.mono hb)

theorem SampleListText.mono {s : Str} {x : SampleList} (h : SampleListText b s x) : SampleListText b' s x := by
  cases h with
  | plain h => exact .plain (Nom.SepText.mono (fun _ _ h => h.mono hb) (fun _ _ h => h.mono hb) h)
  | more h1 h2 h3 => exact .more (Nom.SepText.mono (fun _ _ h => h.mono hb) (fun _ _ h => h.mono hb) h1) h2 h3

theorem SamplesText.mono {s : Str} {x : Samples} (h : SamplesText b s x) : SamplesText b' s x := by
  cases h with
  | int h1 h2 => exact .int h1 (h2.mono hb)
  | dec h1 h2 => exact .dec h1 (h2.mono hb)
  | both h1 h2 h3 h4 => exact .both h1 (h2.mono hb) h3 (h4.mono hb)

theorem RuleText.mono {s : Str} {x : Rule} (h : RuleText b s x) : RuleText b' s x := by
  cases h with
  | empty h => exact .empty h
  | cond h => exact .cond (CondText.mono hb h)
  | openCond h => exact .openCond (OpenCondText.mono hb h)
  | full h1 h2 => exact .full (CondText.mono hb h1) (h2.mono hb)

end mono

/-! ## What the trees of texts look like -/

/-- Every element of a list of texts has a text. -/
theorem sep_all {α : Type} {Sep : Str → Prop} {E L : Str → α → Prop} {Q : α → Prop} (hE : ∀ s a, E s a → Q a) (hL : ∀ s a, L s a → Q a)
    {t : Str} {l : List α} (h : SepText Sep E L t l) : ∀ a ∈ l, Q a := by
  induction h with
  | last h => simpa using hL _ _ h
  | cons h1 _ _ ih =>
    intro a ha
    rcases List.mem_cons.1 ha with rfl | ha
    · exact hE _ _ h1
    · exact ih a ha

/-- All but the last, and the last. -/
theorem sep_split {α : Type} {Sep : Str → Prop} {E L : Str → α → Prop} {Q R : α → Prop} (hE : ∀ s a, E s a → Q a) (hL : ∀ s a, L s a → R a)
    {t : Str} {l : List α} (h : SepText Sep E L t l) : ∃ init last, l = init ++ [last] ∧ (∀ a ∈ init, Q a) ∧ R last := by
  induction h with
  | last h => exact ⟨[], _, rfl, by simp, hL _ _ h⟩
  | cons h1 _ _ ih =>
    obtain ⟨init, last, rfl, h2, h3⟩ := ih
    refine ⟨_ :: init, last, rfl, ?_, h3⟩
    intro a ha
    rcases List.mem_cons.1 ha with rfl | ha
    · exact hE _ _ h1
    · exact h2 a ha

theorem ItemText.numbers {s : Str} {x : RangeListItem} (h : ItemText bits s x) : itemNumbers (· < 2 ^ bits) x := by
  cases h with
  | value h => obtain ⟨_, _, _, _, h⟩ := h; exact h
  | range h1 h2 => obtain ⟨_, _, _, _, h1⟩ := h1; obtain ⟨_, _, _, _, h2⟩ := h2; exact ⟨h1, h2⟩

theorem ExprText.numbers {s : Str} {x : Expression} (h : ExprText bits s x) : ∀ m, x.modulus = some m → m < 2 ^ bits := by
  cases h with
  | plain o => simp
  | modulo o _ _ _ h => obtain ⟨_, _, _, _, h⟩ := h; rintro m ⟨⟩; exact h

theorem RelText.numbers {s : Str} {x : Relation} (h : RelText bits s x) : relNumbers (· < 2 ^ bits) x := by
  obtain ⟨hs, _, _, _, ht⟩ := h
  exact ⟨hs.numbers, sep_all (fun _ _ h => h.numbers) (fun _ _ h => h.numbers) ht⟩

theorem OpenText.numbers {s : Str} {x : Relation} (h : OpenText bits s x) : relNumbers (· < 2 ^ bits) x := by
  obtain ⟨hs, _, _, _⟩ := h
  exact ⟨hs.numbers, by simp⟩

theorem DecimalText.numbers {s : Str} {x : DecimalValue} (h : DecimalText bits s x) :
    x.integer < 2 ^ bits ∧ ∀ d, x.decimal = some d → d < 2 ^ bits := by
  cases h with
  | int h => obtain ⟨_, _, _, _, h⟩ := h; exact ⟨h, by simp⟩
  | dec h1 h2 =>
    obtain ⟨_, _, _, _, h1⟩ := h1; obtain ⟨_, _, _, _, h2⟩ := h2
    refine ⟨h1, ?_⟩; rintro d ⟨⟩; exact h2

theorem SampleListText.numbers {s : Str} {x : SampleList} (h : SampleListText bits s x) : sampleNumbers (· < 2 ^ bits) x := by
  have key : ∀ (s : Str) (x : SampleRange), SampleRangeText bits s x → x.lower.integer < 2 ^ bits ∧
      (∀ d, x.lower.decimal = some d → d < 2 ^ bits) ∧
      ∀ u, x.upper = some u → u.integer < 2 ^ bits ∧ ∀ d, u.decimal = some d → d < 2 ^ bits := by
    intro s x h
    cases h with
    | one h => exact ⟨h.numbers.1, h.numbers.2, by simp⟩
    | two h1 _ h2 => refine ⟨h1.numbers.1, h1.numbers.2, ?_⟩; rintro u ⟨⟩; exact h2.numbers
  cases h with
  | plain h => exact sep_all key key h
  | more h _ _ => exact sep_all key key h

theorem RuleText.numbers {s : Str} {x : Rule} (h : RuleText bits s x) : ruleNumbers (· < 2 ^ bits) x := by
  have ha : ∀ (s : Str) (a : AndCondition), AndText bits s a → ∀ x ∈ a, relNumbers (· < 2 ^ bits) x :=
    fun _ _ h => sep_all (fun _ _ h => h.numbers) (fun _ _ h => h.numbers) h
  cases h with
  | empty _ => exact ⟨by simp, by simp⟩
  | cond h => exact ⟨sep_all ha ha h, by simp⟩
  | openCond h =>
    exact ⟨sep_all ha (fun _ _ h => sep_all (fun _ _ h => h.numbers) (fun _ _ h => h.numbers) h) h, by simp⟩
  | full h1 h2 =>
    refine ⟨sep_all ha ha h1, ?_⟩
    rintro s ⟨⟩
    cases h2 with
    | int _ h => exact ⟨by rintro l ⟨⟩; exact h.numbers, by simp⟩
    | dec _ h => exact ⟨by simp, by rintro l ⟨⟩; exact h.numbers⟩
    | both _ h _ h' => exact ⟨by rintro l ⟨⟩; exact h.numbers, by rintro l ⟨⟩; exact h'.numbers⟩

theorem RelText.list {s : Str} {x : Relation} (h : RelText bits s x) : x.rangeList ≠ [] := by
  obtain ⟨_, _, _, _, ht⟩ := h
  exact Nom.SepText.ne_nil ht

theorem AndText.ok {s : Str} {a : AndCondition} (h : AndText bits s a) : a ≠ [] ∧ ∀ r ∈ a, r.rangeList ≠ [] :=
  ⟨Nom.SepText.ne_nil h, sep_all (fun _ _ h => h.list) (fun _ _ h => h.list) h⟩

theorem CondText.ok {s : Str} {c : Condition} (h : CondText bits s c) : CondOk c :=
  ⟨Nom.SepText.ne_nil h, sep_all (fun _ _ h => AndText.ok h) (fun _ _ h => AndText.ok h) h⟩

theorem SampleListText.ok {s : Str} {x : SampleList} (h : SampleListText bits s x) : x.ranges ≠ [] := by
  cases h with
  | plain h => exact Nom.SepText.ne_nil h
  | more h _ _ => exact Nom.SepText.ne_nil h

theorem SamplesText.ok {s : Str} {x : Samples} (h : SamplesText bits s x) : SamplesOk x := by
  cases h with
  | int _ h => exact ⟨by simp, by rintro l ⟨⟩; exact h.ok, by simp⟩
  | dec _ h => exact ⟨by simp, by simp, by rintro l ⟨⟩; exact h.ok⟩
  | both _ h _ h' => exact ⟨by simp, by rintro l ⟨⟩; exact h.ok, by rintro l ⟨⟩; exact h'.ok⟩

/-- A condition that ends in a relation without list. -/
theorem OpenCondText.shape {s : Str} {c : Condition} (h : OpenCondText bits s c) : ∃ A B e op,
    c = A ++ [B ++ [⟨e, op, []⟩]] ∧ (∀ a ∈ A, a ≠ [] ∧ ∀ r ∈ a, r.rangeList ≠ []) ∧ ∀ r ∈ B, r.rangeList ≠ [] := by
  obtain ⟨A, b, rfl, hA, B, r, rfl, hB, hr⟩ := sep_split (Q := fun a => a ≠ [] ∧ ∀ r ∈ a, r.rangeList ≠ [])
    (R := fun a => ∃ B r, a = B ++ [r] ∧ (∀ r ∈ B, r.rangeList ≠ []) ∧ r.rangeList = [])
    (fun _ _ h => AndText.ok h)
    (fun _ _ h => sep_split (Q := fun r => r.rangeList ≠ []) (R := fun r => r.rangeList = []) (fun _ _ h => h.list)
      (fun _ _ h => by obtain ⟨_, _, _, _⟩ := h; rfl) h) h
  obtain ⟨e, op, l⟩ := r
  simp only at hr
  subst hr
  exact ⟨A, B, e, op, rfl, hA, hB⟩

end Verif.Grammar
