import Verif.Conditions
import Verif.Lemmas.Parser

/-!
# Lemmas: the condition parser reads the longest condition
-/

namespace Verif.Nom
open Verif Grammar Spec Uts35 Strings

/-- The text does not end inside a number: where it ends with a digit, no digit follows. -/
def DigitStop (t u : Str) : Prop :=
  ∀ a d e v, t = a ++ [d] → u = e :: v → isDigit d = true → isDigit e = false

theorem digitStop_suffix {x s u : Str} (h : DigitStop (x ++ s) u) : DigitStop s u := by
  intro a d e v h1 h2 h3
  exact h (x ++ a) d e v (by rw [h1, List.append_assoc]) h2 h3

theorem digitStop_prefix {x s u : Str} (hs : s ≠ []) (h : DigitStop s u) : DigitStop (x ++ s) u := by
  intro a d e v h1 h2 h3
  refine h s.dropLast d e v ?_ h2 h3
  have e1 : s = s.dropLast ++ [s.getLast hs] := (List.dropLast_append_getLast hs).symm
  have e2 : (x ++ s.dropLast) ++ [s.getLast hs] = a ++ [d] := by rw [← h1, List.append_assoc, ← e1]
  have := (List.append_inj' e2 rfl).2
  rw [List.cons.injEq] at this
  rw [← this.1]; exact e1

/-- Something was read, and not a part of a number. -/
def Reads (i r : Str) : Prop := ∃ s, s ≠ [] ∧ i = s ++ r ∧ DigitStop s r

theorem Reads.after {x i r : Str} (h : Reads i r) : Reads (x ++ i) r := by
  obtain ⟨s, h1, rfl, h2⟩ := h
  exact ⟨x ++ s, by simp [h1], by simp, digitStop_prefix h1 h2⟩

section sep
variable {α σ : Type} {sep : P σ} {f : P α}

theorem sepLoop_reads (hsep : ∀ i r x, sep i = some (r, x) → ∃ m, i = m ++ r) (hf : ∀ i r a, f i = some (r, a) → Reads i r) :
    ∀ fuel i acc r l, sepLoop sep f fuel i acc = some (r, l) → r = i ∨ Reads i r := by
  intro fuel
  induction fuel with
  | zero => intro i acc r l h; simp [sepLoop] at h
  | succ fuel ih =>
    intro i acc r l h
    unfold sepLoop at h
    cases h1 : sep i with
    | none =>
      rw [h1] at h
      simp only [Option.some.injEq, Prod.mk.injEq] at h
      exact .inl h.1.symm
    | some x =>
      obtain ⟨i1, y⟩ := x
      rw [h1] at h
      simp only at h
      split_ifs at h with h2
      cases h3 : f i1 with
      | none =>
        rw [h3] at h
        simp only [Option.some.injEq, Prod.mk.injEq] at h
        exact .inl h.1.symm
      | some z =>
        obtain ⟨i2, o⟩ := z
        rw [h3] at h
        simp only at h
        split_ifs at h with h4
        obtain ⟨m, rfl⟩ := hsep _ _ _ h1
        have h5 := hf _ _ _ h3
        right
        rcases ih _ _ _ _ h with rfl | h6
        · exact h5.after
        · obtain ⟨s, -, rfl, -⟩ := h5
          exact Reads.after (Reads.after h6)

theorem separatedNonemptyList_reads (hsep : ∀ i r x, sep i = some (r, x) → ∃ m, i = m ++ r)
    (hf : ∀ i r a, f i = some (r, a) → Reads i r) {i r : Str} {l : List α} (h : separatedNonemptyList sep f i = some (r, l)) :
    Reads i r := by
  unfold separatedNonemptyList at h
  cases h1 : f i with
  | none => rw [h1] at h; cases h
  | some x =>
    obtain ⟨i1, o⟩ := x
    rw [h1] at h
    simp only at h
    split_ifs at h with h2
    have h5 := hf _ _ _ h1
    rcases sepLoop_reads hsep hf _ _ _ _ _ h with rfl | h6
    · exact h5
    · obtain ⟨s, -, rfl, -⟩ := h5
      exact h6.after

/-- The loop never goes back. -/
theorem sepLoop_le (hsep : ∀ i r x, sep i = some (r, x) → r.length < i.length)
    (hf : ∀ i r x, f i = some (r, x) → r.length < i.length) :
    ∀ (fuel : Nat) (i : Str) (acc : List α), i.length < fuel → ∃ r l, sepLoop sep f fuel i acc = some (r, l) ∧ r.length ≤ i.length := by
  intro fuel
  induction fuel with
  | zero => intro i acc h; omega
  | succ n ih =>
    intro i acc h
    unfold sepLoop
    cases h1 : sep i with
    | none => exact ⟨_, _, rfl, Nat.le_refl _⟩
    | some x =>
      obtain ⟨i1, x⟩ := x
      have l1 := hsep _ _ _ h1
      have n1 : (i1 == i) = false := by
        rw [beq_eq_false_iff_ne]; rintro rfl; omega
      simp only [n1]
      cases h2 : f i1 with
      | none => exact ⟨_, _, rfl, Nat.le_refl _⟩
      | some y =>
        obtain ⟨i2, o⟩ := y
        have l2 := hf _ _ _ h2
        have n2 : (i2 == i) = false := by
          rw [beq_eq_false_iff_ne]; rintro rfl; omega
        simp only [n2]
        obtain ⟨r, l, h3, h4⟩ := ih i2 (o :: acc) (by omega)
        exact ⟨r, l, h3, by omega⟩

variable {Sep : Str → Prop} {E L : Str → α → Prop}

/-- The loop reads at least such a sequence. -/
theorem sepLoop_ge {u : Str} {Fol : Str → Prop}
    (hlsep : ∀ i r x, sep i = some (r, x) → r.length < i.length)
    (hlf : ∀ i r x, f i = some (r, x) → r.length < i.length)
    (hE : ∀ s a r, E s a → Fol r → f (s ++ r) = some (r, a))
    (hL : ∀ s a, L s a → DigitStop s u → ∃ r b, f (s ++ u) = some (r, b) ∧ r.length ≤ u.length)
    (hsep : ∀ m s a r, Sep m → (E s a ∨ L s a) → ∃ x, sep (m ++ (s ++ r)) = some (s ++ r, x))
    (hFol : ∀ m s a r, Sep m → (E s a ∨ L s a) → Fol (m ++ (s ++ r)))
    {t : Str} {l : List α} (h : SepText Sep E L t l) :
    DigitStop t u → ∀ m acc fuel, Sep m → (m ++ (t ++ u)).length < fuel → ∃ r l', sepLoop sep f fuel (m ++ (t ++ u)) acc = some (r, l') ∧
      r.length ≤ u.length := by
  induction h with
  | @last s a hs =>
    intro hd m acc fuel hm hfuel
    obtain ⟨fuel, rfl⟩ : ∃ k, fuel = k + 1 := ⟨fuel - 1, by omega⟩
    obtain ⟨x, hx⟩ := hsep m s a u hm (.inr hs)
    obtain ⟨r, b, hr, hle⟩ := hL s a hs hd
    have l1 := hlsep _ _ _ hx
    have l2 := hlf _ _ _ hr
    obtain ⟨r', l', h1, h2⟩ := sepLoop_le hlsep hlf fuel r (b :: acc) (by omega)
    refine ⟨r', l', ?_, by omega⟩
    unfold sepLoop
    rw [hx]
    simp only [hr]
    rw [if_neg, if_neg, h1]
    · rw [beq_iff_eq]; intro e; have := congrArg List.length e; omega
    · rw [beq_iff_eq]; intro e; have := congrArg List.length e; omega
  | @cons s m' t a l hs hm' ht ih =>
    intro hd m acc fuel hm hfuel
    obtain ⟨fuel, rfl⟩ : ∃ k, fuel = k + 1 := ⟨fuel - 1, by omega⟩
    obtain ⟨x, hx⟩ := hsep m s a (m' ++ (t ++ u)) hm (.inl hs)
    have e : m ++ ((s ++ (m' ++ t)) ++ u) = m ++ (s ++ (m' ++ (t ++ u))) := by simp
    rw [e] at hfuel ⊢
    have hF : Fol (m' ++ (t ++ u)) := by
      cases ht with
      | last h => exact hFol _ _ _ _ hm' (.inr h)
      | cons h _ _ => rw [List.append_assoc]; exact hFol _ _ _ _ hm' (.inl h)
    have hr := hE s a _ hs hF
    have l1 := hlsep _ _ _ hx
    have l2 := hlf _ _ _ hr
    obtain ⟨r', l', h1, h2⟩ := ih (digitStop_suffix (digitStop_suffix hd)) m' (a :: acc) fuel hm' (by omega)
    refine ⟨r', l', ?_, h2⟩
    unfold sepLoop
    rw [hx]
    simp only [hr]
    rw [if_neg, if_neg, h1]
    · rw [beq_iff_eq]; intro e; have := congrArg List.length e; omega
    · rw [beq_iff_eq]; intro e; have := congrArg List.length e; omega

theorem separatedNonemptyList_ge {u : Str} {Fol : Str → Prop}
    (hlsep : ∀ i r x, sep i = some (r, x) → r.length < i.length)
    (hlf : ∀ i r x, f i = some (r, x) → r.length < i.length)
    (hE : ∀ s a r, E s a → Fol r → f (s ++ r) = some (r, a))
    (hL : ∀ s a, L s a → DigitStop s u → ∃ r b, f (s ++ u) = some (r, b) ∧ r.length ≤ u.length)
    (hsep : ∀ m s a r, Sep m → (E s a ∨ L s a) → ∃ x, sep (m ++ (s ++ r)) = some (s ++ r, x))
    (hFol : ∀ m s a r, Sep m → (E s a ∨ L s a) → Fol (m ++ (s ++ r)))
    {t : Str} {l : List α} (h : SepText Sep E L t l) (hd : DigitStop t u) :
    ∃ r l', separatedNonemptyList sep f (t ++ u) = some (r, l') ∧ separatedList sep f (t ++ u) = some (r, l') ∧
      r.length ≤ u.length := by
  have key : ∃ i1 o r l', f (t ++ u) = some (i1, o) ∧ sepLoop sep f (i1.length + 1) i1 [o] = some (r, l') ∧ r.length ≤ u.length := by
    cases h with
    | @last s a hs =>
      obtain ⟨r, b, hr, hle⟩ := hL _ _ hs hd
      obtain ⟨r', l', h1, h2⟩ := sepLoop_le hlsep hlf (r.length + 1) r [b] (by omega)
      exact ⟨_, _, _, _, hr, h1, by omega⟩
    | @cons s m t a l hs hm ht =>
      have hF : Fol (m ++ (t ++ u)) := by
        cases ht with
        | last h => exact hFol _ _ _ _ hm (.inr h)
        | cons h _ _ => rw [List.append_assoc]; exact hFol _ _ _ _ hm (.inl h)
      have e : (s ++ (m ++ t)) ++ u = s ++ (m ++ (t ++ u)) := by simp
      obtain ⟨r', l', h1, h2⟩ := sepLoop_ge hlsep hlf hE hL hsep hFol ht (digitStop_suffix (digitStop_suffix hd)) m [a] _ hm
        (Nat.lt_succ_self _)
      exact ⟨_, a, r', l', by rw [e]; exact hE _ _ _ hs hF, h1, h2⟩
  obtain ⟨i1, o, r, l', h1, h2, h3⟩ := key
  have l1 := hlf _ _ _ h1
  refine ⟨r, l', ?_, ?_, h3⟩ <;>
  · simp only [separatedNonemptyList, separatedList, h1]
    rw [if_neg, h2]
    rw [beq_iff_eq]; intro e; rw [e] at l1; omega

end sep
end Verif.Nom

namespace Verif.Parser
open Verif Nom Grammar Spec Uts35 Strings

variable {bits : Nat}

/-! ## What is read does not end inside a number -/

theorem digitStop_noHead {t u : Str} (h : NoHead isDigit u) : DigitStop t u := fun _ _ e v _ h2 _ => h e v h2

/-- A text that ends with a letter, a sign or a space. -/
theorem digitStop_last {t u : Str} (h : ∀ a d, t = a ++ [d] → isDigit d = false) : DigitStop t u := by
  intro a d e v h1 _ h3
  rw [h a d h1] at h3; cases h3

theorem item_reads {i r : Str} {x : RangeListItem} (h : rangeListItem bits i = some (r, x)) : Reads i r := by
  obtain ⟨s, rfl, hs⟩ := item_sound h
  obtain ⟨c, t, rfl, hc⟩ := hs.head
  refine ⟨c :: t, by simp, rfl, digitStop_noHead ?_⟩
  simp only [rangeListItem, alt_some, map_some, range, separatedPair, pair_some] at h
  rcases h with ⟨⟨a, b⟩, ⟨⟨a', u, b'⟩, ⟨r1, h1, r2, h2, h3⟩, h4⟩, rfl⟩ | ⟨-, k, h1, rfl⟩
  · exact (value_sound h3).choose_spec.2.2
  · exact (value_sound h1).choose_spec.2.2

theorem commaSep_suffix {i r : Str} {x : Str × Str × Str} (h : commaSep i = some (r, x)) : ∃ m, i = m ++ r := by
  obtain ⟨m, e, -⟩ := mark_sound h; exact ⟨m, e⟩

theorem word_suffix {w i r : Str} {x : Str × Str × Str} (h : pair space1 (pair (tag w) space1) i = some (r, x)) : ∃ m, i = m ++ r := by
  obtain ⟨m, e, -⟩ := word_sound h; exact ⟨m, e⟩

/-- An operator ends with a sign, a letter or a space. -/
theorem op_last {o : Str} {op : Operator} (h : OpText o op) : ∀ a d, o = a ++ [d] → isDigit d = false := by
  have key : ∀ {p : Str} {c : Char}, isDigit c = false → ∀ a d, p ++ [c] = a ++ [d] → isDigit d = false := by
    intro p c hc a d e
    have := (List.append_inj' e rfl).2
    rw [List.cons.injEq] at this
    rw [← this.1]; exact hc
  cases h with
  | eq => exact key (p := []) (by decide)
  | ne => exact key (p := c!"!") (by decide)
  | @is a ha =>
    intro p d e
    have hmem : d ∈ a := by
      have e1 := (List.dropLast_append_getLast ha.2).symm
      rw [e1, ← List.append_assoc] at e
      have := (List.append_inj' e rfl).2
      rw [List.cons.injEq] at this
      rw [← this.1]; exact List.getLast_mem ha.2
    rcases ha.1 d hmem with rfl | rfl <;> decide
  | @isNot a ha => have := key (p := c!"is" ++ (a ++ c!"no")) (c := 't') (by decide); simpa using this
  | «in» => exact key (p := c!"i") (by decide)
  | @notIn a ha => have := key (p := c!"not" ++ (a ++ c!"i")) (c := 'n') (by decide); simpa using this
  | @notWithin a ha => have := key (p := c!"not" ++ (a ++ c!"withi")) (c := 'n') (by decide); simpa using this
  | within => exact key (p := c!"withi") (by decide)

theorem openText_digitStop {s u : Str} {x : Relation} (h : OpenText bits s x) : DigitStop s u := by
  obtain @⟨s, a, o, b, e, op, hs, ha, ho, hb⟩ := h
  have hone : o ≠ [] := by obtain ⟨c, t, rfl, -⟩ := ho.head; simp
  refine digitStop_prefix (by simp [hone]) (digitStop_prefix (by simp [hone]) ?_)
  by_cases hbe : b = []
  · subst hbe
    rw [List.append_nil]
    exact digitStop_last (op_last ho)
  · refine digitStop_prefix hbe (digitStop_last ?_)
    intro p d e
    rcases hb d (by rw [e]; simp) with rfl | rfl <;> decide

theorem relation_reads {i r : Str} {x : Relation} (h : relation bits i = some (r, x)) : Reads i r := by
  obtain ⟨s, rfl, hs⟩ := relation_sound h
  have hne : s ≠ [] := by
    obtain ⟨o, t, rfl⟩ : ∃ o t, s = operandLetter o :: t := hs.elim (fun h => h.head) (fun h => h.1.head)
    simp
  rcases hs with hs | ⟨hs, -⟩
  · simp only [relation, map_some, pair_some] at h
    obtain ⟨⟨e, a, o, b, l⟩, ⟨r1, h1, r2, h2, r3, h3, r4, h4, h5⟩, rfl⟩ := h
    obtain ⟨s1, e1, -⟩ := expr_sound h1
    obtain ⟨-, e2, -⟩ := space0_some h2
    obtain ⟨s3, e3, -⟩ := op_sound h3
    obtain ⟨-, e4, -⟩ := space0_some h4
    have h6 : separatedList commaSep (rangeListItem bits) r4 = some (r, l) := h5
    unfold separatedList at h6
    cases h7 : rangeListItem bits r4 with
    | none =>
      rw [h7] at h6
      simp only [Option.some.injEq, Prod.mk.injEq] at h6
      obtain ⟨-, rfl⟩ := h6
      obtain @⟨_, _, _, _, t, _, _, _, _, _, _, _, ht⟩ := hs
      exact absurd rfl (SepText.ne_nil ht)
    | some y =>
      have h8 : separatedNonemptyList commaSep (rangeListItem bits) r4 = some (r, l) := by
        unfold separatedNonemptyList; rw [h7] at h6 ⊢; exact h6
      have h9 := separatedNonemptyList_reads (fun _ _ _ h => commaSep_suffix h) (fun _ _ _ h => item_reads h) h8
      rw [e1, e2, e3, e4]
      exact Reads.after (Reads.after (Reads.after (Reads.after h9)))
  · exact ⟨s, hne, rfl, openText_digitStop hs⟩

theorem conditionList_reads {i r : Str} {x : Condition} (h : conditionList bits i = some (r, x)) : Reads i r :=
  separatedNonemptyList_reads (fun _ _ _ h => word_suffix (w := c!"or") h)
    (fun _ _ _ h => separatedNonemptyList_reads (fun _ _ _ h => word_suffix (w := c!"and") h) (fun _ _ _ h => relation_reads h) h) h

/-! ## At least what is there is read -/

theorem digits_last {s : Str} {k : Nat} (h : ValueText bits s k) : ∃ a d, s = a ++ [d] ∧ isDigit d = true := by
  obtain ⟨l, hne, rfl, -⟩ := h
  have hn : digitText l ≠ [] := by cases l with
    | nil => contradiction
    | cons d l => simp [digitText]
  refine ⟨_, _, (List.dropLast_append_getLast hn).symm, ?_⟩
  have := digitText_all l
  rw [List.all_eq_true] at this
  exact this _ (List.getLast_mem hn)

theorem value_stop {s u : Str} {k : Nat} (h : ValueText bits s k) (hd : DigitStop s u) : NoHead isDigit u := by
  obtain ⟨a, d, e, hdig⟩ := digits_last h
  intro c t hc
  exact hd a d c t e hc hdig

theorem item_ge {s u : Str} {x : RangeListItem} (h : ItemText bits s x) (hd : DigitStop s u) :
    ∃ r b, rangeListItem bits (s ++ u) = some (r, b) ∧ r.length ≤ u.length := by
  cases h with
  | value h =>
    have h1 := value_complete h (value_stop h hd)
    cases h3 : map (range bits) (fun r => RangeListItem.range r.1 r.2) (s ++ u) with
    | none => exact ⟨u, _, by rw [rangeListItem, alt_right h3]; exact map_of h1, Nat.le_refl _⟩
    | some y =>
      obtain ⟨r, b⟩ := y
      refine ⟨r, b, by rw [rangeListItem]; exact alt_left h3, ?_⟩
      simp only [map_some, range, separatedPair, pair_some] at h3
      obtain ⟨_, ⟨_, ⟨r1, h4, r2, h5, h6⟩, _⟩, _⟩ := h3
      rw [h1, Option.some.injEq, Prod.mk.injEq] at h4
      obtain ⟨rfl, -⟩ := h4
      obtain ⟨rfl, -⟩ := tag_some.1 h5
      obtain ⟨_, rfl, -⟩ := value_sound h6
      simp only [List.length_append]; omega
  | @range s t a b hs ht =>
    have h1 : value bits (s ++ (c!".." ++ (t ++ u))) = some (c!".." ++ (t ++ u), a) :=
      value_complete hs (noHead_cons.2 (by decide))
    have h2 := tag_of c!".." (t ++ u)
    have h3 := value_complete ht (value_stop ht (digitStop_suffix (digitStop_suffix hd)))
    have e : (s ++ (c!".." ++ t)) ++ u = s ++ (c!".." ++ (t ++ u)) := by simp
    rw [e]
    exact ⟨u, _, alt_left (map_of (map_of (pair_of h1 (pair_of h2 h3)))), Nat.le_refl _⟩

theorem list_ge {t u : Str} {l : List RangeListItem} (h : ListText bits t l) (hd : DigitStop t u) :
    ∃ r b, rangeList bits (t ++ u) = some (r, b) ∧ r.length ≤ u.length := by
  obtain ⟨r, b, -, h1, h2⟩ := separatedNonemptyList_ge (Fol := NoHead digitOrPoint) (sep := commaSep) (f := rangeListItem bits)
    (fun _ _ _ h => mark_shrinks h) (fun _ _ _ h => item_shrinks h) (fun s a r h hr => item_complete h hr)
    (fun s a h hd => item_ge h hd)
    (fun m s a r hm hs => mark_of hm (by decide) (digit_head_noSpace (hs.elim (fun h => h.head) (fun h => h.head))))
    (fun m s a r hm _ => mark_head hm space_not_digitOrPoint (by decide)) h hd
  exact ⟨r, b, h1, h2⟩

theorem dropSpaces_le (u : Str) : (u.dropWhile isSpace).length ≤ u.length := by
  have := congrArg List.length (List.takeWhile_append_dropWhile (p := isSpace) (l := u))
  rw [List.length_append] at this
  omega

theorem dropSpaces_app {b : Str} (hb : Spaces b) (u : Str) : (b ++ u).dropWhile isSpace = u.dropWhile isSpace := by
  have hb := (spaces_iff b).1 hb
  induction b with
  | nil => rfl
  | cons c b ih =>
    have := hb c (by simp)
    simp only [List.cons_append, List.dropWhile, this]
    exact ih (fun c hc => by rcases (spaces_iff [c]).2 (by simpa using hb c (by simp [hc])) c (by simp) with h | h <;> simp [h])
      (fun c hc => hb c (by simp [hc]))

/-- An operator other than `is` is read, whatever follows. -/
theorem op_exact {o : Str} {op : Operator} (h : OpText o op) (hi : op ≠ .Is) (u : Str) : relationOperator (o ++ u) = some (u, op) := by
  cases h with
  | eq => exact alt_left (map_of (tag_of _ _))
  | ne =>
    rw [relationOperator, alt_right (by rw [map_none]; exact tag_head (noHead_cons.2 (by decide)))]
    exact alt_left (map_of (tag_of _ _))
  | is ha => exact absurd rfl hi
  | @isNot a ha =>
    have e : (c!"is" ++ (a ++ c!"not")) ++ u = c!"is" ++ (a ++ (c!"not" ++ u)) := by simp
    rw [e, relationOperator, alt_right (by rw [map_none]; exact tag_head (noHead_cons.2 (by decide))),
      alt_right (by rw [map_none]; exact tag_head (noHead_cons.2 (by decide)))]
    have h1 := tag_of c!"is" (a ++ (c!"not" ++ u))
    have h2 : space1 (a ++ (c!"not" ++ u)) = some (c!"not" ++ u, a) := space1_of ha (noHead_cons.2 (by decide))
    have h3 : opt (tag c!"not") (c!"not" ++ u) = some (u, some c!"not") := opt_of (tag_of _ _)
    exact alt_left (map_of (pair_of h1 (pair_of h2 h3)))
  | «in» =>
    rw [relationOperator, alt_right (by rw [map_none]; exact tag_head (noHead_cons.2 (by decide))),
      alt_right (by rw [map_none]; exact tag_head (noHead_cons.2 (by decide))),
      alt_right (by rw [map_none]; exact pair_none_left (tag_none (by simp)))]
    exact alt_left (map_of (tag_of _ _))
  | @notIn a ha =>
    have e : (c!"not" ++ (a ++ c!"in")) ++ u = c!"not" ++ (a ++ (c!"in" ++ u)) := by simp
    rw [e, relationOperator, alt_right (by rw [map_none]; exact tag_head (noHead_cons.2 (by decide))),
      alt_right (by rw [map_none]; exact tag_head (noHead_cons.2 (by decide))),
      alt_right (by rw [map_none]; exact pair_none_left (tag_head (noHead_cons.2 (by decide)))),
      alt_right (by rw [map_none]; exact tag_head (noHead_cons.2 (by decide)))]
    have h1 := tag_of c!"not" (a ++ (c!"in" ++ u))
    have h2 : space1 (a ++ (c!"in" ++ u)) = some (c!"in" ++ u, a) := space1_of ha (noHead_cons.2 (by decide))
    have h3 : alt (map (tag c!"in") fun _ => Operator.NotIn) (map (tag c!"within") fun _ => Operator.NotWithin)
      (c!"in" ++ u) = some (u, .NotIn) := alt_left (map_of (tag_of _ _))
    exact alt_left (map_of (pair_of h1 (pair_of h2 h3)))
  | @notWithin a ha =>
    have e : (c!"not" ++ (a ++ c!"within")) ++ u = c!"not" ++ (a ++ (c!"within" ++ u)) := by simp
    rw [e, relationOperator, alt_right (by rw [map_none]; exact tag_head (noHead_cons.2 (by decide))),
      alt_right (by rw [map_none]; exact tag_head (noHead_cons.2 (by decide))),
      alt_right (by rw [map_none]; exact pair_none_left (tag_head (noHead_cons.2 (by decide)))),
      alt_right (by rw [map_none]; exact tag_head (noHead_cons.2 (by decide)))]
    have h1 := tag_of c!"not" (a ++ (c!"within" ++ u))
    have h2 : space1 (a ++ (c!"within" ++ u)) = some (c!"within" ++ u, a) := space1_of ha (noHead_cons.2 (by decide))
    have h3 : alt (map (tag c!"in") fun _ => Operator.NotIn) (map (tag c!"within") fun _ => Operator.NotWithin)
      (c!"within" ++ u) = some (u, .NotWithin) := by
      rw [alt_right (by rw [map_none]; exact tag_head (noHead_cons.2 (by decide)))]
      exact map_of (tag_of _ _)
    exact alt_left (map_of (pair_of h1 (pair_of h2 h3)))
  | within =>
    rw [relationOperator, alt_right (by rw [map_none]; exact tag_head (noHead_cons.2 (by decide))),
      alt_right (by rw [map_none]; exact tag_head (noHead_cons.2 (by decide))),
      alt_right (by rw [map_none]; exact pair_none_left (tag_head (noHead_cons.2 (by decide)))),
      alt_right (by rw [map_none]; exact tag_head (noHead_cons.2 (by decide))),
      alt_right (by rw [map_none]; exact pair_none_left (tag_head (noHead_cons.2 (by decide))))]
    exact map_of (tag_of _ _)

/-- An operator and the spaces after it are read, whatever follows. -/
theorem op_ge {o b : Str} {op : Operator} (h : OpText o op) (hb : Spaces b) (u : Str) :
    ∃ r1 op', relationOperator (o ++ (b ++ u)) = some (r1, op') ∧ (r1.dropWhile isSpace).length ≤ u.length := by
  by_cases hi : op = .Is
  · subst hi
    cases h with | @is a ha => ?_
    have hb' : Spaces1 (a ++ (b ++ u.takeWhile isSpace)) := by
      refine ⟨(spaces_iff _).2 ?_, by simp [ha.2]⟩
      intro c hc
      rcases List.mem_append.1 hc with hc | hc
      · exact (spaces_iff a).1 ha.1 c hc
      rcases List.mem_append.1 hc with hc | hc
      · exact (spaces_iff b).1 hb c hc
      · exact takeWhile_all isSpace u c hc
    have e : (c!"is" ++ a) ++ (b ++ u) = c!"is" ++ ((a ++ (b ++ u.takeWhile isSpace)) ++ u.dropWhile isSpace) := by
      conv_lhs => rw [← List.takeWhile_append_dropWhile (p := isSpace) (l := u)]
      simp only [List.append_assoc]
    have h1 := tag_of c!"is" ((a ++ (b ++ u.takeWhile isSpace)) ++ u.dropWhile isSpace)
    have h2 := space1_of hb' (dropWhile_noHead isSpace u)
    obtain ⟨r, x, h3⟩ := opt_total (tag c!"not") (u.dropWhile isSpace)
    have h9 : ∃ op', relationOperator ((c!"is" ++ a) ++ (b ++ u)) = some (r, op') := by
      rw [e, relationOperator, alt_right (by rw [map_none]; exact tag_head (noHead_cons.2 (by decide))),
        alt_right (by rw [map_none]; exact tag_head (noHead_cons.2 (by decide)))]
      exact ⟨_, alt_left (map_of (pair_of h1 (pair_of h2 h3)))⟩
    obtain ⟨op', h9⟩ := h9
    refine ⟨r, op', h9, ?_⟩
    · have h4 := dropSpaces_le r
      have h5 := dropSpaces_le u
      rcases opt_some.1 h3 with ⟨y, -, h6⟩ | ⟨-, -, rfl⟩
      · have h7 := congrArg List.length (tag_some.1 h6).1
        rw [List.length_append] at h7
        omega
      · omega
  · refine ⟨_, _, op_exact h hi (b ++ u), ?_⟩
    rw [dropSpaces_app hb]
    exact dropSpaces_le u

theorem relation_ge {s u : Str} {x : Relation} (h : RelText bits s x ∨ OpenText bits s x) (hd : DigitStop s u) :
    ∃ r b, relation bits (s ++ u) = some (r, b) ∧ r.length ≤ u.length := by
  rcases h with h | h
  · obtain @⟨s, a, o, b, t, e, op, l, hs, ha, ho, hb, ht⟩ := h
    have hh : ∃ c v, t ++ u = c :: v ∧ isDigit c = true := by
      obtain ⟨c, v, rfl, hc⟩ := ListText.head ht; exact ⟨c, _, rfl, hc⟩
    have hsp : NoHead isSpace (t ++ u) := by
      obtain ⟨c, v, e, hc⟩ := hh; rw [e]; exact noHead_cons.2 (isDigit_not_space hc)
    have hn : NoHead (· == 'n') (t ++ u) := by
      obtain ⟨c, v, e, hc⟩ := hh; rw [e]; refine noHead_cons.2 ?_
      exact digit_ne_n hc
    have h1 := expr_complete (r := b ++ (t ++ u)) hs ha ho
    have h2 : space0 (a ++ (o ++ (b ++ (t ++ u)))) = some (o ++ (b ++ (t ++ u)), a) := by
      refine space0_of ha ?_
      obtain ⟨c, u, rfl, hc⟩ := ho.head
      exact noHead_cons.2 (opHead_cases hc).1
    obtain ⟨r1, y, h3, h4⟩ := op_complete ho hb hsp hn
    obtain ⟨r, l', h5, h6⟩ := list_ge ht (digitStop_suffix (digitStop_suffix (digitStop_suffix (digitStop_suffix hd))))
    have e' : (s ++ (a ++ (o ++ (b ++ t)))) ++ u = s ++ (a ++ (o ++ (b ++ (t ++ u)))) := by simp
    rw [e']
    exact ⟨_, _, map_of (pair_of h1 (pair_of h2 (pair_of h3 (pair_of h4 h5)))), h6⟩
  · obtain @⟨s, a, o, b, e, op, hs, ha, ho, hb⟩ := h
    have h1 := expr_complete (r := b ++ u) hs ha ho
    have h2 : space0 (a ++ (o ++ (b ++ u))) = some (o ++ (b ++ u), a) := by
      refine space0_of ha ?_
      obtain ⟨c, u, rfl, hc⟩ := ho.head
      exact noHead_cons.2 (opHead_cases hc).1
    obtain ⟨r1, op', h3, h4⟩ := op_ge ho hb u
    have h5 : space0 r1 = some (r1.dropWhile isSpace, r1.takeWhile isSpace) := rfl
    obtain ⟨r2, l, h6, h7⟩ : ∃ r2 l, rangeList bits (r1.dropWhile isSpace) = some (r2, l) ∧
        r2.length ≤ (r1.dropWhile isSpace).length := by
      cases h : rangeListItem bits (r1.dropWhile isSpace) with
      | none => exact ⟨r1.dropWhile isSpace, [], by simp only [rangeList, separatedList, h], Nat.le_refl _⟩
      | some y =>
        obtain ⟨r', l, -, h'⟩ := separatedNonemptyList_total (sep := commaSep) (fun _ _ _ h => mark_shrinks h) (fun _ _ _ h => item_shrinks h) h
        refine ⟨r', l, h', ?_⟩
        rcases list_sound h' with ⟨-, rfl⟩ | ⟨t, e, -⟩
        · exact Nat.le_refl _
        · rw [e, List.length_append]; omega
    have e' : (s ++ (a ++ (o ++ b))) ++ u = s ++ (a ++ (o ++ (b ++ u))) := by simp
    rw [e']
    exact ⟨_, _, map_of (pair_of h1 (pair_of h2 (pair_of h3 (pair_of h5 h6)))), by omega⟩

theorem and_ge {s u : Str} {x : AndCondition} (h : AndText bits s x ∨ OpenAnd bits s x) (hd : DigitStop s u) :
    ∃ r b, andCondition bits (s ++ u) = some (r, b) ∧ r.length ≤ u.length := by
  have key : ∀ {L : Str → Relation → Prop}, (∀ s a, L s a → RelText bits s a ∨ OpenText bits s a) →
      SepText (Word c!"and") (RelText bits) L s x → ∃ r b, andCondition bits (s ++ u) = some (r, b) ∧ r.length ≤ u.length := by
    intro L hL h
    obtain ⟨r, b, h1, -, h2⟩ := separatedNonemptyList_ge (sep := pair space1 (pair (tag c!"and") space1)) (f := relation bits)
      (Fol := fun r => NoHead digitOrPoint r ∧ NoNext (· == ',') r)
      (fun _ _ _ h => word_shrinks h) (fun _ _ _ h => relation_shrinks h) (fun s a r h hr => relation_complete h hr.1 hr.2)
      (fun s a h hd => relation_ge (hL s a h) hd)
      (fun m s a r hm hs => by
        refine word_of hm (by decide) ?_
        have : ∃ o t, s = operandLetter o :: t := (hs.elim .inl (hL s a)).elim (fun h => h.head) (fun h => h.head)
        obtain ⟨o, t, rfl⟩ := this
        exact noHead_cons.2 (letter_noSpace o))
      (fun m s a r hm _ => ⟨word_head hm space_not_digitOrPoint, word_next hm (by decide) (by decide)⟩) h hd
    exact ⟨r, b, h1, h2⟩
  exact h.elim (key fun _ _ h => .inl h) (key fun _ _ h => .inr h)

/-- The condition parser reads at least any condition at the front. -/
theorem conditionList_ge {s u : Str} {x : Condition} (h : CondText bits s x ∨ OpenCondText bits s x) (hd : DigitStop s u) :
    ∃ r b, conditionList bits (s ++ u) = some (r, b) ∧ r.length ≤ u.length := by
  have key : ∀ {L : Str → AndCondition → Prop}, (∀ s a, L s a → AndText bits s a ∨ OpenAnd bits s a) →
      SepText (Word c!"or") (AndText bits) L s x → ∃ r b, conditionList bits (s ++ u) = some (r, b) ∧ r.length ≤ u.length := by
    intro L hL h
    obtain ⟨r, b, h1, -, h2⟩ := separatedNonemptyList_ge (sep := pair space1 (pair (tag c!"or") space1)) (f := andCondition bits)
      (Fol := fun r => NoHead digitOrPoint r ∧ NoNext (· == ',') r ∧ NoNext (· == 'a') r)
      (fun _ _ _ h => word_shrinks h) (fun _ _ _ h => and_shrinks h) (fun s a r h hr => and_complete h hr.1 hr.2.1 hr.2.2)
      (fun s a h hd => and_ge (hL s a h) hd)
      (fun m s a r hm hs => by
        refine word_of hm (by decide) ?_
        have : ∃ o t, s = operandLetter o :: t := (hs.elim .inl (hL s a)).elim (fun h => AndText.head h) (fun h => OpenAnd.head h)
        obtain ⟨o, t, rfl⟩ := this
        exact noHead_cons.2 (letter_noSpace o))
      (fun m s a r hm _ => ⟨word_head hm space_not_digitOrPoint, word_next hm (by decide) (by decide),
        word_next hm (by decide) (by decide)⟩) h hd
    exact ⟨r, b, h1, h2⟩
  exact h.elim (key fun _ _ h => .inl h) (key fun _ _ h => .inr h)

theorem digitStop_iff (t u : Str) : DigitStop t u ↔ NumberEnds t u := by
  constructor
  · rintro h j k a v h1 h2
    have := h _ _ _ _ h1 h2 (isDigit_digitChar j)
    rw [isDigit_digitChar] at this; cases this
  · intro h a d e v h1 h2 h3
    cases h4 : isDigit e with
    | false => rfl
    | true =>
      obtain ⟨j, rfl⟩ := exists_digit d h3
      obtain ⟨k, rfl⟩ := exists_digit e h4
      exact absurd h2 (h j k a v h1)

/-- A text is one condition only. -/
theorem condText_unique {t : Str} {c c' : Condition} (h : CondText bits t c ∨ OpenCondText bits t c)
    (h' : CondText bits t c' ∨ OpenCondText bits t c') : c = c' := by
  have key : ∀ {c}, CondText bits t c ∨ OpenCondText bits t c → conditionList bits t = some ([], c) := by
    rintro c (h | h)
    · have := conditionList_complete h (noHead_nil _) (noNext_nil _) (noNext_nil _) (noNext_nil _)
      rwa [List.append_nil] at this
    · have := openCond_complete h (noHead_nil _) (noHead_nil _) (noHead_nil _)
      rwa [List.append_nil] at this
  have := (key h).symm.trans (key h')
  simpa using this

/-- The condition parser returns the condition that the text begins with. -/
theorem parsePluralCondition_ok {s : Str} {c : Condition} : parsePluralCondition bits s = .ok c ↔ ConditionOf bits s c := by
  by_cases hn : NoCondition s
  · have h1 : parsePluralCondition bits s = .ok [] := by unfold parsePluralCondition; rw [parseCondition_blank hn]
    rw [h1]
    constructor
    · intro h; cases h; exact .inl ⟨hn, rfl⟩
    · rintro (⟨-, rfl⟩ | ⟨t, ⟨u, rfl, -, ht⟩, -⟩)
      · rfl
      · exact absurd hn (cond_not_blank ht)
  · have h1 : parsePluralCondition bits s = .ok c ↔ ∃ r, conditionList bits s = some (r, c) := by
      unfold parsePluralCondition
      rw [parseCondition_list hn]
      cases conditionList bits s with
      | none => simp
      | some y => obtain ⟨r, x⟩ := y; simp
    have key : ∀ {r c}, conditionList bits s = some (r, c) → ∃ t, s = t ++ r ∧ FrontCondition bits s t c ∧
        ∀ t' c', FrontCondition bits s t' c' → t'.length ≤ t.length := by
      intro r c h
      obtain ⟨t, e, ht⟩ := conditionList_sound h
      obtain ⟨t', -, e', hd⟩ := conditionList_reads h
      rw [e] at e'
      have := List.append_cancel_right e'
      subst this
      refine ⟨t, e, ⟨r, e, (digitStop_iff _ _).1 hd, ht.imp_right And.left⟩, ?_⟩
      rintro t' c' ⟨u', e', hd', ht'⟩
      obtain ⟨r', b, h', hle⟩ := conditionList_ge ht' ((digitStop_iff _ _).2 hd')
      rw [← e', h, Option.some.injEq, Prod.mk.injEq] at h'
      obtain ⟨rfl, -⟩ := h'
      have := congrArg List.length (e.symm.trans e')
      rw [List.length_append, List.length_append] at this
      omega
    rw [h1]
    constructor
    · rintro ⟨r, h⟩
      obtain ⟨t, -, h2, h3⟩ := key h
      exact .inr ⟨t, h2, h3⟩
    · rintro (⟨h, -⟩ | ⟨t, ⟨u, e, hd, ht⟩, hmax⟩)
      · exact absurd h hn
      · obtain ⟨r, b, h, hle⟩ := conditionList_ge ht ((digitStop_iff _ _).2 hd)
        rw [← e] at h
        obtain ⟨t', e', h2, h3⟩ := key h
        have l1 := hmax _ _ h2
        have l2 := h3 _ _ ⟨u, e, hd, ht⟩
        have : t = t' ∧ u = r := List.append_inj (e.symm.trans e') (by omega)
        obtain ⟨rfl, rfl⟩ := this
        obtain ⟨_, _, _, ht'⟩ := h2
        exact ⟨u, by rw [h, condText_unique ht ht']⟩

end Verif.Parser
