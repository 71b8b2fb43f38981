import Verif.Props.WithoutN
import Mathlib.Data.Nat.ModEq
import Mathlib.Data.Fintype.Prod
import Mathlib.Data.Fintype.Pigeonhole
import Mathlib.Data.Set.Finite.List

/-!
# C116: finitely many numbers are enough

What a rule says of a number, and what its code does, depends on each operand only as far as it is not above all constants of the rule, and on its remainders.
-/

namespace Verif.Props
open Verif Api Rust Uts35 Spec Verif.Parser Verif.Grammar Generate GenPr GenRs RulesRead FileRead Gen Maps Lib Sem Eval ResourceSpec Resource
open PluralOperands Strings

/-- The same up to `K`, and above `K` the same remainder by `M`. -/
def AlikeNat (K M x y : Nat) : Prop := x = y ∨ K < x ∧ K < y ∧ x % M = y % M

/-- All operands but `n` are alike. -/
def AlikeNumbers (K M : Nat) (d d' : Dec) : Prop :=
  AlikeNat K M d.i d'.i ∧ AlikeNat K M d.v d'.v ∧ AlikeNat K M d.w d'.w ∧ AlikeNat K M d.f d'.f ∧ AlikeNat K M d.t d'.t

/-- No number in a list is above `K`, and each modulus divides `M`. -/
def Bounded (K M : Nat) (c : Condition) : Prop :=
  ∀ a ∈ c, ∀ r ∈ a, (∀ m, r.expression.modulus = some m → m ∣ M) ∧ ∀ x ∈ r.rangeList, itemNumbers (· ≤ K) x

variable {K M : Nat}

theorem AlikeNat.mod {x y m : Nat} (h : AlikeNat K M x y) (hm : m ∣ M) : x % m = y % m := by
  rcases h with rfl | ⟨-, -, h⟩
  · rfl
  · rw [← Nat.mod_mod_of_dvd x hm, ← Nat.mod_mod_of_dvd y hm, h]

theorem AlikeNat.le {x y k : Nat} (h : AlikeNat K M x y) (hk : k ≤ K) : (k ≤ x ↔ k ≤ y) ∧ (x ≤ k ↔ y ≤ k) ∧ (x = k ↔ y = k) ∧ (x < k ↔ y < k) := by
  rcases h with rfl | ⟨h1, h2, -⟩
  · simp
  · refine ⟨?_, ?_, ?_, ?_⟩ <;> omega

theorem AlikeNumbers.f {d d' : Dec} (h : AlikeNumbers K M d d') : d.f = 0 ↔ d'.f = 0 := (h.2.2.2.1.le (Nat.zero_le K)).2.2.1

/-- An integer and a fraction in place of an expression, alike for the two numbers. -/
theorem alike_value {d d' : Dec} (h : AlikeNumbers K M d d') (e : Expression) (he : ∀ m, e.modulus = some m → m ∣ M) :
    ∃ A A' : Nat, ∃ x x' : ℚ, exprValue d e = A + x ∧ exprValue d' e = A' + x' ∧ AlikeNat K M A A' ∧ 0 ≤ x ∧ x < 1 ∧ 0 ≤ x' ∧ x' < 1 ∧ (x = 0 ↔ x' = 0) := by
  have hint : ∀ B B' : Nat, AlikeNat K M B B' → ∃ A A' : Nat, (match e.modulus with | none => B | some m => B % m) = A ∧
      (match e.modulus with | none => B' | some m => B' % m) = A' ∧ AlikeNat K M A A' := by
    intro B B' hb
    cases hm : e.modulus with
    | none => exact ⟨B, B', rfl, rfl, hb⟩
    | some m => exact ⟨_, _, rfl, rfl, .inl (hb.mod (he m hm))⟩
  by_cases hn : e.operand = .N
  · obtain ⟨A, A', h1, h2, h3⟩ := hint d.i d'.i h.1
    obtain ⟨f0, f1, f2⟩ := fraction_bounds d
    obtain ⟨g0, g1, g2⟩ := fraction_bounds d'
    refine ⟨A, A', _, _, ?_, ?_, h3, f0, f1, g0, g1, f2.trans (h.f.trans g2.symm)⟩
    · rw [value_n d e hn, ← h1]; rfl
    · rw [value_n d' e hn, ← h2]; rfl
  · have : ∃ B B' : Nat, d.operand e.operand = B ∧ d'.operand e.operand = B' ∧ AlikeNat K M B B' := by
      obtain ⟨h1, h2, h3, h4, h5⟩ := h
      cases ho : e.operand with
      | N => exact absurd ho hn
      | I => exact ⟨_, _, rfl, rfl, h1⟩
      | V => exact ⟨_, _, rfl, rfl, h2⟩
      | W => exact ⟨_, _, rfl, rfl, h3⟩
      | F => exact ⟨_, _, rfl, rfl, h4⟩
      | T => exact ⟨_, _, rfl, rfl, h5⟩
    obtain ⟨B, B', b1, b2, b3⟩ := this
    obtain ⟨A, A', h1, h2, h3⟩ := hint B B' b3
    refine ⟨A, A', 0, 0, ?_, ?_, h3, le_refl _, by norm_num, le_refl _, by norm_num, Iff.rfl⟩
    · rw [← h1, add_zero]
      unfold exprValue
      cases e.modulus with
      | none => exact b1
      | some m => simp only [b1, qmod_nat]
    · rw [← h2, add_zero]
      unfold exprValue
      cases e.modulus with
      | none => exact b2
      | some m => simp only [b2, qmod_nat]

theorem alike_items {A A' : Nat} {x x' : ℚ} (h : AlikeNat K M A A') (h0 : 0 ≤ x) (h1 : x < 1) (h0' : 0 ≤ x') (h1' : x' < 1) (hx : x = 0 ↔ x' = 0)
    (y : RangeListItem) (hy : itemNumbers (· ≤ K) y) :
    (ItemIn ((A : ℚ) + x) y ↔ ItemIn ((A' : ℚ) + x') y) ∧ (ItemWithin ((A : ℚ) + x) y ↔ ItemWithin ((A' : ℚ) + x') y) := by
  cases y with
  | value k =>
    simp only [itemNumbers] at hy
    simp only [ItemIn, ItemWithin, sum_eq_nat _ _ h0 h1, sum_eq_nat _ _ h0' h1', hx, (h.le hy).2.2.1, and_self]
  | range lo hi =>
    simp only [itemNumbers] at hy
    constructor
    · rw [sum_itemIn _ _ h0 h1, sum_itemIn _ _ h0' h1', nat_itemIn, nat_itemIn, hx]
      simp only [(h.le hy.1).1, (h.le hy.2).2.1]
    · simp only [ItemWithin, sum_within _ _ h0 h1, sum_within _ _ h0' h1', hx, (h.le hy.1).1, (h.le hy.2).2.2.1, (h.le hy.2).2.2.2]

/-- C116: whether a rule is true is the same for numbers that are alike. -/
theorem C116_meaning (c : Condition) (hc : Bounded K M c) (d d' : Dec) (h : AlikeNumbers K M d d') : Uts35.Holds d c ↔ Uts35.Holds d' c := by
  refine exists_congr fun a => and_congr_right fun ha => forall_congr' fun r => forall_congr' fun hr => ?_
  obtain ⟨hm, hl⟩ := hc a ha r hr
  obtain ⟨A, A', x, x', e1, e2, hA, h0, h1, h0', h1', hx⟩ := alike_value h r.expression hm
  unfold Uts35.RelationHolds
  rw [e1, e2]
  have hin : (∃ y ∈ r.rangeList, ItemIn ((A : ℚ) + x) y) ↔ ∃ y ∈ r.rangeList, ItemIn ((A' : ℚ) + x') y :=
    exists_congr fun y => and_congr_right fun hy => (alike_items hA h0 h1 h0' h1' hx y (hl y hy)).1
  have hwi : (∃ y ∈ r.rangeList, ItemWithin ((A : ℚ) + x) y) ↔ ∃ y ∈ r.rangeList, ItemWithin ((A' : ℚ) + x') y :=
    exists_congr fun y => and_congr_right fun hy => (alike_items hA h0 h1 h0' h1' hx y (hl y hy)).2
  cases r.operator <;> simp only [hin, hwi]

theorem alike_look {d d' : Dec} (h : AlikeNumbers K M d d') (e : Expression) (he : ∀ m, e.modulus = some m → m ∣ M) :
    AlikeNat K M (Actual.look d e) (Actual.look d' e) := by
  obtain ⟨h1, h2, h3, h4, h5⟩ := h
  obtain ⟨o, m⟩ := e
  cases m with
  | none => cases o <;> assumption
  | some m =>
    have hm := he m rfl
    left
    cases o
    · exact h1.mod hm
    · exact h1.mod hm
    · exact h2.mod hm
    · exact h3.mod hm
    · exact h4.mod hm
    · exact h5.mod hm

theorem alike_side {d d' : Dec} (h : AlikeNumbers K M d d') (e : Expression) (he : ∀ m, e.modulus = some m → m ∣ M) :
    ∃ A A' : Nat, ∃ x x' : ℚ, Actual.withinSide d e = A + x ∧ Actual.withinSide d' e = A' + x' ∧ AlikeNat K M A A' ∧ 0 ≤ x ∧ x < 1 ∧ 0 ≤ x' ∧ x' < 1 ∧ (x = 0 ↔ x' = 0) := by
  cases hm : e.modulus with
  | none =>
    have := alike_value h ⟨e.operand, none⟩ (by simp)
    unfold Actual.withinSide
    rw [hm]
    exact this
  | some m =>
    unfold Actual.withinSide
    rw [hm]
    exact ⟨_, _, 0, 0, (add_zero _).symm, (add_zero _).symm, .inl (h.1.mod (he m hm)), le_refl _, by norm_num, le_refl _, by norm_num, Iff.rfl⟩

theorem sum_le (A : Nat) (x : ℚ) (h0 : 0 ≤ x) (h1 : x < 1) (k : Nat) :
    ((k : ℚ) ≤ A + x ↔ k ≤ A) ∧ ((A : ℚ) + x ≤ k ↔ A < k ∨ A = k ∧ x = 0) := by
  constructor
  · have := sum_within A x h0 h1 k (A + 1)
    have h2 : (A : ℚ) + x ≤ (A + 1 : Nat) := by push_cast; linarith
    simp only [h2, and_true] at this
    rw [this]
    exact ⟨fun h => h.1, fun h => ⟨h, .inl (by omega)⟩⟩
  · have := sum_within A x h0 h1 0 k
    have h2 : ((0 : Nat) : ℚ) ≤ A + x := by push_cast; positivity
    simp only [h2, true_and, Nat.zero_le] at this
    exact this

/-- C116: and so is what its code tests (C64). -/
theorem C116_code (c : Condition) (hc : Bounded K M c) (d d' : Dec) (h : AlikeNumbers K M d d') : Actual.Holds d c ↔ Actual.Holds d' c := by
  refine exists_congr fun a => and_congr_right fun ha => forall_congr' fun r => forall_congr' fun hr => ?_
  obtain ⟨hm, hl⟩ := hc a ha r hr
  have hlook := alike_look h r.expression hm
  have hi := h.1
  have hf := h.f
  obtain ⟨A, A', x, x', e1, e2, hA, h0, h1, h0', h1', hx⟩ := alike_side h r.expression hm
  have hacc : ∀ y ∈ r.rangeList, (Actual.Accepts d r.expression y ↔ Actual.Accepts d' r.expression y) ∧ (Actual.Rejects d r.expression y ↔ Actual.Rejects d' r.expression y) := by
    intro y hy
    have hk := hl y hy
    cases y with
    | value k => simp only [Actual.Accepts, Actual.Rejects, (hlook.le hk).2.2.1, hf, and_self]
    | range lo hi' => simp only [Actual.Accepts, Actual.Rejects, (hlook.le hk.1).1, (hlook.le hk.2).2.1, (hi.le hk.1).1, (hi.le hk.2).2.1, hf, and_self]
  have hfirst : ∀ lo hi, Actual.FirstRange r.rangeList lo hi → lo ≤ K ∧ hi ≤ K := by
    rintro lo hi ⟨values, rest, hv, -⟩
    exact hl (.range lo hi) (by rw [hv]; simp)
  have hlo : ∀ k ≤ K, ((k : ℚ) ≤ Actual.withinSide d r.expression ↔ (k : ℚ) ≤ Actual.withinSide d' r.expression) := by
    intro k hk
    rw [e1, e2, (sum_le A x h0 h1 k).1, (sum_le A' x' h0' h1' k).1, (hA.le hk).1]
  have hhi : ∀ k ≤ K, (Actual.withinSide d r.expression ≤ k ↔ Actual.withinSide d' r.expression ≤ (k : ℚ)) := by
    intro k hk
    rw [e1, e2, (sum_le A x h0 h1 k).2, (sum_le A' x' h0' h1' k).2, (hA.le hk).2.2.2, (hA.le hk).2.2.1, hx]
  unfold Actual.RelationHolds
  have p1 : (∃ y ∈ r.rangeList, Actual.Accepts d r.expression y) ↔ ∃ y ∈ r.rangeList, Actual.Accepts d' r.expression y :=
    exists_congr fun y => and_congr_right fun hy => (hacc y hy).1
  have p2 : (∀ y ∈ r.rangeList, Actual.Rejects d r.expression y) ↔ ∀ y ∈ r.rangeList, Actual.Rejects d' r.expression y :=
    forall_congr' fun y => imp_congr_right fun hy => (hacc y hy).2
  cases r.operator <;> simp only [p1, p2]
  · exact exists_congr fun lo => exists_congr fun hi => and_congr_right fun hr => by rw [hlo lo (hfirst lo hi hr).1, hhi hi (hfirst lo hi hr).2]
  · exact exists_congr fun lo => exists_congr fun hi => and_congr_right fun hr => by
      rw [← not_le, ← not_le, hlo lo (hfirst lo hi hr).1, hhi hi (hfirst lo hi hr).2, not_le, not_le]

/-! ## Finitely many numbers -/

/-- One of the numbers alike. -/
def reduce (K M x : Nat) : Nat := if x ≤ K then x else K + 1 + (x - (K + 1)) % M

theorem reduce_spec (hM : 0 < M) (x : Nat) : reduce K M x ≤ K + M ∧ reduce K M x ≤ x ∧ AlikeNat K M x (reduce K M x) := by
  unfold reduce
  split_ifs with h
  · exact ⟨by omega, le_refl _, .inl rfl⟩
  · have h1 := Nat.mod_lt (x - (K + 1)) hM
    have h2 := Nat.mod_le (x - (K + 1)) M
    refine ⟨by omega, by omega, .inr ⟨by omega, by omega, ?_⟩⟩
    rw [Nat.add_mod_mod]
    congr 1
    omega

theorem alike_of_reduce (hM : 0 < M) {x y : Nat} (h : reduce K M x = reduce K M y) : AlikeNat K M x y := by
  obtain ⟨-, -, hx⟩ := reduce_spec (K := K) hM x
  obtain ⟨-, -, hy⟩ := reduce_spec (K := K) hM y
  rw [h] at hx
  rcases hx with h1 | ⟨h1, h2, h3⟩ <;> rcases hy with g1 | ⟨g1, g2, g3⟩
  · exact .inl (h1.trans g1.symm)
  · exact .inr ⟨by omega, g1, by rw [h1, g3]⟩
  · exact .inr ⟨h1, by omega, by rw [h3, ← g1]⟩
  · exact .inr ⟨h1, g1, by rw [h3, g3]⟩

theorem AlikeNat.symm {x y : Nat} (h : AlikeNat K M x y) : AlikeNat K M y x := h.imp Eq.symm fun h => ⟨h.2.1, h.1, h.2.2.symm⟩

theorem AlikeNat.trans {x y z : Nat} (h : AlikeNat K M x y) (h' : AlikeNat K M y z) : AlikeNat K M x z := by
  rcases h with rfl | ⟨h1, h2, h3⟩
  · exact h'
  · rcases h' with rfl | ⟨g1, g2, g3⟩
    · exact .inr ⟨h1, h2, h3⟩
    · exact .inr ⟨h1, g2, h3.trans g3⟩

theorem AlikeNat.step {x y : Nat} (h : AlikeNat K M x y) (a b : Nat) (ha : 0 < a) : AlikeNat K M (x * a + b) (y * a + b) := by
  rcases h with rfl | ⟨h1, h2, h3⟩
  · exact .inl rfl
  · refine .inr ⟨by nlinarith, by nlinarith, ?_⟩
    exact Nat.ModEq.add_right b (Nat.ModEq.mul_right a h3)

/-- The fraction digits are alike: the operands `v`, `w`, `f`, `t`. -/
def AlikeDigits (K M : Nat) (a b : List (Fin 10)) : Prop := AlikeNat K M a.length b.length ∧ AlikeNat K M (dropTrailingZeros a).length (dropTrailingZeros b).length ∧
  AlikeNat K M (digitsNum a) (digitsNum b) ∧ AlikeNat K M (digitsNum (dropTrailingZeros a)) (digitsNum (dropTrailingZeros b))

theorem drop_snoc (l : List (Fin 10)) (x : Fin 10) (hx : x ≠ 0) : dropTrailingZeros (l ++ [x]) = l ++ [x] := by
  obtain ⟨k, h1, h2⟩ := dropTrailing_spec (l ++ [x])
  exact (dropTrailing_unique _ _ k 0 (by simpa using h1.symm) h2 (by simp [hx])).1

theorem AlikeDigits.snoc {a b : List (Fin 10)} (h : AlikeDigits K M a b) (x : Fin 10) : AlikeDigits K M (a ++ [x]) (b ++ [x]) := by
  obtain ⟨h1, h2, h3, h4⟩ := h
  have hv : AlikeNat K M (a ++ [x]).length (b ++ [x]).length := by
    have := h1.step 1 1 (by norm_num)
    simpa using this
  have hf : AlikeNat K M (digitsNum (a ++ [x])) (digitsNum (b ++ [x])) := by
    have := h3.step 10 x.val (by norm_num)
    simpa [digitsNum_append, digitsNum] using this
  by_cases hx : x = 0
  · subst hx
    have hd : ∀ l, dropTrailingZeros (l ++ [0]) = dropTrailingZeros l := fun l => dropTrailing_append l 1
    exact ⟨hv, by rw [hd, hd]; exact h2, hf, by rw [hd, hd]; exact h4⟩
  · unfold AlikeDigits
    rw [drop_snoc a x hx, drop_snoc b x hx]
    exact ⟨hv, hv, hf, hf⟩

theorem AlikeDigits.append {a b : List (Fin 10)} (h : AlikeDigits K M a b) (c : List (Fin 10)) : AlikeDigits K M (a ++ c) (b ++ c) := by
  induction c generalizing a b with
  | nil => simpa using h
  | cons x c ih =>
    have := ih (h.snoc x)
    simpa using this

theorem AlikeDigits.trans {a b c : List (Fin 10)} (h : AlikeDigits K M a b) (h' : AlikeDigits K M b c) : AlikeDigits K M a c :=
  ⟨h.1.trans h'.1, h.2.1.trans h'.2.1, h.2.2.1.trans h'.2.2.1, h.2.2.2.trans h'.2.2.2⟩

theorem cut_digits (hM : 0 < M) (l : List (Fin 10)) (hl : (K + M + 1) ^ 4 ≤ l.length) : ∃ l', l'.length < l.length ∧ AlikeDigits K M l l' := by
  let N := K + M + 1
  have hr := fun x => Nat.lt_succ_of_le (reduce_spec (K := K) hM x).1
  let g : Fin (l.length + 1) → Fin N × Fin N × Fin N × Fin N := fun p =>
    let a := l.take p.val
    (⟨_, hr a.length⟩, ⟨_, hr (dropTrailingZeros a).length⟩, ⟨_, hr (digitsNum a)⟩, ⟨_, hr (digitsNum (dropTrailingZeros a))⟩)
  have hcard : Fintype.card (Fin N × Fin N × Fin N × Fin N) < Fintype.card (Fin (l.length + 1)) := by
    simp only [Fintype.card_prod, Fintype.card_fin]
    have : N * (N * (N * N)) = (K + M + 1) ^ 4 := by simp only [N]; ring
    omega
  obtain ⟨p, q, hne, hg⟩ := Fintype.exists_ne_map_eq_of_card_lt g hcard
  have key : ∀ p q : Fin (l.length + 1), p.val < q.val → g p = g q → ∃ l', l'.length < l.length ∧ AlikeDigits K M l l' := by
    intro p q hpq hg
    simp only [g, Prod.mk.injEq, Fin.mk.injEq] at hg
    obtain ⟨h1, h2, h3, h4⟩ := hg
    have ha : AlikeDigits K M (l.take q.val) (l.take p.val) :=
      ⟨alike_of_reduce hM h1.symm, alike_of_reduce hM h2.symm, alike_of_reduce hM h3.symm, alike_of_reduce hM h4.symm⟩
    have := ha.append (l.drop q.val)
    rw [List.take_append_drop] at this
    refine ⟨_, ?_, this⟩
    have h5 := q.isLt
    simp only [List.length_append, List.length_take, List.length_drop]
    omega
  rcases Nat.lt_or_gt_of_ne (fun h => hne (Fin.ext h)) with h | h
  · exact key p q h hg
  · exact key q p h hg.symm

theorem short_digits (hM : 0 < M) (l : List (Fin 10)) : ∃ l', l'.length < (K + M + 1) ^ 4 ∧ AlikeDigits K M l l' := by
  induction hn : l.length using Nat.strong_induction_on generalizing l with
  | _ n ih =>
    subst hn
    rcases Nat.lt_or_ge l.length ((K + M + 1) ^ 4) with h | h
    · exact ⟨l, h, .inl rfl, .inl rfl, .inl rfl, .inl rfl⟩
    · obtain ⟨l1, h1, h2⟩ := cut_digits hM l h
      obtain ⟨l2, h3, h4⟩ := ih _ h1 l1 rfl
      exact ⟨l2, h3, h2.trans h4⟩

/-- The decimals with an integer part up to `K + M` and fewer than `(K + M + 1)^4` fraction digits. -/
def Small (K M : Nat) (d : Dec) : Prop := d.i ≤ K + M ∧ d.v < (K + M + 1) ^ 4

/-- C116: every number is like a small one. -/
theorem C116_small (K M : Nat) (hM : 0 < M) (d : Dec) : ∃ d', Small K M d' ∧ AlikeNumbers K M d d' := by
  obtain ⟨l, h1, h2⟩ := short_digits (K := K) hM d.frac
  obtain ⟨r1, -, r3⟩ := reduce_spec (K := K) hM d.i
  exact ⟨⟨reduce K M d.i, l⟩, ⟨r1, h1⟩, r3, h2⟩

/-- C116: the small decimals, which are finitely many, are enough to tell whether the code of a rule is right on all numbers, and whether two rules mean
the same, or have code that does the same, on all numbers. -/
theorem C116_numbers (K M : Nat) (hM : 0 < M) (c : Condition) (hc : Bounded K M c) :
    ((∀ d, Small K M d → (Actual.Holds d c ↔ Uts35.Holds d c)) → ∀ d, Actual.Holds d c ↔ Uts35.Holds d c) ∧
    ∀ c', Bounded K M c' →
      ((∀ d, Small K M d → (Uts35.Holds d c ↔ Uts35.Holds d c')) → ∀ d, Uts35.Holds d c ↔ Uts35.Holds d c') ∧
      ((∀ d, Small K M d → (Actual.Holds d c ↔ Actual.Holds d c')) → ∀ d, Actual.Holds d c ↔ Actual.Holds d c') := by
  refine ⟨?_, ?_⟩
  · intro h d
    obtain ⟨x, h1, h2⟩ := C116_small K M hM d
    rw [C116_code c hc d x h2, C116_meaning c hc d x h2]
    exact h x h1
  · intro c' hc'
    refine ⟨?_, ?_⟩
    · intro h d
      obtain ⟨x, h1, h2⟩ := C116_small K M hM d
      rw [C116_meaning c hc d x h2, C116_meaning c' hc' d x h2]
      exact h x h1
    · intro h d
      obtain ⟨x, h1, h2⟩ := C116_small K M hM d
      rw [C116_code c hc d x h2, C116_code c' hc' d x h2]
      exact h x h1

/-- C116: there are finitely many of them. -/
theorem C116_finite (K M : Nat) : {d | Small K M d}.Finite := by
  have h1 : {l : List (Fin 10) | l.length < (K + M + 1) ^ 4}.Finite := List.finite_length_lt _ _
  have h2 : {x : Nat | x ≤ K + M}.Finite := Set.finite_le_nat _
  exact ((h2.prod h1).image fun p => (⟨p.1, p.2⟩ : Dec)).subset fun d hd => ⟨(d.int, d.frac), ⟨hd.1, hd.2⟩, rfl⟩

/-! ## Libraries -/

/-- The conditions of all rules that get into the code are bounded so. -/
def BoundedRules (K M : Nat) (rules : RuleObj) : Prop := ∀ name c cond, TestedRule rules name c cond → Bounded K M cond

theorem firstTrue_alike {rules : RuleObj} (hb : BoundedRules K M rules) {d d' : Dec} (h : AlikeNumbers K M d d') (c : PluralCategory) :
    FirstTrue rules d c ↔ FirstTrue rules d' c := by
  have key : ∀ name c cond, TestedRule rules name c cond → (Actual.Holds d cond ↔ Actual.Holds d' cond) := fun name c cond ht =>
    C116_code cond (hb name c cond ht) d d' h
  unfold FirstTrue FirstWith
  refine or_congr (exists_congr fun name => exists_congr fun cond => and_congr_right fun ht => and_congr (key _ _ _ ht) ?_) (and_congr_right fun _ => ?_)
  · exact forall_congr' fun _ => forall_congr' fun _ => forall_congr' fun _ => imp_congr_right fun ht => imp_congr_right fun _ => not_congr (key _ _ _ ht)
  · exact forall_congr' fun _ => forall_congr' fun _ => forall_congr' fun _ => imp_congr_right fun ht => not_congr (key _ _ _ ht)

theorem firstCategory_alike {rules : RuleObj} (hb : BoundedRules K M rules) {d d' : Dec} (h : AlikeNumbers K M d d') (c : PluralCategory) :
    FirstCategory rules d c ↔ FirstCategory rules d' c := by
  have key : ∀ c, c ≠ .OTHER → (Says rules d c ↔ Says rules d' c) := by
    intro c hc
    refine exists_congr fun text => exists_congr fun cond => exists_congr fun s => and_congr_right fun hl => and_congr_right fun ht => ?_
    exact C116_meaning cond (hb _ c cond ⟨hc, thirdPart_standard c, text, hl, parsePluralCondition_ok.1 (C31_agree 64 _ _ (C29_complete 64 _ _ ht))⟩) d d' h
  have hearlier : ∀ c' c, Earlier c' c → c' ≠ .OTHER := by
    rintro c' c he rfl
    have := he.subset (List.mem_cons_self)
    simp [testOrder] at this
  unfold FirstCategory
  refine or_congr (and_congr_right fun hc => and_congr (key c hc) ?_) (and_congr_right fun _ => ?_)
  · exact forall_congr' fun c' => imp_congr_right fun he => not_congr (key c' (hearlier _ _ he))
  · exact forall_congr' fun c' => imp_congr_right fun he => not_congr (key c' he)

theorem integer_fits (k : Nat) (hk : k < 2 ^ 64) : Fits ⟨k, []⟩ := by
  have : allDigits ⟨k, []⟩ = k := by simp [allDigits, Dec.i, Dec.v, Dec.f, digitsNum]
  rcases Nat.lt_or_ge k (2 ^ 53) with h | h
  · exact .inl ⟨by rw [this]; exact h, Nat.zero_le _⟩
  · exact .inr ⟨h, hk⟩

theorem integer_alike {k k' : Nat} (h : AlikeNat K M k k') : AlikeNumbers K M ⟨k, []⟩ ⟨k', []⟩ := ⟨h, .inl rfl, .inl rfl, .inl rfl, .inl rfl⟩

/-- C116: in a library compiled with any generated file, `create` gives the function of a key; if the constants of its rules are at most `K` and
`M` is a common multiple of the moduli, then it gives the same category for numbers that are alike (with at most the digits that f64 has); for a u64 the
one for an integer up to `K + M`; and it is right on all u64 if it is right on those up to `K + M`. -/
theorem C116_library (texts : List Str) (rs : List Generate.Resource) (hr : List.Forall₂ ResourceText texts rs) (out : Str)
    (h : generateText LangId.parse texts = some out) (text : Str) (hf : Formatted out text) (lib : Library) (hb : build text = some lib) (t : PluralRuleType) (obj : TypeObj)
    (ho : rs.filterMap (dataOf t) = [obj]) (search : List (LangId × Closure) → LangId → Except Nat Nat) (hs : Searches search)
    (id : LangId) (pr : PluralRules) (hc : lib.create search id t = some (.ok pr)) :
    ∃ key rules id', LastOf obj key rules ∧ key ≠ c!"root" ∧ LangId.parse key = some id' ∧ id = { id' with variants := none } ∧
      ∀ K M, K < 2 ^ 53 → 0 < M → BoundedRules K M rules →
        (∀ po d po' d', OperandsOf po d → Fits d → OperandsOf po' d' → Fits d' → AlikeNumbers K M d d' → pr.function.call po = pr.function.call po') ∧
        (∀ k, k < 2 ^ 64 → ∃ k', k' ≤ K + M ∧ k' ≤ k ∧ pr.function.call (fromUnsigned k) = pr.function.call (fromUnsigned k')) ∧
        ((∀ k, k ≤ K + M → k < 2 ^ 64 → ∃ c, pr.function.call (fromUnsigned k) = some c ∧ FirstCategory rules ⟨k, []⟩ c) →
          ∀ k, k < 2 ^ 64 → ∃ c, pr.function.call (fromUnsigned k) = some c ∧ FirstCategory rules ⟨k, []⟩ c) := by
  obtain ⟨key, rules, id', k1, k2, k3, k4, k5⟩ := C94_library texts rs hr out h text hf lib hb t obj ho search hs id pr hc
  have htot : ∀ po, pr.function.call po ≠ none := by
    have := C93_create texts rs hr out h text hf lib hb t obj ho search hs id
    rw [hc] at this
    exact this.2.1
  refine ⟨key, rules, id', k1, k2, k3, k4, fun K M hK hM hbd => ?_⟩
  have hx : ExactRules rules := by
    intro name c cond ht a ha r hr
    obtain ⟨-, hl⟩ := hbd name c cond ht a ha r hr
    intro _ _
    have hval : ∀ k, RangeListItem.value k ∈ r.rangeList → k < 2 ^ 53 := fun k hk => lt_of_le_of_lt (hl _ hk) hK
    have hran : ∀ lo hi, RangeListItem.range lo hi ∈ r.rangeList → lo < 2 ^ 53 ∧ hi < 2 ^ 53 := fun lo hi hk =>
      ⟨lt_of_le_of_lt (hl _ hk).1 hK, lt_of_le_of_lt (hl _ hk).2 hK⟩
    cases r.operator <;> first | exact hval | exact hran
  have hsame : ∀ po d po' d', OperandsOf po d → Fits d → OperandsOf po' d' → Fits d' → AlikeNumbers K M d d' → pr.function.call po = pr.function.call po' := by
    intro po d po' d' h1 h2 h1' h2' ha
    obtain ⟨c, hcall⟩ := Option.ne_none_iff_exists'.1 (htot po)
    rw [hcall]
    exact ((k5 hx po' d' h1' h2' c).2 ((firstTrue_alike hbd ha c).1 ((k5 hx po d h1 h2 c).1 hcall))).symm
  have hint : ∀ k, k < 2 ^ 64 → pr.function.call (fromUnsigned k) = pr.function.call (fromUnsigned (reduce K M k)) := by
    intro k hk
    obtain ⟨-, r2, r3⟩ := reduce_spec (K := K) hM k
    exact hsame _ _ _ _ (C08_operands k) (integer_fits k hk) (C08_operands _) (integer_fits _ (lt_of_le_of_lt r2 hk)) (integer_alike r3)
  refine ⟨hsame, fun k hk => ⟨_, (reduce_spec hM k).1, (reduce_spec hM k).2.1, hint k hk⟩, fun hright k hk => ?_⟩
  obtain ⟨r1, r2, r3⟩ := reduce_spec (K := K) hM k
  obtain ⟨c, c1, c2⟩ := hright _ r1 (lt_of_le_of_lt r2 hk)
  exact ⟨c, by rw [hint k hk]; exact c1, (firstCategory_alike hbd (integer_alike r3) c).2 c2⟩

/-! ## Examples -/

/-- The Polish rule for FEW has constants up to 14 and moduli 10 and 100; 112 is like 1112, and 22.50 like 122.50, but 2 is not like 102. -/
example : Bounded 14 100 [[⟨⟨.V, none⟩, .EQ, [.value 0]⟩, ⟨⟨.I, some 10⟩, .EQ, [.range 2 4]⟩, ⟨⟨.I, some 100⟩, .NotEQ, [.range 12 14]⟩]] ∧
    AlikeNumbers 14 100 ⟨112, []⟩ ⟨1112, []⟩ ∧ AlikeNumbers 14 100 ⟨22, [5, 0]⟩ ⟨122, [5, 0]⟩ ∧ ¬ AlikeNumbers 14 100 ⟨2, []⟩ ⟨102, []⟩ := by
  refine ⟨?_, ?_, ?_, ?_⟩
  · simp [Bounded, itemNumbers]
  all_goals unfold AlikeNumbers AlikeNat; decide

/-- The bound is needed: `i = 2` is true of 2 and not of 102. -/
example : Uts35.Holds ⟨2, []⟩ [[⟨⟨.I, none⟩, .EQ, [.value 2]⟩]] ∧ ¬ Uts35.Holds ⟨102, []⟩ [[⟨⟨.I, none⟩, .EQ, [.value 2]⟩]] := by
  simp [Uts35.Holds, Uts35.RelationHolds, ItemIn, exprValue, Dec.operand, Dec.i]

end Verif.Props
