import Verif.Uts35
import Mathlib.Tactic.Ring
import Mathlib.Tactic.Linarith
import Mathlib.Tactic.Positivity
import Mathlib.Tactic.FieldSimp
import Mathlib.Tactic.NormNum

/-! Helper lemmas: the rational-number semantics of `Verif.Uts35` in terms of natural numbers. -/

namespace Verif.Uts35
open Verif

theorem digitsNum_lt (l : List (Fin 10)) : digitsNum l < 10 ^ l.length := by
  induction l with
  | nil => simp [digitsNum]
  | cons d r ih =>
    simp only [digitsNum, List.length_cons, pow_succ]
    have := d.isLt
    have : d.val * 10 ^ r.length ≤ 9 * 10 ^ r.length := Nat.mul_le_mul_right _ (by omega)
    omega

theorem digitsNum_eq_zero (l : List (Fin 10)) : digitsNum l = 0 ↔ l.all (· == 0) = true := by
  induction l with
  | nil => simp [digitsNum]
  | cons d r ih =>
    simp only [digitsNum, List.all_cons, Bool.and_eq_true, beq_iff_eq, ← ih, Nat.add_eq_zero_iff, Nat.mul_eq_zero,
      Fin.ext_iff]
    simp

namespace Dec

/-- The significand: all digits as one number. -/
def sig (d : Dec) : Nat := d.i * 10 ^ d.v + d.f

theorem f_lt (d : Dec) : d.f < 10 ^ d.v := digitsNum_lt d.frac

theorem value_eq (d : Dec) : d.value = (d.i : ℚ) + (d.f : ℚ) / 10 ^ d.v := rfl

theorem frac_lt_one (d : Dec) : (d.f : ℚ) / 10 ^ d.v < 1 := by
  rw [div_lt_one (by positivity)]
  exact_mod_cast d.f_lt

theorem floor_value (d : Dec) : ⌊d.value⌋ = (d.i : ℤ) := by
  rw [Int.floor_eq_iff, value_eq]
  have := d.frac_lt_one
  have h2 : (0 : ℚ) ≤ (d.f : ℚ) / 10 ^ d.v := by positivity
  push_cast
  constructor <;> linarith

theorem value_eq_sig (d : Dec) : d.value = (d.sig : ℚ) / 10 ^ d.v := by
  rw [value_eq, sig]; push_cast; field_simp

theorem value_eq_nat (d : Dec) (k : Nat) : d.value = k ↔ d.f = 0 ∧ d.i = k := by
  constructor
  · intro h
    have h1 := d.floor_value
    rw [h, Int.floor_natCast] at h1
    have h1 : d.i = k := by exact_mod_cast h1.symm
    refine ⟨?_, h1⟩
    rw [value_eq, h1] at h
    have h2 : (d.f : ℚ) / 10 ^ d.v = 0 := by linarith
    rw [div_eq_zero_iff] at h2
    rcases h2 with h2 | h2
    · exact_mod_cast h2
    · exact absurd h2 (by positivity)
  · rintro ⟨h1, rfl⟩
    rw [value_eq, h1]; simp

theorem le_value (d : Dec) (k : Nat) : (k : ℚ) ≤ d.value ↔ k * 10 ^ d.v ≤ d.sig := by
  rw [value_eq_sig, le_div_iff₀ (by positivity)]
  exact_mod_cast Iff.rfl

theorem value_le (d : Dec) (k : Nat) : d.value ≤ k ↔ d.sig ≤ k * 10 ^ d.v := by
  rw [value_eq_sig, div_le_iff₀ (by positivity)]
  exact_mod_cast Iff.rfl

end Dec

theorem qmod_nat (x m : Nat) : qmod (x : ℚ) m = ((x % m : Nat) : ℚ) := by
  unfold qmod
  rw [Int.floor_div_natCast, Int.floor_natCast]
  have h : ((x : ℤ) / (m : ℤ) : ℤ) = ((x / m : Nat) : ℤ) := rfl
  rw [h]
  have h2 : (x : ℚ) = m * ((x / m : Nat) : ℚ) + ((x % m : Nat) : ℚ) := by exact_mod_cast (Nat.div_add_mod x m).symm
  rw [Int.cast_natCast]
  linarith

theorem qmod_value (d : Dec) (m : Nat) : qmod d.value m = ((d.i % m : Nat) : ℚ) + (d.f : ℚ) / 10 ^ d.v := by
  unfold qmod
  rw [Int.floor_div_natCast, Dec.floor_value]
  have h : ((d.i : ℤ) / (m : ℤ) : ℤ) = ((d.i / m : Nat) : ℤ) := rfl
  rw [h]
  have h2 : (d.i : ℚ) = m * ((d.i / m : Nat) : ℚ) + ((d.i % m : Nat) : ℚ) := by exact_mod_cast (Nat.div_add_mod d.i m).symm
  rw [Int.cast_natCast, Dec.value_eq]
  linarith

theorem qmod_value_eq_nat (d : Dec) (m k : Nat) : qmod d.value m = k ↔ d.f = 0 ∧ d.i % m = k := by
  have := Dec.value_eq_nat ⟨d.i % m, d.frac⟩ k
  rw [Dec.value_eq] at this
  rw [qmod_value]
  exact this

/-- The integer that an expression on an operand other than `n` has as value. -/
def intOperand (d : Dec) : Operand → Nat
  | .N => d.i
  | .I => d.i
  | .V => d.v
  | .W => d.w
  | .F => d.f
  | .T => d.t

theorem operand_int (d : Dec) (o : Operand) (h : o ≠ .N) : d.operand o = (intOperand d o : ℚ) := by
  cases o <;> first | contradiction | rfl

/-- The integer left side of a relation: on `n` it is the one of `i`. -/
def intExpr (d : Dec) (e : Expression) : Nat :=
  match e.modulus with
  | none => intOperand d e.operand
  | some m => intOperand d e.operand % m

/-- A relation on `n` is about an integer only when the number is one. -/
theorem exprValue_eq_nat (d : Dec) (e : Expression) (k : Nat) :
    exprValue d e = k ↔ (e.operand = .N → d.f = 0) ∧ intExpr d e = k := by
  unfold exprValue intExpr
  by_cases h : e.operand = .N
  · rw [h]
    cases e.modulus with
    | none => simpa [intOperand, Dec.operand, Dec.n] using d.value_eq_nat k
    | some m => simpa [intOperand, Dec.operand, Dec.n] using qmod_value_eq_nat d m k
  · rw [operand_int d _ h]
    cases e.modulus with
    | none => simp only [h, false_implies, true_and]; exact_mod_cast Iff.rfl
    | some m => simp only [h, false_implies, true_and]; rw [qmod_nat]; exact_mod_cast Iff.rfl

/-- One item as a statement about an integer. -/
def itemNat (x : Nat) : RangeListItem → Bool
  | .value k => x == k
  | .range lo hi => lo ≤ x && x ≤ hi

theorem itemIn_iff (d : Dec) (e : Expression) (item : RangeListItem) :
    ItemIn (exprValue d e) item ↔ (e.operand = .N → d.f = 0) ∧ itemNat (intExpr d e) item = true := by
  cases item with
  | value k => simp only [ItemIn, exprValue_eq_nat, itemNat, beq_iff_eq]
  | range lo hi =>
    simp only [ItemIn, exprValue_eq_nat, itemNat, Bool.and_eq_true, decide_eq_true_eq]
    constructor
    · rintro ⟨k, h1, h2, h3, rfl⟩; exact ⟨h3, h1, h2⟩
    · rintro ⟨h1, h2, h3⟩; exact ⟨_, h2, h3, h1, rfl⟩

/-- A positive relation as a statement about integers. -/
theorem existsItemIn_iff (d : Dec) (e : Expression) (l : List RangeListItem) :
    (∃ item ∈ l, ItemIn (exprValue d e) item) ↔ (e.operand = .N → d.f = 0) ∧ l.any (itemNat (intExpr d e)) = true := by
  simp only [itemIn_iff, List.any_eq_true]
  constructor
  · rintro ⟨i, h1, h2, h3⟩; exact ⟨h2, i, h1, h3⟩
  · rintro ⟨h2, i, h1, h3⟩; exact ⟨i, h1, h2, h3⟩

end Verif.Uts35
