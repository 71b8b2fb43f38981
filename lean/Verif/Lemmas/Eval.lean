import Verif.Rust

/-! Helper lemmas: well-typed expressions without a remainder by zero always have a value. -/

namespace Verif.Eval
open Verif Rust

/-- Every remainder is by a literal that is not zero. -/
def noZeroRem : RExpr → Bool
  | .int _ => true
  | .flt _ => true
  | .field _ => true
  | .rem a (.int k) => noZeroRem a && k != 0
  | .rem _ _ => false
  | .cmp _ a b => noZeroRem a && noZeroRem b
  | .not a => noZeroRem a
  | .and a b => noZeroRem a && noZeroRem b
  | .or a b => noZeroRem a && noZeroRem b
  | .contains _ _ a => noZeroRem a

/-- A value of a type. -/
def hasTy : Ty → Val → Prop
  | .bool, .bool _ => True
  | .f64, .f64 _ => True
  | .u64, .int _ => True
  | .usize, .int _ => True
  | .intLit, .int _ => True
  | _, _ => False

theorem unifyInt_int {a b c : Ty} (h : unifyInt a b = some c) {x y : Val} (hx : hasTy a x) (hy : hasTy b y) :
    ∃ m n, x = .int m ∧ y = .int n ∧ ∀ k, hasTy c (.int k) := by
  cases a <;> cases b <;> simp [unifyInt] at h <;> subst h <;> cases x <;> simp [hasTy] at hx <;> cases y <;>
    simp [hasTy] at hy <;> exact ⟨_, _, rfl, rfl, fun _ => trivial⟩

theorem hasTy_bool {x : Val} (h : hasTy .bool x) : ∃ b, x = .bool b := by
  cases x <;> simp [hasTy] at h; exact ⟨_, rfl⟩

/-- A well-typed expression without a remainder by zero has a value of its type, on all operands. -/
theorem eval_total (po : PluralOperands) (e : RExpr) (τ : Ty) (hτ : e.ty = some τ) (hz : noZeroRem e = true) :
    ∃ v, e.eval po = some v ∧ hasTy τ v := by
  induction e generalizing τ with
  | int k => simp [RExpr.ty] at hτ; subst hτ; exact ⟨_, rfl, trivial⟩
  | flt k => simp [RExpr.ty] at hτ; subst hτ; exact ⟨_, rfl, trivial⟩
  | field x => simp [RExpr.ty] at hτ; subst hτ; cases x <;> exact ⟨_, rfl, trivial⟩
  | rem a b iha ihb =>
    cases b <;> simp only [noZeroRem, Bool.and_eq_true, bne_iff_ne, Bool.false_eq_true] at hz
    rename_i k
    simp only [RExpr.ty] at hτ
    cases ha : a.ty with
    | none => rw [ha] at hτ; simp at hτ
    | some s =>
      rw [ha] at hτ
      obtain ⟨x, hx, hx'⟩ := iha s ha hz.1
      obtain ⟨m, n, rfl, hn, hk⟩ := unifyInt_int hτ hx' (y := .int k) trivial
      refine ⟨.int (m % k), ?_, hk _⟩
      simp only [RExpr.eval, hx, if_neg hz.2]
  | cmp op a b iha ihb =>
    simp only [noZeroRem, Bool.and_eq_true] at hz
    simp only [RExpr.ty] at hτ
    cases ha : a.ty with
    | none => rw [ha] at hτ; simp at hτ
    | some s =>
      cases hb : b.ty with
      | none => rw [ha, hb] at hτ; cases s <;> simp at hτ
      | some t =>
        rw [ha, hb] at hτ
        obtain ⟨x, hx, hx'⟩ := iha s ha hz.1
        obtain ⟨y, hy, hy'⟩ := ihb t hb hz.2
        by_cases hf : s = .f64 ∧ t = .f64
        · obtain ⟨rfl, rfl⟩ := hf
          simp at hτ; subst hτ
          cases x <;> simp [hasTy] at hx'
          cases y <;> simp [hasTy] at hy'
          exact ⟨.bool _, by simp only [RExpr.eval, hx, hy]; rfl, trivial⟩
        · have hu : (unifyInt s t).map (fun _ => Ty.bool) = some τ := by
            cases s <;> cases t <;> simp_all [unifyInt]
          cases hu' : unifyInt s t with
          | none => rw [hu'] at hu; simp at hu
          | some u =>
            rw [hu'] at hu; simp at hu; subst hu
            obtain ⟨m, n, rfl, rfl, -⟩ := unifyInt_int hu' hx' hy'
            exact ⟨.bool _, by simp only [RExpr.eval, hx, hy]; rfl, trivial⟩
  | not a iha =>
    simp only [noZeroRem] at hz
    simp only [RExpr.ty] at hτ
    split at hτ
    · rename_i ha
      simp at hτ; subst hτ
      obtain ⟨x, hx, hx'⟩ := iha _ ha hz
      obtain ⟨b, rfl⟩ := hasTy_bool hx'
      exact ⟨.bool _, by simp only [RExpr.eval, hx]; rfl, trivial⟩
    · simp at hτ
  | and a b iha ihb =>
    simp only [noZeroRem, Bool.and_eq_true] at hz
    simp only [RExpr.ty] at hτ
    split at hτ
    · rename_i h
      simp at hτ; subst hτ
      obtain ⟨x, hx, hx'⟩ := iha _ h.1 hz.1
      obtain ⟨y, hy, hy'⟩ := ihb _ h.2 hz.2
      obtain ⟨p, rfl⟩ := hasTy_bool hx'
      obtain ⟨q, rfl⟩ := hasTy_bool hy'
      cases p
      · exact ⟨.bool false, by simp only [RExpr.eval, hx], trivial⟩
      · exact ⟨.bool q, by simp only [RExpr.eval, hx, hy], trivial⟩
    · simp at hτ
  | or a b iha ihb =>
    simp only [noZeroRem, Bool.and_eq_true] at hz
    simp only [RExpr.ty] at hτ
    split at hτ
    · rename_i h
      simp at hτ; subst hτ
      obtain ⟨x, hx, hx'⟩ := iha _ h.1 hz.1
      obtain ⟨y, hy, hy'⟩ := ihb _ h.2 hz.2
      obtain ⟨p, rfl⟩ := hasTy_bool hx'
      obtain ⟨q, rfl⟩ := hasTy_bool hy'
      cases p
      · exact ⟨.bool q, by simp only [RExpr.eval, hx, hy], trivial⟩
      · exact ⟨.bool true, by simp only [RExpr.eval, hx], trivial⟩
    · simp at hτ
  | contains lo hi a iha =>
    simp only [noZeroRem] at hz
    simp only [RExpr.ty] at hτ
    cases ha : a.ty with
    | none => rw [ha] at hτ; simp at hτ
    | some s =>
      rw [ha] at hτ
      obtain ⟨x, hx, hx'⟩ := iha s ha hz
      cases hu' : unifyInt .intLit s with
      | none => simp [hu'] at hτ
      | some u =>
        simp [hu'] at hτ; subst hτ
        obtain ⟨m, n, -, rfl, -⟩ := unifyInt_int hu' (x := .int 0) trivial hx'
        exact ⟨.bool _, by simp only [RExpr.eval, hx]; rfl, trivial⟩

/-- A chain of such expressions always gives a category: one of its arms, or the last one. -/
theorem evalArms_total (po : PluralOperands) (arms : List (RExpr × PluralCategory)) (d : PluralCategory)
    (h : ∀ a ∈ arms, a.1.ty = some .bool ∧ noZeroRem a.1 = true) :
    ∃ c, evalArms po arms d = some c ∧ (c = d ∨ c ∈ arms.map (·.2)) := by
  induction arms with
  | nil => exact ⟨d, rfl, .inl rfl⟩
  | cons a r ih =>
    obtain ⟨e, c⟩ := a
    obtain ⟨v, hv, hb⟩ := eval_total po e .bool (h (e, c) (by simp)).1 (h (e, c) (by simp)).2
    obtain ⟨b, rfl⟩ := hasTy_bool hb
    cases b
    · obtain ⟨c', h1, h2⟩ := ih fun a ha => h a (by simp [ha])
      refine ⟨c', by simp only [evalArms, hv, h1], ?_⟩
      rcases h2 with h2 | h2
      · exact .inl h2
      · exact .inr (by simp; exact .inr (by simpa using h2))
    · exact ⟨c, by simp only [evalArms, hv], .inr (by simp)⟩

end Verif.Eval
