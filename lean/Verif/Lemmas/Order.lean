import Verif.LangId
import Verif.Api

/-! Helper lemmas: the order of language identifiers is a total order, and binary search over a sorted table. -/

namespace Verif.LangId
open Verif

/-- The laws of a total order given by a comparison. -/
structure Lawful (f : α → α → Ordering) : Prop where
  eq_iff : ∀ a b, f a b = .eq ↔ a = b
  swap : ∀ a b, f b a = (f a b).swap
  trans : ∀ a b c, f a b = .lt → f b c = .lt → f a c = .lt

theorem Lawful.refl {f : α → α → Ordering} (h : Lawful f) (a : α) : f a a = .eq := (h.eq_iff a a).2 rfl

theorem Lawful.gt_iff {f : α → α → Ordering} (h : Lawful f) (a b : α) : f a b = .gt ↔ f b a = .lt := by
  rw [h.swap a b]; cases f a b <;> simp [Ordering.swap]

theorem cmpStr_lawful : Lawful cmpStr where
  eq_iff := by
    intro a
    induction a with
    | nil => intro b; cases b <;> simp [cmpStr]
    | cons x s ih =>
      intro b
      cases b with
      | nil => simp [cmpStr]
      | cons y t =>
        simp only [cmpStr]
        split
        · rename_i h; simp; rintro rfl; omega
        · split
          · rename_i h; simp; rintro rfl; omega
          · rw [ih]
            have : x = y := Char.toNat_inj.mp (by omega)
            simp [this]
  swap := by
    intro a
    induction a with
    | nil => intro b; cases b <;> rfl
    | cons x s ih =>
      intro b
      cases b with
      | nil => rfl
      | cons y t =>
        simp only [cmpStr]
        by_cases h1 : x.toNat < y.toNat
        · have h2 : ¬ y.toNat < x.toNat := by omega
          simp [h1, h2, Ordering.swap]
        · by_cases h2 : y.toNat < x.toNat
          · simp [h1, h2, Ordering.swap]
          · simp [h1, h2, ih]
  trans := by
    intro a
    induction a with
    | nil => intro b c; cases b <;> cases c <;> simp [cmpStr]
    | cons x s ih =>
      intro b c
      cases b with
      | nil => simp [cmpStr]
      | cons y t =>
        cases c with
        | nil => simp [cmpStr]
        | cons z u =>
          simp only [cmpStr]
          intro h1 h2
          split at h1
          · split at h2
            · rw [if_pos (by omega)]
            · split at h2
              · simp at h2
              · rw [if_pos (by omega)]
          · split at h1
            · simp at h1
            · split at h2
              · rw [if_pos (by omega)]
              · split at h2
                · simp at h2
                · rw [if_neg (by omega), if_neg (by omega)]; exact ih _ _ h1 h2

theorem cmpOpt_lawful {f : α → α → Ordering} (h : Lawful f) : Lawful (cmpOpt f) where
  eq_iff := by intro a b; cases a <;> cases b <;> simp [cmpOpt, h.eq_iff]
  swap := by
    intro a b; cases a <;> cases b <;> simp only [cmpOpt, Ordering.swap]
    exact h.swap _ _
  trans := by
    intro a b c; cases a <;> cases b <;> cases c <;> simp [cmpOpt]
    exact h.trans _ _ _

theorem then_eq {a b : Ordering} : a.then b = .eq ↔ a = .eq ∧ b = .eq := by cases a <;> simp [Ordering.then]
theorem then_lt {a b : Ordering} : a.then b = .lt ↔ a = .lt ∨ (a = .eq ∧ b = .lt) := by cases a <;> simp [Ordering.then]
theorem then_swap {a b : Ordering} : (a.then b).swap = a.swap.then b.swap := by cases a <;> simp [Ordering.then, Ordering.swap]

theorem cmpList_lawful {f : α → α → Ordering} (h : Lawful f) : Lawful (cmpList f) where
  eq_iff := by
    intro a
    induction a with
    | nil => intro b; cases b <;> simp [cmpList]
    | cons x s ih => intro b; cases b <;> simp [cmpList, h.eq_iff, ih]
  swap := by
    intro a
    induction a with
    | nil => intro b; cases b <;> rfl
    | cons x s ih =>
      intro b
      cases b with
      | nil => rfl
      | cons y t => simp only [cmpList, then_swap]; rw [h.swap x y, ih]
  trans := by
    intro a
    induction a with
    | nil => intro b c; cases b <;> cases c <;> simp [cmpList]
    | cons x s ih =>
      intro b c
      cases b with
      | nil => simp [cmpList]
      | cons y t =>
        cases c with
        | nil => simp [cmpList]
        | cons z u =>
          simp only [cmpList, then_lt]
          rintro (h1 | ⟨h1, h1'⟩) (h2 | ⟨h2, h2'⟩)
          · exact .inl (h.trans _ _ _ h1 h2)
          · rw [h.eq_iff] at h2; subst h2; exact .inl h1
          · rw [h.eq_iff] at h1; subst h1; exact .inl h2
          · rw [h.eq_iff] at h1 h2; subst h1; subst h2; exact .inr ⟨h.refl _, ih _ _ h1' h2'⟩

/-- Comparing two keys of a pair of functions, one after the other. -/
theorem then_trans {f : α → α → Ordering} (hf : Lawful f) {p q r : α} {o1 o2 o3 : Ordering}
    (h : o1 = .lt → o2 = .lt → o3 = .lt) (h1 : (f p q).then o1 = .lt) (h2 : (f q r).then o2 = .lt) :
    (f p r).then o3 = .lt := by
  rw [then_lt] at *
  rcases h1 with h1 | ⟨h1, h1'⟩ <;> rcases h2 with h2 | ⟨h2, h2'⟩
  · exact .inl (hf.trans _ _ _ h1 h2)
  · rw [hf.eq_iff] at h2; subst h2; exact .inl h1
  · rw [hf.eq_iff] at h1; subst h1; exact .inl h2
  · rw [hf.eq_iff] at h1 h2; subst h1; subst h2; exact .inr ⟨hf.refl _, h h1' h2'⟩

theorem cmp_lawful : Lawful cmp where
  eq_iff := by
    intro a b
    cases a; cases b
    simp only [cmp, then_eq, (cmpOpt_lawful cmpStr_lawful).eq_iff, (cmpOpt_lawful (cmpList_lawful cmpStr_lawful)).eq_iff,
      LangId.mk.injEq]
  swap := by
    intro a b
    simp only [cmp, then_swap]
    rw [(cmpOpt_lawful cmpStr_lawful).swap a.language, (cmpOpt_lawful cmpStr_lawful).swap a.script,
      (cmpOpt_lawful cmpStr_lawful).swap a.region, (cmpOpt_lawful (cmpList_lawful cmpStr_lawful)).swap a.variants]
  trans := by
    intro a b c h1 h2
    have L := cmpOpt_lawful cmpStr_lawful
    exact then_trans L (then_trans L (then_trans L ((cmpOpt_lawful (cmpList_lawful cmpStr_lawful)).trans _ _ _))) h1 h2

end Verif.LangId

namespace Verif.Api
open Verif LangId

/-- Binary search on a comparison that is `lt`, then at most one `eq`, then `gt`. -/
theorem searchLoop_spec (cmp : Nat → Ordering) (len : Nat)
    (mono : ∀ i j, i < j → j < len → cmp j ≠ .gt → cmp i = .lt) :
    ∀ fuel left right, right ≤ len → right - left ≤ fuel →
      (∀ i, i < left → i < len → cmp i = .lt) → (∀ i, right ≤ i → i < len → cmp i = .gt) →
      match searchLoop cmp fuel left right with
      | .ok i => i < len ∧ cmp i = .eq
      | .error _ => ∀ i, i < len → cmp i ≠ .eq := by
  intro fuel
  induction fuel with
  | zero =>
    intro left right hr hf hlo hhi
    simp only [searchLoop]
    intro i hi
    by_cases h : i < left
    · rw [hlo i h hi]; simp
    · rw [hhi i (by omega) hi]; simp
  | succ fuel ih =>
    intro left right hr hf hlo hhi
    simp only [searchLoop]
    by_cases hlt : left < right
    · rw [if_pos hlt]
      have hm : left + (right - left) / 2 < right := by omega
      have hm' : left ≤ left + (right - left) / 2 := by omega
      have hm2 : left + (right - left) / 2 - left ≤ fuel := by omega
      generalize left + (right - left) / 2 = mid at hm hm' hm2
      have hml : mid < len := by omega
      cases h : cmp mid with
      | lt =>
        apply ih
        · omega
        · omega
        · intro i hi hl
          by_cases he : i = mid
          · rw [he]; exact h
          · exact mono i mid (by omega) hml (by rw [h]; simp)
        · exact hhi
      | gt =>
        apply ih
        · omega
        · omega
        · exact hlo
        · intro i hi hl
          by_cases he : i = mid
          · rw [he]; exact h
          · cases hc : cmp i with
            | gt => rfl
            | lt => have := mono mid i (by omega) hl (by rw [hc]; simp); rw [h] at this; simp at this
            | eq => have := mono mid i (by omega) hl (by rw [hc]; simp); rw [h] at this; simp at this
      | eq => exact ⟨hml, h⟩
    · rw [if_neg hlt]
      intro i hi
      by_cases h : i < left
      · rw [hlo i h hi]; simp
      · rw [hhi i (by omega) hi]; simp

/-- Searching a strictly sorted table finds the key exactly when it is there. -/
theorem binarySearch_spec (t : List (LangId × α)) (hs : t.Pairwise fun a b => LangId.cmp a.1 b.1 = .lt) (key : LangId) :
    match binarySearchByKey t key with
    | .ok i => ∃ v, t[i]? = some (key, v)
    | .error _ => ∀ e ∈ t, e.1 ≠ key := by
  have L := cmp_lawful
  have hget : ∀ i j (hi : i < t.length) (hj : j < t.length), i < j → LangId.cmp t[i].1 t[j].1 = .lt :=
    fun i j hi hj h => List.pairwise_iff_getElem.1 hs i j hi hj h
  have := searchLoop_spec (keyCmp t key) t.length
    (by
      intro i j hij hj hc
      have hi : i < t.length := by omega
      simp only [keyCmp, List.getElem?_eq_getElem hi, List.getElem?_eq_getElem hj] at hc ⊢
      have hij' := hget i j hi hj hij
      cases hcj : LangId.cmp t[j].1 key with
      | lt => exact L.trans _ _ _ hij' hcj
      | eq => rw [L.eq_iff] at hcj; rw [← hcj]; exact hij'
      | gt => exact absurd hcj hc)
    t.length 0 t.length (by omega) (by omega) (by intro i h; omega) (by intro i h h'; omega)
  unfold binarySearchByKey
  split at this
  · obtain ⟨hi, he⟩ := this
    rename_i i _
    simp only [keyCmp, List.getElem?_eq_getElem hi, L.eq_iff] at he
    refine ⟨t[i].2, ?_⟩
    rw [List.getElem?_eq_getElem hi, ← he]
  · intro e he hk
    obtain ⟨i, hi, rfl⟩ := List.getElem_of_mem he
    have := this i hi
    simp only [keyCmp, List.getElem?_eq_getElem hi] at this
    exact this ((L.eq_iff _ _).2 hk)

end Verif.Api
