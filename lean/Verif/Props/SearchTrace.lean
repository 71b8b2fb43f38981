import Verif.SearchTrace
import Verif.Props.Locales

/-!
# C103: what the lookup of a locale reads
-/

namespace Verif.Props
open Verif Api

theorem searchTrace_result (cmp : Nat → Ordering) (fuel left right : Nat) :
    (searchTrace cmp fuel left right).2 = searchLoop cmp fuel left right := by
  induction fuel generalizing left right with
  | zero => rfl
  | succ fuel ih =>
    unfold searchTrace searchLoop
    split
    · dsimp only
      cases cmp (left + (right - left) / 2) with
      | lt => exact ih _ _
      | gt => exact ih _ _
      | eq => rfl
    · rfl

theorem searchTrace_mem (cmp : Nat → Ordering) (fuel left right : Nat) :
    ∀ i ∈ (searchTrace cmp fuel left right).1, left ≤ i ∧ i < right := by
  induction fuel generalizing left right with
  | zero => intro i hi; cases hi
  | succ fuel ih =>
    unfold searchTrace
    split
    · next hlt =>
      dsimp only
      cases cmp (left + (right - left) / 2) with
      | lt =>
        intro i hi
        rcases List.mem_cons.1 hi with rfl | hi
        · omega
        · have := ih _ _ i hi; omega
      | gt =>
        intro i hi
        rcases List.mem_cons.1 hi with rfl | hi
        · omega
        · have := ih _ _ i hi; omega
      | eq =>
        intro i hi
        rcases List.mem_cons.1 hi with rfl | hi
        · omega
        · cases hi
    · intro i hi; cases hi

theorem searchTrace_length (cmp : Nat → Ordering) (fuel left right k : Nat) (h : right - left < 2 ^ k) :
    (searchTrace cmp fuel left right).1.length ≤ k := by
  induction fuel generalizing left right k with
  | zero => exact Nat.zero_le _
  | succ fuel ih =>
    unfold searchTrace
    split
    · next hlt =>
      cases k with
      | zero => simp at h; omega
      | succ k =>
        rw [Nat.pow_succ] at h
        dsimp only
        cases cmp (left + (right - left) / 2) with
        | lt => exact Nat.succ_le_succ (ih _ _ k (by omega))
        | gt => exact Nat.succ_le_succ (ih _ _ k (by omega))
        | eq => exact Nat.succ_le_succ (Nat.zero_le _)
    · exact Nat.zero_le _

theorem branchlessTrace_result (cmp : Nat → Ordering) (fuel base size : Nat) :
    (branchlessTrace cmp fuel base size).2 = branchlessLoop cmp fuel base size := by
  induction fuel generalizing base size with
  | zero => rfl
  | succ fuel ih =>
    unfold branchlessTrace branchlessLoop
    split
    · exact ih _ _
    · rfl

theorem branchlessTrace_mem (cmp : Nat → Ordering) (fuel base size : Nat) (hs : 0 < size) :
    (∀ i ∈ (branchlessTrace cmp fuel base size).1, base ≤ i ∧ i < base + size) ∧
      base ≤ (branchlessTrace cmp fuel base size).2 ∧ (branchlessTrace cmp fuel base size).2 < base + size := by
  induction fuel generalizing base size with
  | zero => exact ⟨(fun i hi => by cases hi), Nat.le_refl _, by simp only [branchlessTrace]; omega⟩
  | succ fuel ih =>
    unfold branchlessTrace
    split
    · next hlt =>
      dsimp only
      by_cases hc : cmp (base + size / 2) = .gt
      · rw [if_pos hc]
        obtain ⟨h1, h2, h3⟩ := ih base (size - size / 2) (by omega)
        refine ⟨fun i hi => ?_, by omega, by omega⟩
        rcases List.mem_cons.1 hi with rfl | hi
        · omega
        · have := h1 i hi; omega
      · rw [if_neg hc]
        obtain ⟨h1, h2, h3⟩ := ih (base + size / 2) (size - size / 2) (by omega)
        refine ⟨fun i hi => ?_, by omega, by omega⟩
        rcases List.mem_cons.1 hi with rfl | hi
        · omega
        · have := h1 i hi; omega
    · exact ⟨(fun i hi => by cases hi), Nat.le_refl _, by simp only; omega⟩

theorem branchlessTrace_length (cmp : Nat → Ordering) (fuel base size k : Nat) (h : size ≤ 2 ^ k) :
    (branchlessTrace cmp fuel base size).1.length ≤ k := by
  induction fuel generalizing base size k with
  | zero => exact Nat.zero_le _
  | succ fuel ih =>
    unfold branchlessTrace
    split
    · next hlt =>
      cases k with
      | zero => simp at h; omega
      | succ k =>
        rw [Nat.pow_succ] at h
        exact Nat.succ_le_succ (ih _ _ k (by omega))
    · exact Nat.zero_le _

/-- C103: in a table of less than 2^k entries the lookup compares at most `k` of them with the identifier, or `k + 1` with the loop of
other versions of std; all of them are entries of the table, and the result is that of the search. -/
theorem C103_search (t : List (LangId × α)) (key : LangId) (k : Nat) (hk : t.length < 2 ^ k) :
    ((traceBisect t key).1.length ≤ k ∧ (∀ i ∈ (traceBisect t key).1, i < t.length) ∧ (traceBisect t key).2 = binarySearchByKey t key) ∧
    ((traceBranchless t key).1.length ≤ k + 1 ∧ (∀ i ∈ (traceBranchless t key).1, i < t.length) ∧
      (traceBranchless t key).2 = searchBranchless t key) := by
  refine ⟨⟨searchTrace_length _ _ _ _ k hk, fun i hi => (searchTrace_mem _ _ _ _ i hi).2, searchTrace_result _ _ _ _⟩, ?_⟩
  unfold traceBranchless searchBranchless
  by_cases h0 : t.length = 0
  · simp [h0]
  · simp only [h0, if_false]
    have h1 := branchlessTrace_mem (keyCmp t key) t.length 0 t.length (by omega)
    refine ⟨?_, fun i hi => ?_, ?_⟩
    · have := branchlessTrace_length (keyCmp t key) t.length 0 t.length k (by omega)
      rw [List.length_append, List.length_singleton]
      omega
    · rcases List.mem_append.1 hi with hi | hi
      · have := h1.1 i hi; omega
      · rw [List.mem_singleton.1 hi]; omega
    · rw [branchlessTrace_result]
      rfl

example (id : LangId) : (traceBisect (table .CARDINAL) id).1.length ≤ 8 := (C103_search (table .CARDINAL) id 8 (by decide +kernel)).1.1

/-- C103: `create` compares at most eight identifiers of cardinals and seven of ordinals, or one more. -/
theorem C103_create (id : LangId) : (traceBisect (table .CARDINAL) id).1.length ≤ 8 ∧ (traceBranchless (table .CARDINAL) id).1.length ≤ 9 ∧
    (traceBisect (table .ORDINAL) id).1.length ≤ 7 ∧ (traceBranchless (table .ORDINAL) id).1.length ≤ 8 := by
  have h1 : (table .CARDINAL).length < 2 ^ 8 := by decide +kernel
  have h2 : (table .ORDINAL).length < 2 ^ 7 := by decide +kernel
  have c := C103_search (table .CARDINAL) id 8 h1
  have o := C103_search (table .ORDINAL) id 7 h2
  exact ⟨c.1.1, c.2.1, o.1.1, o.2.1⟩

/-- So many are needed for some. -/
example : (getLocales .CARDINAL).any (fun id => (traceBisect (table .CARDINAL) id).1.length == 8) = true ∧
    (getLocales .CARDINAL).any (fun id => (traceBranchless (table .CARDINAL) id).1.length == 9) = true ∧
    (getLocales .ORDINAL).any (fun id => (traceBisect (table .ORDINAL) id).1.length == 7) = true ∧
    (getLocales .ORDINAL).any (fun id => (traceBranchless (table .ORDINAL) id).1.length == 8) = true := by decide +kernel

end Verif.Props
