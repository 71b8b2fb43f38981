import Verif.Props.Exact

/-!
# C72: categories of integers repeat
-/

namespace Verif.Props
open Verif Api Rust Uts35 Spec Sem Verif.Parser Grammar PluralOperands

/-- A bound and a period for the locale: above the bound, integers with the same remainder have the same category. -/
def repeats : PluralRuleType → Str → Nat × Nat
  | .CARDINAL, key => if key = c!"kw" then (20000, 1000000) else if key = c!"br" then (99, 1000000) else (99, 100)
  | .ORDINAL, key => if key ∈ [c!"it", c!"sc", c!"scn"] then (800, 1) else if key = c!"az" then (0, 1000) else (84, 100)

/-- No integer above the bound is in the item. -/
def itemBelow (b : Nat) : RangeListItem → Bool
  | .value k => k ≤ b
  | .range _ hi => hi ≤ b

/-- What the code of the relation compares with is a remainder by a divisor of the period, or not above the bound. -/
def relRepeats (b m : Nat) (r : Relation) : Bool :=
  match r.expression.operand with
  | .N =>
    match r.expression.modulus with
    | none => r.rangeList.all (itemBelow b)
    | some k => decide (k ∣ m) && r.rangeList.all fun
        | .value _ => true
        | .range _ hi => hi ≤ b
  | .I =>
    match r.expression.modulus with
    | none => r.rangeList.all (itemBelow b)
    | some k => decide (k ∣ m)
  | _ => true

def condRepeats (b m : Nat) (c : Condition) : Bool := c.all fun a => a.all (relRepeats b m)

theorem any_congr' {α : Type} {l : List α} {p q : α → Bool} (h : ∀ x ∈ l, p x = q x) : l.any p = l.any q := by
  induction l with
  | nil => rfl
  | cons x l ih => simp only [List.any_cons, h x (by simp), ih fun y hy => h y (by simp [hy])]

theorem all_congr' {α : Type} {l : List α} {p q : α → Bool} (h : ∀ x ∈ l, p x = q x) : l.all p = l.all q := by
  induction l with
  | nil => rfl
  | cons x l ih => simp only [List.all_cons, h x (by simp), ih fun y hy => h y (by simp [hy])]

theorem item_repeats (b m k k' : Nat) (hk : b < k) (hk' : b < k') (hm : k % m = k' % m) (r : Relation) (h : relRepeats b m r = true)
    (x : RangeListItem) (hx : x ∈ r.rangeList) :
    acceptsB ⟨k, []⟩ r.expression x = acceptsB ⟨k', []⟩ r.expression x ∧
    rejectsB ⟨k, []⟩ r.expression x = rejectsB ⟨k', []⟩ r.expression x := by
  obtain ⟨⟨o, md⟩, op, l⟩ := r
  simp only [relRepeats] at h hx ⊢
  have hmod : ∀ j, j ∣ m → k % j = k' % j := fun j hj => by
    rw [← Nat.mod_mod_of_dvd k hj, hm, Nat.mod_mod_of_dvd k' hj]
  have hz : ∀ i, (Dec.mk i []).v = 0 ∧ (Dec.mk i []).w = 0 ∧ (Dec.mk i []).f = 0 ∧ (Dec.mk i []).t = 0 ∧ (Dec.mk i []).i = i := fun i =>
    ⟨rfl, rfl, rfl, rfl, rfl⟩
  cases o with
  | N =>
    cases md with
    | none =>
      have := List.all_eq_true.1 h x hx
      cases x with
      | value v =>
        have hv : v ≤ b := by simpa [itemBelow] using this
        have h1 : (k == v) = false := by simp; omega
        have h2 : (k' == v) = false := by simp; omega
        simp [acceptsB, rejectsB, Actual.look, hz, h1, h2]
      | range lo hi =>
        have hv : hi ≤ b := by simpa [itemBelow] using this
        have h1 : ¬ k ≤ hi := by omega
        have h2 : ¬ k' ≤ hi := by omega
        simp [acceptsB, rejectsB, hz, h1, h2]
    | some j =>
      simp only [Bool.and_eq_true, decide_eq_true_eq] at h
      have := List.all_eq_true.1 h.2 x hx
      cases x with
      | value v => simp [acceptsB, rejectsB, Actual.look, hz, hmod j h.1]
      | range lo hi =>
        have hv : hi ≤ b := by simpa using this
        have h1 : ¬ k ≤ hi := by omega
        have h2 : ¬ k' ≤ hi := by omega
        simp [acceptsB, rejectsB, hz, h1, h2]
  | I =>
    cases md with
    | none =>
      have := List.all_eq_true.1 h x hx
      cases x with
      | value v =>
        have hv : v ≤ b := by simpa [itemBelow] using this
        have h1 : (k == v) = false := by simp; omega
        have h2 : (k' == v) = false := by simp; omega
        simp [acceptsB, rejectsB, Actual.look, hz, h1, h2]
      | range lo hi =>
        have hv : hi ≤ b := by simpa [itemBelow] using this
        have h1 : ¬ k ≤ hi := by omega
        have h2 : ¬ k' ≤ hi := by omega
        simp [acceptsB, rejectsB, Actual.look, hz, h1, h2]
    | some j =>
      simp only [decide_eq_true_eq] at h
      cases x <;> simp [acceptsB, rejectsB, Actual.look, hz, hmod j h]
  | V => cases x <;> cases md <;> simp [acceptsB, rejectsB, Actual.look, hz]
  | W => cases x <;> cases md <;> simp [acceptsB, rejectsB, Actual.look, hz]
  | F => cases x <;> cases md <;> simp [acceptsB, rejectsB, Actual.look, hz]
  | T => cases x <;> cases md <;> simp [acceptsB, rejectsB, Actual.look, hz]

theorem cond_repeats (b m k k' : Nat) (hk : b < k) (hk' : b < k') (hm : k % m = k' % m) (c : Condition) (h : condRepeats b m c = true) :
    actHoldsB ⟨k, []⟩ c = actHoldsB ⟨k', []⟩ c := by
  simp only [condRepeats, List.all_eq_true] at h
  refine any_congr' fun a ha => all_congr' fun r hr => ?_
  unfold actRelB
  rw [any_congr' fun x hx => (item_repeats b m k k' hk hk' hm r (h a ha r hr) x hx).1,
    all_congr' fun x hx => (item_repeats b m k k' hk hk' hm r (h a ha r hr) x hx).2]

theorem actB_repeats (b m k k' : Nat) (hk : b < k) (hk' : b < k') (hm : k % m = k' % m) (l : List (PluralCategory × Condition))
    (h : l.all (fun x => condRepeats b m x.2) = true) : actB l ⟨k, []⟩ = actB l ⟨k', []⟩ := by
  simp only [List.all_eq_true] at h
  unfold actB
  congr 1
  refine List.map_congr_left fun c _ => ?_
  rw [any_congr' fun x hx => by rw [cond_repeats b m k k' hk hk' hm x.2 (h x hx)]]

def localeRepeats (t : PluralRuleType) (p : Str × List (Str × Str)) : Bool :=
  match GenPr.mapPanic readRule p.2 with
  | none => false
  | some l => l.all (fun x => noWithin x.2) && l.all fun x => condRepeats (repeats t p.1).1 (repeats t p.1).2 x.2

theorem repeats_checked : ∀ t : PluralRuleType, (cldrData t).all (localeRepeats t) = true := by
  intro t; cases t <;> decide +kernel

/-- C72: two integers above the bound with the same remainder get the same category. -/
theorem C72_periodic (t : PluralRuleType) (id : LangId) (pr : PluralRules) (h : create id t = .ok pr) (key : Str)
    (hid : LangId.parse key = some id) (hkey : ∃ rules, (key, rules) ∈ cldrData t) (k k' : Nat) (hk : k < 2 ^ 64) (hk' : k' < 2 ^ 64)
    (hb : (repeats t key).1 < k) (hb' : (repeats t key).1 < k') (hm : k % (repeats t key).2 = k' % (repeats t key).2) :
    select (ε := OpsErr) pr (.ok (fromUnsigned k)) = select (ε := OpsErr) pr (.ok (fromUnsigned k')) := by
  obtain ⟨rules, hr⟩ := hkey
  have hc := List.all_eq_true.1 (repeats_checked t) _ hr
  simp only [localeRepeats] at hc
  cases hl : GenPr.mapPanic readRule rules with
  | none => simp [hl] at hc
  | some l =>
    simp only [hl, Bool.and_eq_true] at hc
    have key : ∀ k, k < 2 ^ 64 → select (ε := OpsErr) pr (.ok (fromUnsigned k)) = some (.ok (actB l ⟨k, []⟩)) := by
      intro k hk
      obtain ⟨c, key', rules', h1, h2, h3, h4⟩ := C65_select t id pr h _ _ (C08_operands k) (fits_nat k hk)
      obtain ⟨-, rfl⟩ := key_unique t id _ _ _ _ hr h2 hid h3
      rw [h1, actB_category hl hc.1 _ c h4]
    rw [key k hk, key k' hk', actB_repeats _ _ k k' hb hb' hm l hc.2]

example : ∃ pr, create ⟨some c!"br", none, none, none⟩ .CARDINAL = .ok pr ∧
    select (ε := OpsErr) pr (.ok (fromUnsigned 1000000)) = select (ε := OpsErr) pr (.ok (fromUnsigned 20000000)) := by
  obtain ⟨pr, h⟩ := (C01_create_iff_listed ⟨some c!"br", none, none, none⟩ .CARDINAL).1.2 (by decide +kernel)
  have hk : ((cldrData .CARDINAL).any fun p => p.1 == c!"br") = true := by decide +kernel
  obtain ⟨⟨key, rules⟩, hm, hx⟩ := List.any_eq_true.1 hk
  obtain rfl := beq_iff_eq.1 hx
  exact ⟨pr, h, C72_periodic _ _ pr h c!"br" (by decide +kernel) ⟨rules, hm⟩ 1000000 20000000 (by decide) (by decide) (by decide) (by decide) (by decide)⟩

/-- C72: so every integer has the category of one up to 1020000 (1000 for all cardinals but br and kw, and all ordinals). -/
theorem C72_small (t : PluralRuleType) (id : LangId) (pr : PluralRules) (h : create id t = .ok pr) (k : Nat) (hk : k < 2 ^ 64) :
    ∃ k', k' ≤ 1020000 ∧ ((t = .CARDINAL → LangId.parse c!"br" ≠ some id ∧ LangId.parse c!"kw" ≠ some id) → k' ≤ 1000) ∧ k' ≤ k ∧
      select (ε := OpsErr) pr (.ok (fromUnsigned k)) = select (ε := OpsErr) pr (.ok (fromUnsigned k')) := by
  obtain ⟨⟨key, rules⟩, hp, -, hid⟩ := ((C21_locales_are_keys t).1 id).1 (((C01_create_iff_listed id t).1).1 ⟨pr, h⟩)
  simp only at hid
  have hsizes : (repeats t key).1 + (repeats t key).2 ≤ 1020000 ∧ 0 < (repeats t key).2 ∧
      ((t = .CARDINAL → LangId.parse c!"br" ≠ some id ∧ LangId.parse c!"kw" ≠ some id) → (repeats t key).1 + (repeats t key).2 ≤ 1000) := by
    cases t with
    | CARDINAL =>
      simp only [repeats]
      split_ifs with h1 h2
      · subst h1; exact ⟨by norm_num, by norm_num, fun h => absurd hid (h trivial).2⟩
      · subst h2; exact ⟨by norm_num, by norm_num, fun h => absurd hid (h trivial).1⟩
      · exact ⟨by norm_num, by norm_num, fun _ => by norm_num⟩
    | ORDINAL =>
      simp only [repeats]
      split_ifs with h1 h2
      · exact ⟨by norm_num, by norm_num, fun _ => by norm_num⟩
      · exact ⟨by norm_num, by norm_num, fun _ => by norm_num⟩
      · exact ⟨by norm_num, by norm_num, fun _ => by norm_num⟩
  have hper := C72_periodic t id pr h key hid ⟨rules, hp⟩
  generalize (repeats t key).1 = b at *
  generalize (repeats t key).2 = m at *
  obtain ⟨hs1, hs0, hs2⟩ := hsizes
  by_cases hle : k ≤ b
  · exact ⟨k, by omega, fun hx => by have := hs2 hx; omega, le_refl _, rfl⟩
  · have hlt := Nat.mod_lt (k - (b + 1)) hs0
    have hd := Nat.div_add_mod (k - (b + 1)) m
    have hkk : b + 1 + (k - (b + 1)) % m ≤ k := by
      have := Nat.mod_le (k - (b + 1)) m
      omega
    refine ⟨b + 1 + (k - (b + 1)) % m, by omega, fun hx => by have := hs2 hx; omega, hkk,
      hper k _ hk (by omega) (by omega) (by omega) ?_⟩
    rw [Nat.add_mod_mod]
    congr 1
    omega

/-- For instance, in Breton 20000000 has the category of 1000000. -/
example : (repeats .CARDINAL c!"br").1 < 1000000 ∧ (repeats .CARDINAL c!"br").1 < 20000000 ∧
    1000000 % (repeats .CARDINAL c!"br").2 = 20000000 % (repeats .CARDINAL c!"br").2 := by decide

end Verif.Props
