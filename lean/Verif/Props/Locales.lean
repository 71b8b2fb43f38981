import Verif.Lemmas.Order

/-!
# C01–C04: `create`, `get_locales`, `get_locale`
-/

namespace Verif.Props
open Verif Api Rust

/-! ## Specification -/

/-- `None` before `Some`, then by the given order. -/
def OptBefore (lt : α → α → Prop) : Option α → Option α → Prop
  | none, some _ => True
  | some a, some b => lt a b
  | _, none => False

/-- The order of identifiers: language, then script, then region, then variants; a missing part before any, text in
dictionary order (Lean's order of lists of characters). -/
def Before (a b : LangId) : Prop :=
  OptBefore (· < ·) a.language b.language ∨
  a.language = b.language ∧ (OptBefore (· < ·) a.script b.script ∨
  a.script = b.script ∧ (OptBefore (· < ·) a.region b.region ∨
  a.region = b.region ∧ OptBefore (· < ·) a.variants b.variants))

/-- The identifier pt-PT. -/
def ptPT : LangId := { language := some c!"pt", script := none, region := some c!"PT", variants := none }

/-! ## Proofs -/

theorem cmpStr_lt_iff (s t : Str) : LangId.cmpStr s t = .lt ↔ s < t := by
  induction s generalizing t with
  | nil => cases t <;> simp [LangId.cmpStr]
  | cons x s ih =>
    cases t with
    | nil => simp [LangId.cmpStr]
    | cons y t =>
      simp only [LangId.cmpStr, List.cons_lt_cons_iff, ← ih, Char.lt_def, UInt32.lt_iff_toNat_lt, Char.toNat_val]
      split
      · simp_all
      · rename_i h
        split
        · rename_i h'
          simp; exact ⟨by omega, by rintro rfl; omega⟩
        · have : x = y := Char.toNat_inj.mp (by omega)
          subst this
          simp

theorem cmpList_lt_iff (s t : List Str) : LangId.cmpList LangId.cmpStr s t = .lt ↔ s < t := by
  induction s generalizing t with
  | nil => cases t <;> simp [LangId.cmpList]
  | cons x s ih =>
    cases t with
    | nil => simp [LangId.cmpList]
    | cons y t =>
      simp only [LangId.cmpList, LangId.then_lt, List.cons_lt_cons_iff, ← ih, cmpStr_lt_iff,
        LangId.cmpStr_lawful.eq_iff]

theorem cmpOpt_lt_iff (f : α → α → Ordering) (lt : α → α → Prop) (h : ∀ a b, f a b = .lt ↔ lt a b) (a b : Option α) :
    LangId.cmpOpt f a b = .lt ↔ OptBefore lt a b := by
  cases a <;> cases b <;> simp [LangId.cmpOpt, OptBefore, h]

theorem cmp_lt_iff (a b : LangId) : LangId.cmp a b = .lt ↔ Before a b := by
  have L := LangId.cmpOpt_lawful LangId.cmpStr_lawful
  simp only [LangId.cmp, LangId.then_lt, Before, L.eq_iff, cmpOpt_lt_iff _ _ cmpStr_lt_iff,
    cmpOpt_lt_iff _ _ cmpList_lt_iff]

/-- Neighbours in order, as a test the kernel evaluates. -/
def sortedCheck : List (LangId × Closure) → Bool
  | a :: b :: r => LangId.cmp a.1 b.1 == .lt && sortedCheck (b :: r)
  | _ => true

theorem sortedCheck_pairwise (t : List (LangId × Closure)) (h : sortedCheck t = true) :
    t.Pairwise fun a b => LangId.cmp a.1 b.1 = .lt := by
  induction t with
  | nil => exact .nil
  | cons a r ih =>
    cases r with
    | nil => simp
    | cons b r =>
      simp only [sortedCheck, Bool.and_eq_true, beq_iff_eq] at h
      have hp := ih h.2
      refine .cons ?_ hp
      intro c hc
      rcases List.mem_cons.1 hc with rfl | hc
      · exact h.1
      · exact LangId.cmp_lawful.trans _ _ _ h.1 ((List.pairwise_cons.1 hp).1 c hc)

theorem table_sorted (t : PluralRuleType) : (table t).Pairwise fun a b => LangId.cmp a.1 b.1 = .lt := by
  apply sortedCheck_pairwise
  cases t <;> decide +kernel

theorem create_cases (id : LangId) (t : PluralRuleType) :
    (∃ v, (id, v) ∈ table t ∧ create id t = .ok { locale := id, function := v }) ∨
    ((∀ e ∈ table t, e.1 ≠ id) ∧ create id t = .error c!"unknown locale") := by
  have := binarySearch_spec (table t) (table_sorted t) id
  unfold create
  cases h : binarySearchByKey (table t) id with
  | ok i =>
    rw [h] at this
    obtain ⟨v, hv⟩ := this
    refine .inl ⟨v, List.mem_of_getElem? hv, ?_⟩
    simp only [hv]
  | error i =>
    rw [h] at this
    exact .inr ⟨this, rfl⟩

/-! ## C03 -/

/-- C03: the listed locales are strictly increasing. -/
theorem C03_getLocales_sorted (t : PluralRuleType) : (getLocales t).Pairwise Before := by
  have := table_sorted t
  unfold getLocales
  rw [List.pairwise_map]
  exact this.imp fun h => (cmp_lt_iff _ _).1 h

/-- C03: `Before` is the strict part of a total order, so that the list has no duplicates. -/
theorem C03_before_order :
    (∀ a, ¬ Before a a) ∧ (∀ a b c, Before a b → Before b c → Before a c) ∧ (∀ a b, Before a b ∨ a = b ∨ Before b a) := by
  refine ⟨?_, ?_, ?_⟩
  · intro a h; rw [← cmp_lt_iff, LangId.cmp_lawful.refl] at h; simp at h
  · intro a b c; simp only [← cmp_lt_iff]; exact LangId.cmp_lawful.trans a b c
  · intro a b
    simp only [← cmp_lt_iff]
    cases h : LangId.cmp a b with
    | lt => exact .inl rfl
    | eq => exact .inr (.inl ((LangId.cmp_lawful.eq_iff _ _).1 h))
    | gt => exact .inr (.inr ((LangId.cmp_lawful.gt_iff _ _).1 h))

example : Before ⟨some c!"pt", none, none, none⟩ ptPT := .inr ⟨rfl, .inr ⟨rfl, .inl trivial⟩⟩

theorem C03_getLocales_nodup (t : PluralRuleType) : (getLocales t).Nodup :=
  (C03_getLocales_sorted t).imp fun {a b} h => by rintro rfl; exact C03_before_order.1 a h

/-- The tables are not empty. -/
example : (getLocales .CARDINAL).length = 212 ∧ (getLocales .ORDINAL).length = 97 := by decide +kernel

/-! ## C01 -/

/-- C01: `create` succeeds exactly for the listed locales, and all other identifiers give `unknown locale`. -/
theorem C01_create_iff_listed (id : LangId) (t : PluralRuleType) :
    ((∃ pr, create id t = .ok pr) ↔ id ∈ getLocales t) ∧
    (id ∉ getLocales t ↔ create id t = .error c!"unknown locale") := by
  rcases create_cases id t with ⟨v, hv, hc⟩ | ⟨hn, hc⟩
  · have hm : id ∈ getLocales t := List.mem_map.2 ⟨_, hv, rfl⟩
    simp [hc, hm]
  · have hm : id ∉ getLocales t := by
      intro h
      obtain ⟨e, he, rfl⟩ := List.mem_map.1 h
      exact hn e he rfl
    simp [hc, hm]

/-- Both sides of C01 occur. -/
example : ({ language := some c!"pl", script := none, region := none, variants := none } : LangId) ∈ getLocales .CARDINAL ∧
    ({ language := some c!"xx", script := none, region := none, variants := none } : LangId) ∉ getLocales .CARDINAL := by
  decide +kernel

/-! ## C02 -/

/-- C02: a rule set that `create` returns carries the identifier asked for and the function stored with it, and no other
function is stored with it. -/
theorem C02_create_own_rule (id : LangId) (t : PluralRuleType) (pr : PluralRules) :
    create id t = .ok pr ↔ getLocale pr = id ∧ (id, pr.function) ∈ table t := by
  have huniq : ∀ f g, (id, f) ∈ table t → (id, g) ∈ table t → f = g := by
    intro f g hf hg
    obtain ⟨i, hi, hf⟩ := List.getElem_of_mem hf
    obtain ⟨j, hj, hg⟩ := List.getElem_of_mem hg
    have hp := List.pairwise_iff_getElem.1 (table_sorted t)
    rcases Nat.lt_trichotomy i j with h | h | h
    · have := hp i j hi hj h; rw [hf, hg, LangId.cmp_lawful.refl] at this; simp at this
    · subst h; rw [hf] at hg; exact (Prod.mk.inj hg).2
    · have := hp j i hj hi h; rw [hf, hg, LangId.cmp_lawful.refl] at this; simp at this
  obtain ⟨loc, fn⟩ := pr
  rcases create_cases id t with ⟨v, hv, hc⟩ | ⟨hn, hc⟩
  · rw [hc]
    simp only [Except.ok.injEq, PluralRules.mk.injEq, getLocale]
    constructor
    · rintro ⟨rfl, rfl⟩; exact ⟨rfl, hv⟩
    · rintro ⟨rfl, h⟩; exact ⟨rfl, huniq _ _ hv h⟩
  · rw [hc]
    simp only [reduceCtorEq, getLocale, false_iff]
    rintro ⟨-, h⟩
    exact hn _ h rfl

/-- C02: what `select` answers is the answer of the function stored in the table next to the identifier. -/
theorem C02_select_own_rule (id : LangId) (t : PluralRuleType) (pr : PluralRules) (h : create id t = .ok pr) :
    getLocale pr = id ∧ ∃ f, (id, f) ∈ table t ∧
      ∀ (ops : PluralOperands) c, select (ε := OpsErr) pr (.ok ops) = some (.ok c) ↔ f.call ops = some c := by
  obtain ⟨h1, h2⟩ := (C02_create_own_rule id t pr).1 h
  refine ⟨h1, _, h2, ?_⟩
  intro ops c
  simp only [select]
  cases pr.function.call ops <;> simp

/-- C02 on Polish. -/
example : ∃ pr, create { language := some c!"pl", script := none, region := none, variants := none } .CARDINAL = .ok pr :=
  (C01_create_iff_listed _ _).1.2 (by decide +kernel)

/-! ## C04 -/

theorem table_shape : ∀ t : PluralRuleType, ∀ id ∈ getLocales t,
    id.language ≠ none ∧ id.script = none ∧ id.variants = none ∧
      (id.region = none ∨ (id = ptPT ∧ t = .CARDINAL)) := by
  intro t; cases t <;> decide +kernel

/-- C04: no fallback.  An identifier without language, with a script, with variants or with a region (but for pt-PT,
cardinal) is unknown. -/
theorem C04_no_fallback (id : LangId) (t : PluralRuleType)
    (h : id.language = none ∨ id.script ≠ none ∨ id.variants ≠ none ∨
      (id.region ≠ none ∧ ¬ (id = ptPT ∧ t = .CARDINAL))) :
    create id t = .error c!"unknown locale" := by
  rw [← (C01_create_iff_listed id t).2]
  intro hm
  obtain ⟨h0, h1, h2, h3⟩ := table_shape t id hm
  rcases h with h | h | h | ⟨h, h'⟩
  · exact h0 h
  · exact h h1
  · exact h h2
  · rcases h3 with h3 | h3
    · exact h h3
    · exact h' h3

example : create ⟨some c!"en", none, some c!"US", none⟩ .CARDINAL = .error c!"unknown locale" ∧
    create ⟨some c!"sr", some c!"Latn", none, none⟩ .ORDINAL = .error c!"unknown locale" :=
  ⟨C04_no_fallback _ _ (.inr (.inr (.inr ⟨by simp, by decide⟩))), C04_no_fallback _ _ (.inr (.inl (by simp)))⟩

/-- C04: in particular a region is not dropped: `en` is there and `en-US` (and every other region) is not. -/
theorem C04_region_not_dropped (l r : Str) (t : PluralRuleType) (h : ¬ (l = c!"pt" ∧ r = c!"PT" ∧ t = .CARDINAL)) :
    create { language := some l, script := none, region := some r, variants := none } t = .error c!"unknown locale" := by
  apply C04_no_fallback
  refine .inr (.inr (.inr ⟨by simp, ?_⟩))
  rintro ⟨h1, h2⟩
  simp only [ptPT, LangId.mk.injEq, Option.some.injEq, and_true, true_and] at h1
  exact h ⟨h1.1, h1.2, h2⟩

/-- The exception, and a language whose regions are not listed. -/
example : ptPT ∈ getLocales .CARDINAL ∧ ptPT ∉ getLocales .ORDINAL ∧
    ({ language := some c!"en", script := none, region := none, variants := none } : LangId) ∈ getLocales .ORDINAL := by
  decide +kernel

end Verif.Props
