import Verif.Props.AllNumbers

/-!
# C83: the categories of what is no number: NaN, infinity, two minus signs
-/

namespace Verif.Props
open Verif Api Rust Uts35 Spec Sem PluralOperands Verif.Grammar Strings

attribute [local irreducible] Flt.ofRat Flt.roundMag

/-- The locales in which NaN is not OTHER. -/
def nanCategories : PluralRuleType → List (Str × PluralCategory)
  | .CARDINAL => [(c!"ak", .ONE), (c!"am", .ONE), (c!"as", .ONE), (c!"be", .MANY), (c!"bho", .ONE), (c!"bn", .ONE), (c!"br", .MANY),
      (c!"ceb", .ONE), (c!"fa", .ONE), (c!"ff", .ONE), (c!"fil", .ONE), (c!"fr", .ONE), (c!"gu", .ONE), (c!"guw", .ONE), (c!"gv", .FEW),
      (c!"hi", .ONE), (c!"hy", .ONE), (c!"kab", .ONE), (c!"kn", .ONE), (c!"lag", .ONE), (c!"ln", .ONE), (c!"lv", .ZERO), (c!"mg", .ONE),
      (c!"nso", .ONE), (c!"pa", .ONE), (c!"pcm", .ONE), (c!"pl", .MANY), (c!"prg", .ZERO), (c!"pt", .ONE), (c!"ru", .MANY), (c!"shi", .ONE),
      (c!"ti", .ONE), (c!"tl", .ONE), (c!"tzm", .ONE), (c!"uk", .MANY), (c!"wa", .ONE), (c!"zu", .ONE)]
  | .ORDINAL => [(c!"az", .MANY), (c!"ka", .MANY), (c!"kk", .MANY)]

/-- The category of NaN in the locale. -/
def NanCategory (t : PluralRuleType) (id : LangId) (c : PluralCategory) : Prop :=
  (∃ key, (key, c) ∈ nanCategories t ∧ LangId.parse key = some id) ∨
    c = .OTHER ∧ ∀ x ∈ nanCategories t, LangId.parse x.1 ≠ some id

/-- The same, as a function. -/
def nanCategory (t : PluralRuleType) (id : LangId) : PluralCategory :=
  match (nanCategories t).find? fun x => LangId.parse x.1 == some id with
  | some x => x.2
  | none => .OTHER

theorem nanCategory_iff (t : PluralRuleType) (id : LangId) (c : PluralCategory) : nanCategory t id = c ↔ NanCategory t id c := by
  have huniq : ∀ x ∈ nanCategories t, ∀ y ∈ nanCategories t, LangId.parse x.1 = LangId.parse y.1 → x = y := by
    cases t <;> decide +kernel
  unfold nanCategory NanCategory
  cases h : (nanCategories t).find? fun x => LangId.parse x.1 == some id with
  | none =>
    simp only [List.find?_eq_none, beq_iff_eq] at h
    constructor
    · rintro rfl; exact .inr ⟨rfl, h⟩
    · rintro (⟨key, h1, h2⟩ | ⟨rfl, -⟩)
      · exact absurd h2 (h _ h1)
      · rfl
  | some x =>
    have h1 := List.mem_of_find?_eq_some h
    have h2 : LangId.parse x.1 = some id := by simpa using List.find?_some h
    constructor
    · rintro rfl; exact .inl ⟨x.1, h1, h2⟩
    · rintro (⟨key, h3, h4⟩ | ⟨-, h3⟩)
      · rw [huniq x h1 _ h3 (h2.trans h4.symm)]
      · exact absurd h2 (h3 x h1)

theorem nan_table (t : PluralRuleType) : ∀ e ∈ table t, e.2.call ⟨.nan, 0, 0, 0, 0, 0⟩ = some (nanCategory t e.1) := by
  cases t <;> decide +kernel

/-- Operands of which `n` is no integer up to 800 and the others are zero. -/
theorem select_unequal (t : PluralRuleType) (id : LangId) (pr : PluralRules) (h : create id t = .ok pr) (x : Flt)
    (hx : ∀ k ≤ 800, Flt.eq x (Flt.ofNat b64 k) = false) (c : PluralCategory) :
    select (ε := OpsErr) pr (.ok ⟨x, 0, 0, 0, 0, 0⟩) = some (.ok c) ↔ NanCategory t id c := by
  have e := select_alike t id pr h (po := ⟨x, 0, 0, 0, 0, 0⟩) (po' := ⟨.nan, 0, 0, 0, 0, 0⟩)
    ⟨rfl, rfl, rfl, rfl, rfl, fun k hk => by rw [hx k hk]; cases Flt.ofNat b64 k <;> rfl⟩
  obtain ⟨h1, h2⟩ := (C02_create_own_rule id t pr).1 h
  rw [e, ← nanCategory_iff]
  simp only [select, nan_table t _ h2, Option.some.injEq, Except.ok.injEq]

/-- C83: NaN, as `f64` or `f32`. -/
theorem C83_nan (t : PluralRuleType) (id : LangId) (pr : PluralRules) (h : create id t = .ok pr) (F : Fmt) (c : PluralCategory) :
    select pr (tryFromFloat F .nan) = some (.ok c) ↔ NanCategory t id c := by
  have e : tryFromFloat F .nan = tryFromFloat b64 .nan := rfl
  rw [e, (C20_special false).2]
  exact select_unequal t id pr h _ (fun k _ => by cases Flt.ofNat b64 k <;> rfl) c

/-- C83: the text `NaN`, in any case, with or without a minus sign. -/
theorem C83_nan_text (t : PluralRuleType) (id : LangId) (pr : PluralRules) (h : create id t = .ok pr) (sign s : Str)
    (hs : sign = [] ∨ sign = ['-']) (hn : Spells s c!"nan") (c : PluralCategory) :
    select pr (tryFromStr (sign ++ s)) = some (.ok c) ↔ NanCategory t id c := by
  have e : tryFromStr (sign ++ s) = tryFromStr s := by
    rcases hs with rfl | rfl
    · rfl
    · exact C13_minus s (fun r => by rintro rfl; cases hn with | cons h _ => revert h; decide)
  rw [e, C18_nan s hn]
  exact select_unequal t id pr h _ (fun k _ => by cases Flt.ofNat b64 k <;> rfl) c

example : ∃ pr, create ⟨some c!"fr", none, none, none⟩ .CARDINAL = .ok pr ∧ select pr (tryFromStr c!"-nAn") = some (.ok .ONE) ∧
    select pr (tryFromFloat b32 .nan) = some (.ok .ONE) := by
  obtain ⟨pr, h⟩ := (C01_create_iff_listed ⟨some c!"fr", none, none, none⟩ .CARDINAL).1.2 (by decide +kernel)
  have hc : NanCategory .CARDINAL ⟨some c!"fr", none, none, none⟩ .ONE := .inl ⟨c!"fr", by decide, rfl⟩
  exact ⟨pr, h, (C83_nan_text _ _ pr h ['-'] c!"nAn" (.inr rfl) (by repeat first | exact .nil | refine .cons (by decide) ?_) .ONE).2 hc,
    (C83_nan _ _ pr h b32 .ONE).2 hc⟩

/-- C83: infinity, as `f64` or `f32`. -/
theorem C83_infinite (t : PluralRuleType) (id : LangId) (pr : PluralRules) (h : create id t = .ok pr) (F : Fmt) (neg : Bool) :
    select pr (tryFromFloat F (.inf neg)) = select (ε := OpsErr) pr (.ok (fromUnsigned (2 ^ 64 - 1))) :=
  C75_infinite t id pr h neg

/-- C83: the texts of infinity. -/
theorem C83_infinite_text (t : PluralRuleType) (id : LangId) (pr : PluralRules) (h : create id t = .ok pr) (sign s : Str)
    (hs : sign = [] ∨ sign = ['-']) (hn : Spells s c!"inf" ∨ Spells s c!"infinity") :
    select pr (tryFromStr (sign ++ s)) = select (ε := OpsErr) pr (.ok (fromUnsigned (2 ^ 64 - 1))) := by
  have e : tryFromStr (sign ++ s) = tryFromStr s := by
    rcases hs with rfl | rfl
    · rfl
    · exact C13_minus s (fun r => by rintro rfl; rcases hn with hn | hn <;> (cases hn with | cons h _ => revert h; decide))
  rw [e, C18_infinity s hn, ← (C20_special false).1]
  exact C75_infinite t id pr h false

example : ∃ pr, create ⟨some c!"fr", none, none, none⟩ .CARDINAL = .ok pr ∧
    select pr (tryFromStr c!"-INF") = select (ε := OpsErr) pr (.ok (fromUnsigned (2 ^ 64 - 1))) := by
  obtain ⟨pr, h⟩ := (C01_create_iff_listed ⟨some c!"fr", none, none, none⟩ .CARDINAL).1.2 (by decide +kernel)
  exact ⟨pr, h, C83_infinite_text _ _ pr h ['-'] c!"INF" (.inr rfl) (.inl (by repeat first | exact .nil | refine .cons (by decide) ?_))⟩

theorem parse_nonneg (s : Str) (x : Flt) (h : Flt.parseUnsignedFloat b64 false s = some x) : ∀ m, x ≠ .fin true m := by
  have hr : ∀ p q m, Flt.ofRat b64 false p q ≠ .fin true m := by
    intro p q m
    unfold Flt.ofRat
    simp only
    split_ifs <;> simp
  unfold Flt.parseUnsignedFloat at h
  cases hn : Flt.parseNumber s with
  | some p =>
    obtain ⟨m, e⟩ := p
    rw [hn] at h
    simp only [Option.some.injEq] at h
    subst h
    unfold Flt.ofDec
    split_ifs <;> exact hr _ _
  | none =>
    rw [hn] at h
    simp only at h
    split_ifs at h <;> cases h <;> simp

/-- C83: with a second minus sign before a literal without point, zero stays zero, and everything else is NaN. -/
theorem C83_two_minus (t : PluralRuleType) (id : LangId) (pr : PluralRules) (h : create id t = .ok pr) (s : Str)
    (hu : UnsignedPointFree s) : ∃ po, tryFromStr s = .ok po ∧
      (po.n = .fin false 0 → select pr (tryFromStr ('-' :: '-' :: s)) = select (ε := OpsErr) pr (.ok (fromUnsigned 0))) ∧
      (po.n ≠ .fin false 0 → ∀ c, select pr (tryFromStr ('-' :: '-' :: s)) = some (.ok c) ↔ NanCategory t id c) := by
  obtain ⟨x, hx⟩ := (parseFloat_pointFree false s (pointFree_nopoint s hu)).2 hu
  have e := tryFromStr_unsigned s hu x hx
  obtain ⟨po, h1, h2⟩ := C18_two_minus s hu
  rw [e, Except.ok.injEq] at h1
  subst h1
  have hnn := parse_nonneg s x hx
  refine ⟨_, e, fun hz => ?_, fun hz c => ?_⟩
  · simp only at hz
    subst hz
    rw [h2]
    refine select_alike t id pr h ⟨rfl, rfl, rfl, rfl, rfl, fun k hk => ?_⟩
    simp only [fromUnsigned]
    rw [eq_small _ k hk, ofNat_exact k (by omega)]
    rcases Nat.eq_zero_or_pos k with rfl | hp
    · simp [negated, Flt.eq]
    · have : (0 : Nat) ≠ k * 2 ^ 1074 := (Nat.mul_pos hp (Nat.two_pow_pos _)).ne
      simp only [negated, Flt.eq, decide_eq_false hp.ne]
      rw [beq_false_of_ne this]; rfl
  · simp only at hz
    rw [h2]
    refine select_unequal t id pr h _ (fun k hk => ?_) c
    rw [ofNat_exact k (by omega)]
    cases x with
    | nan => rfl
    | inf _ => rfl
    | fin neg m =>
      cases neg with
      | true => exact absurd rfl (hnn m)
      | false =>
        have : m ≠ 0 := by rintro rfl; exact hz rfl
        simp only [negated, Flt.eq]
        rw [beq_false_of_ne this]; simp

/-- In French NaN and --5 are ONE, since the rule of ONE is `i = 0,1`; in Russian they are MANY; --0 is ONE in French as 0 is, and
infinity is OTHER. -/
example :
    let chosen (key text : Str) := ((LangId.parse key).bind fun id => (create id .CARDINAL).toOption).bind fun pr =>
      (select pr (tryFromStr text)).bind Except.toOption
    chosen c!"fr" c!"--5" = some .ONE ∧ chosen c!"fr" c!"-nAn" = some .ONE ∧ chosen c!"fr" c!"--0" = some .ONE ∧
    chosen c!"fr" c!"Infinity" = some .OTHER ∧ chosen c!"ru" c!"NaN" = some .MANY ∧ chosen c!"en" c!"NaN" = some .OTHER := by decide +kernel
example : UnsignedPointFree c!"5" ∧ (∃ id, LangId.parse c!"fr" = some id ∧ NanCategory .CARDINAL id .ONE) ∧
    ∃ id, LangId.parse c!"en" = some id ∧ NanCategory .CARDINAL id .OTHER :=
  ⟨.inl ⟨[5], [], by simp, .inl rfl, rfl⟩, ⟨_, rfl, .inl ⟨c!"fr", by decide, rfl⟩⟩, ⟨_, rfl, .inr ⟨rfl, by decide +kernel⟩⟩⟩

end Verif.Props
