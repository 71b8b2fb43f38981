import Verif.Equality
import Verif.Props.Panics
import Verif.Props.Rounding

/-!
# C86: equal operands
-/

namespace Verif.Props
open Verif Api Rust Uts35 Spec Sem PluralOperands Verif.Grammar Eval Strings

theorem peq_iff (a b : PluralOperands) : peq a b = true ↔
    Flt.eq a.n b.n = true ∧ a.i = b.i ∧ a.v = b.v ∧ a.w = b.w ∧ a.f = b.f ∧ a.t = b.t := by
  simp [peq, and_assoc]

theorem feq_iff (x y : Flt) : Flt.eq x y = true ↔ x ≠ .nan ∧ (x = y ∨ ∃ s t, x = .fin s 0 ∧ y = .fin t 0) := by
  cases x <;> cases y <;> simp [Flt.eq]
  constructor
  · rintro ⟨rfl, rfl | rfl⟩ <;> simp
  · rintro (⟨rfl, rfl⟩ | ⟨rfl, rfl⟩) <;> simp

/-- C86: the derived equality is symmetric and transitive. -/
theorem C86_symmetric_transitive : (∀ a b, peq a b = true → peq b a = true) ∧ ∀ a b c, peq a b = true → peq b c = true → peq a c = true := by
  have sym : ∀ x y, Flt.eq x y = true → Flt.eq y x = true := by
    intro x y h
    rw [feq_iff] at *
    obtain ⟨h1, rfl | ⟨s, t, rfl, rfl⟩⟩ := h
    · exact ⟨h1, .inl rfl⟩
    · exact ⟨by simp, .inr ⟨t, s, rfl, rfl⟩⟩
  have trans : ∀ x y z, Flt.eq x y = true → Flt.eq y z = true → Flt.eq x z = true := by
    intro x y z h h'
    rw [feq_iff] at *
    obtain ⟨h1, rfl | ⟨s, t, rfl, rfl⟩⟩ := h
    · exact h'
    · obtain ⟨h2, rfl | ⟨s', t', h3, rfl⟩⟩ := h'
      · exact ⟨by simp, .inr ⟨s, t, rfl, rfl⟩⟩
      · exact ⟨by simp, .inr ⟨s, t', rfl, rfl⟩⟩
  constructor
  · intro a b h
    rw [peq_iff] at *
    exact ⟨sym _ _ h.1, h.2.1.symm, h.2.2.1.symm, h.2.2.2.1.symm, h.2.2.2.2.1.symm, h.2.2.2.2.2.symm⟩
  · intro a b c h h'
    rw [peq_iff] at *
    exact ⟨trans _ _ _ h.1 h'.1, h.2.1.trans h'.2.1, h.2.2.1.trans h'.2.2.1, h.2.2.2.1.trans h'.2.2.2.1,
      h.2.2.2.2.1.trans h'.2.2.2.2.1, h.2.2.2.2.2.trans h'.2.2.2.2.2⟩

/-- Two operands that are equal for the derived equality, and are not the same: minus zero. -/
example : peq ⟨.fin true 0, 0, 0, 0, 0, 0⟩ ⟨.fin false 0, 0, 0, 0, 0, 0⟩ = true ∧ peq ⟨.fin false 0, 0, 0, 0, 0, 0⟩ ⟨.fin true 0, 0, 0, 0, 0, 0⟩ = true :=
  ⟨by decide, C86_symmetric_transitive.1 _ _ (by decide)⟩

/-- C86: the operands of a text are equal to themselves, unless the text is a NaN after at most two signs. -/
theorem C86_reflexive (s : Str) (po : PluralOperands) (h : tryFromStr s = .ok po) :
    peq po po = false ↔ ∃ signs body, signs ∈ [[], ['-'], ['+'], ['-', '+'], ['-', '-']] ∧ s = signs ++ body ∧ Spells body c!"nan" := by
  have hself : peq po po = false ↔ po.n = .nan := by
    rw [← Bool.not_eq_true, peq_iff, feq_iff]
    simp
  have hnotnan : ∀ {y n}, Ieee b64 y n → n ≠ .nan ∧ negated n ≠ .nan := by
    rintro y n (_ | _) <;> simp [negated]
  rw [hself]
  constructor
  · intro hn
    have body : ∀ b s, BodyOps b s po → Spells s c!"nan" := by
      intro b s hb
      cases hb with
      | point ip fp n _ _ _ _ hr => exact absurd hn (hnotnan hr).1
      | number neg ip x e n _ _ hr =>
        simp only at hn
        split at hn
        · exact absurd hn (hnotnan hr).2
        · exact absurd hn (hnotnan hr).1
      | infinity _ _ _ => simp at hn
      | nan _ _ hb => exact hb
    rcases (C78_operands s po).1 h with ⟨m, s, _, hm, hb⟩ | ⟨m, s, _, hm, hb⟩ | ⟨s, _, hb⟩
    · exact ⟨m, s, by rcases hm with rfl | rfl <;> simp, rfl, body _ _ hb⟩
    · exact ⟨m ++ ['+'], s, by rcases hm with rfl | rfl <;> simp, by simp, body _ _ hb⟩
    · exact ⟨['-', '-'], s, by simp, rfl, body _ _ hb⟩
  · rintro ⟨signs, body, hs, rfl, hb⟩
    have key : ∀ po', TextOps (signs ++ body) po' → po'.n = .nan → po.n = .nan := by
      intro po' h1 h2
      rw [(C78_operands _ _).2 h1] at h
      cases h
      exact h2
    simp only [List.mem_cons, List.not_mem_nil, or_false] at hs
    rcases hs with rfl | rfl | rfl | rfl | rfl
    · exact key _ (.plain [] body _ (.inl rfl) (.nan _ body hb)) rfl
    · exact key _ (.plain ['-'] body _ (.inr rfl) (.nan _ body hb)) rfl
    · exact key _ (.plus [] body _ (.inl rfl) (.nan _ body hb)) rfl
    · exact key _ (.plus ['-'] body _ (.inr rfl) (.nan _ body hb)) rfl
    · exact key _ (.minus body _ (.nan _ body hb)) rfl

example : ∃ po, tryFromStr c!"-+NaN" = .ok po ∧ peq po po = false :=
  ⟨_, rfl, (C86_reflexive c!"-+NaN" _ rfl).2 ⟨['-', '+'], c!"NaN", by simp, rfl, by repeat first | exact .nil | refine .cons (by decide) ?_⟩⟩

/-! ## Equal operands have the same category -/

/-- Values that no comparison tells apart. -/
def SameVal : Val → Val → Prop
  | .f64 x, .f64 y => Flt.eq x y = true
  | a, b => a = b

theorem cmp_same {x x' y y' : Flt} (op : CmpOp) (h : Flt.eq x x' = true ∨ x = x') (h' : Flt.eq y y' = true ∨ y = y') :
    cmpFlt op x y = cmpFlt op x' y' := by
  have key : ∀ {x x' : Flt}, (Flt.eq x x' = true ∨ x = x') → x = x' ∨ ∃ s t, x = .fin s 0 ∧ x' = .fin t 0 := by
    intro x x' h
    rw [feq_iff] at h
    rcases h with ⟨-, h | h⟩ | h
    · exact .inl h
    · exact .inr h
    · exact .inl h
  rcases key h with rfl | ⟨s, t, rfl, rfl⟩ <;> rcases key h' with rfl | ⟨s', t', rfl, rfl⟩
  · rfl
  · cases x with
    | nan => cases op <;> rfl
    | inf s => cases op <;> cases s <;> rfl
    | fin s m => cases op <;> cases s <;> cases s' <;> cases t' <;> simp [cmpFlt, Flt.eq, Flt.le, Flt.lt, Flt.signed]
  · cases y with
    | nan => cases op <;> rfl
    | inf s' => cases op <;> cases s' <;> rfl
    | fin s' m => cases op <;> cases s' <;> cases s <;> cases t <;> simp [cmpFlt, Flt.eq, Flt.le, Flt.lt, Flt.signed]
  · cases op <;> cases s <;> cases s' <;> cases t <;> cases t' <;> simp [cmpFlt, Flt.eq, Flt.le, Flt.lt, Flt.signed]

/-- The same result, or floats that are equal. -/
def SameResult (a b : Option Val) : Prop := a = b ∨ ∃ x y, a = some (.f64 x) ∧ b = some (.f64 y) ∧ Flt.eq x y = true

theorem eval_same {po po' : PluralOperands} (h : peq po po' = true) (e : RExpr) : SameResult (e.eval po) (e.eval po') := by
  obtain ⟨hn, hi, hv, hw, hf, ht⟩ := (peq_iff _ _).1 h
  induction e with
  | int k => exact .inl rfl
  | flt k => exact .inl rfl
  | field x =>
    cases x
    case N => exact .inr ⟨_, _, rfl, rfl, hn⟩
    all_goals left; simp only [RExpr.eval, readField, hi, hv, hw, hf, ht]
  | rem a b iha ihb =>
    left
    simp only [RExpr.eval]
    rcases iha with ha | ⟨x, y, ha, ha', -⟩
    · rw [ha]
      rcases ihb with hb | ⟨x, y, hb, hb', -⟩
      · rw [hb]
      · rw [hb, hb']; split <;> simp_all
    · rw [ha, ha']
  | cmp op a b iha ihb =>
    left
    simp only [RExpr.eval]
    rcases iha with ha | ⟨x, y, ha, ha', hxy⟩
    · rw [ha]
      rcases ihb with hb | ⟨x, y, hb, hb', hxy⟩
      · rw [hb]
      · rw [hb, hb']
        cases a.eval po' with
        | none => rfl
        | some v =>
          cases v with
          | bool _ => rfl
          | int _ => rfl
          | f64 z => simp only [cmp_same op (.inr rfl) (.inl hxy)]
    · rw [ha, ha']
      rcases ihb with hb | ⟨x', y', hb, hb', hxy'⟩
      · rw [hb]
        cases b.eval po' with
        | none => rfl
        | some v =>
          cases v with
          | bool _ => rfl
          | int _ => rfl
          | f64 z => simp only [cmp_same op (.inl hxy) (.inr rfl)]
      · rw [hb, hb']; simp only [cmp_same op (.inl hxy) (.inl hxy')]
  | not a iha =>
    left
    simp only [RExpr.eval]
    rcases iha with ha | ⟨x, y, ha, ha', -⟩
    · rw [ha]
    · rw [ha, ha']
  | and a b iha ihb =>
    left
    simp only [RExpr.eval]
    rcases iha with ha | ⟨x, y, ha, ha', -⟩
    · rcases ihb with hb | ⟨x, y, hb, hb', -⟩
      · rw [ha, hb]
      · rw [ha, hb, hb']
    · rw [ha, ha']
  | or a b iha ihb =>
    left
    simp only [RExpr.eval]
    rcases iha with ha | ⟨x, y, ha, ha', -⟩
    · rcases ihb with hb | ⟨x, y, hb, hb', -⟩
      · rw [ha, hb]
      · rw [ha, hb, hb']
    · rw [ha, ha']
  | contains lo hi a iha =>
    left
    simp only [RExpr.eval]
    rcases iha with ha | ⟨x, y, ha, ha', -⟩
    · rw [ha]
    · rw [ha, ha']

/-- C86: equal operands get the same answer from every function of generated code (or both panic). -/
theorem C86_call (f : Closure) (po po' : PluralOperands) (h : peq po po' = true) : f.call po = f.call po' := by
  obtain ⟨arms, last⟩ := f
  simp only [Closure.call]
  induction arms with
  | nil => rfl
  | cons a arms ih =>
    obtain ⟨e, c⟩ := a
    simp only [evalArms]
    rcases eval_same h e with he | ⟨x, y, he, he', -⟩
    · rw [he, ih]
    · rw [he, he']

example (f : Closure) : f.call ⟨.fin true 0, 0, 0, 0, 0, 0⟩ = f.call ⟨.fin false 0, 0, 0, 0, 0, 0⟩ := C86_call f _ _ (by decide)

/-- C86: so they get the same category from `select`, in every locale. -/
theorem C86_select (pr : PluralRules) (po po' : PluralOperands) (h : peq po po' = true) :
    select (ε := OpsErr) pr (.ok po) = select (ε := OpsErr) pr (.ok po') := by
  simp only [select, C86_call _ po po' h]

example (pr : PluralRules) : select (ε := OpsErr) pr (.ok ⟨.fin true 0, 0, 0, 0, 0, 0⟩) = select (ε := OpsErr) pr (.ok ⟨.fin false 0, 0, 0, 0, 0, 0⟩) :=
  C86_select pr _ _ (by decide)

theorem digits_eq : ∀ (a b : List (Fin 10)), a.length = b.length → digitsNum a = digitsNum b → a = b
  | [], [], _, _ => rfl
  | d :: a, d' :: b, hl, h => by
    have hl' : a.length = b.length := by simpa using hl
    simp only [digitsNum, hl'] at h
    have h1 := digitsNum_lt a
    have h2 := digitsNum_lt b
    rw [hl'] at h1
    have h3 : d.val = d'.val := by
      rcases Nat.lt_trichotomy d.val d'.val with hlt | heq | hlt
      · have := Nat.mul_le_mul_right (10 ^ b.length) (Nat.succ_le_of_lt hlt)
        rw [Nat.succ_mul] at this
        omega
      · exact heq
      · have := Nat.mul_le_mul_right (10 ^ b.length) (Nat.succ_le_of_lt hlt)
        rw [Nat.succ_mul] at this
        omega
    rw [h3] at h
    rw [Fin.ext h3, digits_eq a b hl' (by omega)]

/-- C86: the operands of two numbers are equal exactly if these are the same number with the same fraction digits, trailing zeros
included. -/
theorem C86_numbers (po po' : PluralOperands) (d d' : Dec) (h : OperandsOf po d) (h' : OperandsOf po' d') :
    peq po po' = true ↔ d = d' := by
  constructor
  · intro he
    obtain ⟨-, hi, hv, -, hf, -⟩ := (peq_iff _ _).1 he
    rw [h.i, h'.i] at hi
    rw [h.v, h'.v] at hv
    rw [h.f, h'.f] at hf
    obtain ⟨a, b⟩ := d
    obtain ⟨a', b'⟩ := d'
    have := digits_eq b b' hv hf
    simp only [Dec.i] at hi
    rw [hi, this]
  · rintro rfl
    have hn := C77_unique b64 (by decide) d.value _ _ h.n h'.n
    rw [peq_iff, feq_iff, hn]
    refine ⟨⟨?_, .inl rfl⟩, by rw [h.i, h'.i], by rw [h.v, h'.v], by rw [h.w, h'.w], by rw [h.f, h'.f], by rw [h.t, h'.t]⟩
    have := h'.n
    intro hnan
    rw [hnan] at this
    cases this

/-- "1.50" and "01.50" are equal, "1.5" is another; "--0" and "0" are equal though the signs of `n` differ; NaN is not equal to itself. -/
example :
    let equal (s s' : Str) := (tryFromStr s).toOption.bind fun a => (tryFromStr s').toOption.map fun b => peq a b
    equal c!"1.50" c!"-01.50" = some true ∧ equal c!"1.50" c!"1.5" = some false ∧ equal c!"--0" c!"0" = some true ∧
    equal c!"NaN" c!"NaN" = some false ∧ equal c!"inf" c!"inf" = some true ∧ equal c!"--inf" c!"inf" = some false := by decide +kernel
example : (tryFromStr c!"--0").toOption ≠ (tryFromStr c!"0").toOption := by decide +kernel

end Verif.Props
