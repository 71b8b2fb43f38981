import Verif.Lemmas.Ieee
import Verif.Props.Errors

/-!
# C77–C78: `n` is rounded as IEEE 754 says, and the operands of every text
-/

namespace Verif.Props
open Verif Uts35 Spec PluralOperands Sem

attribute [local irreducible] Flt.ofRat Flt.roundMag Flt.ofDec

/-! ## C77 -/

/-- C77: the rounding that IEEE 754 describes is unique. -/
theorem C77_unique (F : Fmt) (hP : 0 < F.prec) (y : ℚ) (x x' : Flt) (h : Ieee F y x) (h' : Ieee F y x') : x = x' :=
  ieee_unique F hP y x x' h h'

theorem ieee_dec (ip fp : List (Fin 10)) : Ieee b64 (decOf ip fp).value (Strings.decOperands ip fp).n := ieee_value (decOf ip fp)

/-- C77: `n` of an unsigned integer. -/
theorem C77_unsigned (k : Nat) : Ieee b64 k (fromUnsigned k).n := ieee_ofNat k

/-- C77: `n` of a signed integer, which is the rounded absolute value. -/
theorem C77_signed (x : Int) (h1 : -(2 : Int) ^ 63 < x) (h2 : x < (2 : Int) ^ 63) :
    ∃ po, tryFromSigned 64 x = .ok po ∧ Ieee b64 ((|x| : Int) : ℚ) po.n := by
  refine ⟨_, (C09_signed x h1.le h2).1 (ne_of_gt h1), ?_⟩
  have : ((|x| : Int) : ℚ) = ((x.natAbs : Nat) : ℚ) := by rw [Int.abs_eq_natAbs, Int.cast_natCast]
  rw [this]
  exact C77_unsigned x.natAbs

example : ∃ po, tryFromSigned 64 (-9007199254740993) = .ok po ∧ Ieee b64 ((|(-9007199254740993)| : Int) : ℚ) po.n :=
  C77_signed _ (by decide) (by decide)

/-- C77: `n` of a text with a point. -/
theorem C77_decimal (sign : Str) (hs : sign = [] ∨ sign = ['-']) (ip fp : List (Fin 10)) (hi : ip ≠ []) (hf : fp ≠ [])
    (h1 : digitsNum ip < 2 ^ 64) (h2 : digitsNum fp < 2 ^ 64) :
    ∃ po, tryFromStr (sign ++ decText ip fp) = .ok po ∧ Ieee b64 (decOf ip fp).value po.n :=
  ⟨_, by rw [decText, sign_cases sign hs ip hi, ← decText, Strings.tryFromStr_dec ip fp hi, if_pos ⟨h1, hf, h2⟩], ieee_dec ip fp⟩

example : ∃ po, tryFromStr c!"-0.10" = .ok po ∧ Ieee b64 (decOf [0] [1, 0]).value po.n :=
  C77_decimal ['-'] (.inr rfl) [0] [1, 0] (by simp) (by simp) (by decide) (by decide)

/-- C77: `n` of digits with or without an exponent. -/
theorem C77_exponent (sign : Str) (hs : sign = [] ∨ sign = ['-']) (ip : List (Fin 10)) (hi : ip ≠ []) (x : Str) (e : Int)
    (hx : ExponentOf x e) : ∃ po, tryFromStr (sign ++ digitText ip ++ x) = .ok po ∧ Ieee b64 (digitsNum ip * 10 ^ e) po.n :=
  ⟨_, tryFromStr_exponent sign hs ip hi x e hx, ieee_ofDec b64 (.inl rfl) _ _⟩

/-- 2^53 + 1 is halfway between two floats, and gets the even one; so do 2^53 + 3 and the text of the halfway point above 1. -/
example : (fromUnsigned (2 ^ 53 + 1)).n = .fin false (2 ^ 53 * 2 ^ 1074) ∧ (fromUnsigned (2 ^ 53 + 3)).n = .fin false ((2 ^ 53 + 4) * 2 ^ 1074) ∧
    (tryFromStr c!"1.00000000000000011102230246251565404236316680908203125").toOption.map (·.n) = none ∧
    (tryFromStr c!"100000000000000011102230246251565404236316680908203125e-53").toOption.map (·.n) = some (.fin false (2 ^ 1074)) ∧
    (tryFromStr c!"100000000000000011102230246251565404236316680908203126e-53").toOption.map (·.n) = some (.fin false (2 ^ 1074 + 2 ^ 1022)) := by
  decide +kernel
/-- 1.7976931348623159e308 is too large. -/
example : (tryFromStr c!"17976931348623158e292").toOption.map (·.n) = some (.fin false ((2 ^ 53 - 1) * 2 ^ 2045)) ∧
    (tryFromStr c!"17976931348623159e292").toOption.map (·.n) = some (.inf false) := by decide +kernel

/-! ## C78 -/

/-- Truncated to a `u64`. -/
def truncated : Flt → Nat
  | .nan => 0
  | .inf _ => 2 ^ 64 - 1
  | .fin _ m => min (m / 2 ^ 1074) (2 ^ 64 - 1)

/-- The operands of a text without signs; `neg`: after a minus sign that belongs to the number. -/
inductive BodyOps : Bool → Str → PluralOperands → Prop
  | point (ip fp : List (Fin 10)) (n : Flt) : ip ≠ [] → fp ≠ [] → digitsNum ip < 2 ^ 64 → digitsNum fp < 2 ^ 64 →
      Ieee b64 (decOf ip fp).value n →
      BodyOps false (decText ip fp) ⟨n, (decOf ip fp).i, (decOf ip fp).v, (decOf ip fp).w, (decOf ip fp).f, (decOf ip fp).t⟩
  | number (neg : Bool) (ip : List (Fin 10)) (x : Str) (e : Int) (n : Flt) : ip ≠ [] → ExponentOf x e → Ieee b64 (digitsNum ip * 10 ^ e) n →
      BodyOps neg (digitText ip ++ x) ⟨if neg then negated n else n, if neg then 0 else truncated n, 0, 0, 0, 0⟩
  | infinity (neg : Bool) (s : Str) : Spells s c!"inf" ∨ Spells s c!"infinity" →
      BodyOps neg s ⟨.inf neg, if neg then 0 else 2 ^ 64 - 1, 0, 0, 0, 0⟩
  | nan (neg : Bool) (s : Str) : Spells s c!"nan" → BodyOps neg s ⟨.nan, 0, 0, 0, 0, 0⟩

/-- The operands of a text: after one minus sign that is ignored, a sign may follow. -/
inductive TextOps : Str → PluralOperands → Prop
  | plain (minus : Str) (s : Str) (po : PluralOperands) : minus = [] ∨ minus = ['-'] → BodyOps false s po → TextOps (minus ++ s) po
  | plus (minus : Str) (s : Str) (po : PluralOperands) : minus = [] ∨ minus = ['-'] → BodyOps false s po → TextOps (minus ++ '+' :: s) po
  | minus (s : Str) (po : PluralOperands) : BodyOps true s po → TextOps ('-' :: '-' :: s) po

theorem exponent_exponentOf {x : Str} {e : Int} (h : Strings.Exponent x e) : ExponentOf x e := by
  cases h with
  | none => exact .none
  | plain c l h1 h2 => exact .plus c [] l h1 (.inl rfl) h2
  | plus c l h1 h2 => exact .plus c ['+'] l h1 (.inr rfl) h2
  | minus c l h1 h2 => exact .minus c l h1 h2

theorem truncated_toU64 (x : Flt) (h : ∀ m, x ≠ .fin true m) (h' : x ≠ .inf true) : x.toU64 b64 = truncated x := by
  cases x with
  | nan => rfl
  | inf s => cases s with
    | false => rfl
    | true => exact absurd rfl h'
  | fin s m => cases s with
    | false => rfl
    | true => exact absurd rfl (h m)

theorem ieee_positive {F : Fmt} {y : ℚ} {x : Flt} (h : Ieee F y x) : (∀ m, x ≠ .fin true m) ∧ x ≠ .inf true := by
  cases h <;> simp

theorem parse_exponent (neg : Bool) (ip : List (Fin 10)) (x : Str) (e : Int) (hi : ip ≠ []) (hx : ExponentOf x e) (n : Flt)
    (hn : Ieee b64 (digitsNum ip * 10 ^ e) n) :
    Flt.parseUnsignedFloat b64 neg (digitText ip ++ x) = some (if neg then negated n else n) ∧
    (if neg then negated n else n).toU64 b64 = if neg then 0 else truncated n := by
  have hf : Flt.parseUnsignedFloat b64 false (digitText ip ++ x) = some (Flt.ofDec b64 false (digitsNum ip) e) := by
    unfold Flt.parseUnsignedFloat
    rw [(Strings.parseNumber_some _ _ _).2 (.inl ⟨ip, x, e, hi, exponentOf_exponent hx, rfl, rfl, rfl⟩)]
  have e1 := C77_unique b64 (by decide) _ _ _ hn (ieee_ofDec b64 (.inl rfl) (digitsNum ip) e)
  rw [← e1] at hf
  cases neg with
  | false =>
    simp only [Bool.false_eq_true, if_false]
    exact ⟨hf, truncated_toU64 _ (ieee_positive hn).1 (ieee_positive hn).2⟩
  | true =>
    simp only [if_true]
    exact parseFloat_neg _ _ hf

theorem parse_infinity (neg : Bool) (s : Str) (hw : Spells s c!"inf" ∨ Spells s c!"infinity") :
    Flt.parseUnsignedFloat b64 neg s = some (.inf neg) := by
  have hn : Flt.lower s ≠ c!"nan" := by
    rcases hw with h | h
    · rw [(Strings.lower_iff s _ (by decide)).2 h]; decide
    · rw [(Strings.lower_iff s _ (by decide)).2 h]; decide
  have h := fromStr_word s neg (by tauto)
  rw [if_neg hn] at h
  exact h

theorem parse_nan (neg : Bool) (s : Str) (hw : Spells s c!"nan") : Flt.parseUnsignedFloat b64 neg s = some .nan := by
  have h := fromStr_word s neg (.inr (.inr hw))
  rw [if_pos ((Strings.lower_iff s _ (by decide)).2 hw)] at h
  exact h

theorem inf_toU64 (neg : Bool) : (Flt.inf neg).toU64 b64 = if neg then 0 else 2 ^ 64 - 1 := rfl

/-- Literals without sign and point. -/
theorem parse_body (neg : Bool) (s : Str) (hp : '.' ∉ s) (po : PluralOperands) :
    (∃ x, Flt.parseUnsignedFloat b64 neg s = some x ∧ po = ⟨x, x.toU64 b64, 0, 0, 0, 0⟩) ↔ BodyOps neg s po := by
  constructor
  · rintro ⟨x, hx, rfl⟩
    rcases (Strings.parseFloat_pointFree neg s hp).1 ⟨x, hx⟩ with ⟨ip, x', hi, hx', rfl⟩ | hw | hw | hw
    · obtain ⟨e, he⟩ := (Strings.exponent_iff _).2 hx'
      have he := exponent_exponentOf he
      obtain ⟨h1, h2⟩ := parse_exponent neg ip x' e hi he _ (ieee_ofDec b64 (.inl rfl) (digitsNum ip) e)
      rw [h1, Option.some.injEq] at hx
      rw [← hx, h2]
      exact .number neg ip x' e _ hi he (ieee_ofDec b64 (.inl rfl) (digitsNum ip) e)
    · rw [parse_infinity neg s (.inl hw), Option.some.injEq] at hx
      rw [← hx, inf_toU64]
      exact .infinity neg s (.inl hw)
    · rw [parse_infinity neg s (.inr hw), Option.some.injEq] at hx
      rw [← hx, inf_toU64]
      exact .infinity neg s (.inr hw)
    · rw [parse_nan neg s hw, Option.some.injEq] at hx
      rw [← hx]
      exact .nan neg s hw
  · intro h
    cases h with
    | point ip fp n => exact absurd (by simp [decText]) hp
    | number _ ip x e n hi hx hn =>
      obtain ⟨h1, h2⟩ := parse_exponent neg ip x e hi hx n hn
      exact ⟨_, h1, by rw [h2]⟩
    | infinity _ _ hw => exact ⟨_, parse_infinity neg s hw, by rw [inf_toU64]⟩
    | nan _ _ hw => exact ⟨_, parse_nan neg s hw, rfl⟩

theorem body_cases (neg : Bool) (s : Str) (po : PluralOperands) (h : BodyOps neg s po) :
    (neg = false ∧ ∃ ip fp, ip ≠ [] ∧ fp ≠ [] ∧ digitsNum ip < 2 ^ 64 ∧ digitsNum fp < 2 ^ 64 ∧ s = decText ip fp ∧
      po = Strings.decOperands ip fp) ∨
    (UnsignedPointFree s ∧ ∃ x, Flt.parseUnsignedFloat b64 neg s = some x ∧ po = ⟨x, x.toU64 b64, 0, 0, 0, 0⟩) := by
  by_cases hp : '.' ∈ s
  · left
    cases h with
    | point ip fp n h1 h2 h3 h4 hn =>
      refine ⟨rfl, ip, fp, h1, h2, h3, h4, rfl, ?_⟩
      rw [C77_unique b64 (by decide) _ _ _ hn (ieee_dec ip fp)]
      rfl
    | number _ ip x e n hi hx hn =>
      exact absurd hp (Strings.pointFree_nopoint _ (.inl ⟨ip, x, hi, (Strings.exponent_iff _).1 ⟨e, exponentOf_exponent hx⟩, rfl⟩))
    | infinity _ _ hw => exact absurd hp (Strings.words_notin s (by tauto) '.' (by decide))
    | nan _ _ hw => exact absurd hp (Strings.words_notin s (by tauto) '.' (by decide))
  · obtain ⟨x, hx, hpo⟩ := (parse_body neg s hp po).2 h
    exact .inr ⟨(Strings.parseFloat_pointFree neg s hp).1 ⟨x, hx⟩, x, hx, hpo⟩

/-- C78: the operands of every text, and which texts have some. -/
theorem C78_operands (s : Str) (po : PluralOperands) : tryFromStr s = .ok po ↔ TextOps s po := by
  constructor
  · intro h
    have ham := (afterMinus_iff s (absStr s)).2 rfl
    rcases Strings.tryFromStr_ok s po h with ⟨hp, x, hx, hpo⟩ | ⟨ip, fp, hi, hf, h1, h2, h3, rfl⟩
    · generalize absStr s = r at *
      cases r with
      | nil => simp [Flt.fromStr] at hx
      | cons c t =>
        simp only [Flt.fromStr] at hx
        split_ifs at hx with hc1 hc2
        · subst hc1
          have hb := (parse_body true t (fun h => hp (by simp [h])) po).1 ⟨x, hx, hpo⟩
          rcases ham with rfl | ⟨rfl, hne⟩
          · exact .minus t po hb
          · exact absurd rfl (hne t)
        · subst hc2
          have hb := (parse_body false t (fun h => hp (by simp [h])) po).1 ⟨x, hx, hpo⟩
          rcases ham with rfl | ⟨rfl, -⟩
          · exact .plus ['-'] t po (.inr rfl) hb
          · exact .plus [] t po (.inl rfl) hb
        · have hb := (parse_body false (c :: t) hp po).1 ⟨x, hx, hpo⟩
          rcases ham with rfl | ⟨rfl, -⟩
          · exact .plain ['-'] _ po (.inr rfl) hb
          · exact .plain [] _ po (.inl rfl) hb
    · have hb : BodyOps false (decText ip fp) (Strings.decOperands ip fp) := .point ip fp _ hi hf h1 h2 (ieee_dec ip fp)
      generalize absStr s = r at *
      rcases h3 with rfl | rfl
      · rcases ham with rfl | ⟨rfl, -⟩
        · exact .plain ['-'] _ _ (.inr rfl) hb
        · exact .plain [] _ _ (.inl rfl) hb
      · rcases ham with rfl | ⟨rfl, -⟩
        · exact .plus ['-'] _ _ (.inr rfl) hb
        · exact .plus [] _ _ (.inl rfl) hb
  · intro h
    cases h with
    | plain minus s _ hm hb =>
      rcases body_cases false s po hb with ⟨-, ip, fp, hi, hf, h1, h2, rfl, rfl⟩ | ⟨hu, x, hx, rfl⟩
      · rw [decText, sign_cases minus hm ip hi, ← decText, Strings.tryFromStr_dec ip fp hi, if_pos ⟨h1, hf, h2⟩]
      · have h0 := tryFromStr_unsigned s hu x hx
        rcases hm with rfl | rfl
        · exact h0
        · rw [← h0]
          exact Strings.tryFromStr_minus s fun t => Strings.pointFree_nosign s hu '-' (.inl rfl) t
    | plus minus s _ hm hb =>
      have h0 : tryFromStr ('+' :: s) = .ok po := by
        rcases body_cases false s po hb with ⟨-, ip, fp, hi, hf, h1, h2, rfl, rfl⟩ | ⟨hu, x, hx, rfl⟩
        · exact Strings.tryFromStr_plus_dec ip fp hi h1 hf h2
        · have e1 : absStr ('+' :: s) = '+' :: s := rfl
          have e2 : Flt.fromStr b64 ('+' :: s) = some x := hx
          have e3 : splitPoint ('+' :: s) = none := (Strings.splitPoint_none _).2 (by simp [Strings.pointFree_nopoint s hu])
          unfold tryFromStr
          simp only [e1, e2, e3]
      rcases hm with rfl | rfl
      · exact h0
      · rw [← h0]
        exact Strings.tryFromStr_minus _ (by simp)
    | minus s _ hb =>
      rcases body_cases true s po hb with ⟨h, -⟩ | ⟨hu, x, hx, rfl⟩
      · cases h
      · have e1 : absStr ('-' :: '-' :: s) = '-' :: s := rfl
        have e2 : Flt.fromStr b64 ('-' :: s) = some x := hx
        have e3 : splitPoint ('-' :: s) = none := (Strings.splitPoint_none _).2 (by simp [Strings.pointFree_nopoint s hu])
        unfold tryFromStr
        simp only [e1, e2, e3]

/-- Forms of `TextOps`. -/
example : ∃ po, tryFromStr c!"-+1.50" = .ok po ∧ po.i = 1 ∧ po.v = 2 ∧ po.w = 1 ∧ po.f = 50 ∧ po.t = 5 :=
  ⟨_, (C78_operands _ _).2 (.plus ['-'] (decText [1] [5, 0]) _ (.inr rfl) (.point [1] [5, 0] _ (by simp) (by simp) (by decide) (by decide)
    (ieee_dec [1] [5, 0]))), rfl, rfl, by decide, by decide, by decide⟩
example : tryFromStr c!"--inF" = .ok ⟨.inf true, 0, 0, 0, 0, 0⟩ :=
  (C78_operands _ _).2 (.minus c!"inF" _ (.infinity true _ (.inl (by repeat first | exact .nil | refine .cons (by decide) ?_))))

end Verif.Props
