import Verif.AnyCast
import Verif.Props.Floats
import Verif.Props.Rounding

/-!
# C107: the cast of a float to `u64`

operands.rs:106 casts `n` to `u64` if the text has no point.  Rust before 1.45 leaves the result undefined if the truncated value is no
`u64`; since then it is the nearest `u64`, and 0 for NaN.
-/

namespace Verif.Props
open Verif Uts35 Spec PluralOperands Sem

attribute [local irreducible] Flt.ofRat Flt.roundMag Flt.ofDec

/-- The float, truncated towards zero, is `k`, and `k` is a `u64`. -/
def TruncatesTo : Flt → Nat → Prop
  | .fin neg m, k => k = m / 2 ^ 1074 ∧ k < if neg then 1 else 2 ^ 64
  | _, _ => False

/-- What the Rust reference has promised of `as u64` in all versions. -/
def IsCast (cast : Flt → Nat) : Prop := ∀ x k, TruncatesTo x k → cast x = k

/-- Texts of which the conversion casts a float that is out of range. -/
inductive Outside : Str → Prop
  | word (sign s : Str) : sign ∈ [c!"", c!"-", c!"+", c!"-+", c!"--"] → Spells s c!"inf" ∨ Spells s c!"infinity" ∨ Spells s c!"nan" →
      Outside (sign ++ s)
  | large (sign : Str) (ip : List (Fin 10)) (x : Str) (e : Int) : sign ∈ [c!"", c!"-", c!"+", c!"-+"] → ip ≠ [] → ExponentOf x e →
      (2 ^ 64 - 2 ^ 10 : ℚ) ≤ digitsNum ip * 10 ^ e → Outside (sign ++ (digitText ip ++ x))
  | negative (ip : List (Fin 10)) (x : Str) (e : Int) : ip ≠ [] → ExponentOf x e →
      (1 - 1 / 2 ^ 54 : ℚ) ≤ digitsNum ip * 10 ^ e → Outside ('-' :: '-' :: (digitText ip ++ x))

theorem toU64_isCast : IsCast (Flt.toU64 b64) := by
  intro x k h
  cases x with
  | nan => exact absurd h id
  | inf s => exact absurd h id
  | fin neg m =>
    obtain ⟨rfl, h2⟩ := h
    cases neg with
    | false =>
      simp only [Bool.false_eq_true, if_false] at h2
      show min (m / 2 ^ 1074) (2 ^ 64 - 1) = _
      generalize m / 2 ^ 1074 = a at *
      omega
    | true =>
      simp only [if_true] at h2
      show 0 = m / 2 ^ 1074
      generalize m / 2 ^ 1074 = a at *
      omega

/-! ## In terms of the operands -/

theorem anyCast_std (s : Str) : AnyCast.tryFromStr (Flt.toU64 b64) s = tryFromStr s := rfl

theorem anyCast_ok (cast : Flt → Nat) (s : Str) (po : PluralOperands) (h : tryFromStr s = .ok po) :
    AnyCast.tryFromStr cast s = .ok { po with i := if po.v = 0 then cast po.n else po.i } := by
  rcases Strings.tryFromStr_ok s po h with ⟨hp, x, hx, rfl⟩ | ⟨ip, fp, hi, hf, h1, h2, h3, rfl⟩
  · simp only [AnyCast.tryFromStr, hx, (Strings.splitPoint_none _).2 hp, if_true]
  · have hv : (Strings.decOperands ip fp).v ≠ 0 := by
      simp only [Strings.decOperands]
      exact fun h => hf (List.length_eq_zero_iff.1 h)
    rw [if_neg hv]
    have hp : '.' ∈ absStr s := by rcases h3 with h3 | h3 <;> rw [h3] <;> simp [decText]
    rw [← h]
    cases hs : splitPoint (absStr s) with
    | none => exact absurd hp ((Strings.splitPoint_none _).1 hs)
    | some p => simp only [AnyCast.tryFromStr, tryFromStr, hs]; rfl

theorem anyCast_error (cast : Flt → Nat) (s : Str) (e : OpsErr) (h : tryFromStr s = .error e) : AnyCast.tryFromStr cast s = .error e := by
  rw [← h]
  cases hx : Flt.fromStr b64 (absStr s) with
  | none => simp only [AnyCast.tryFromStr, tryFromStr, hx]
  | some x =>
    cases hs : splitPoint (absStr s) with
    | none => simp only [tryFromStr, hx, hs] at h; cases h
    | some p => simp only [AnyCast.tryFromStr, tryFromStr, hx, hs]; rfl

theorem same_iff (s : Str) (po : PluralOperands) (h : tryFromStr s = .ok po) :
    (∀ cast, IsCast cast → AnyCast.tryFromStr cast s = tryFromStr s) ↔ (po.v = 0 → ∃ k, TruncatesTo po.n k) := by
  constructor
  · intro hs hv
    by_contra hn
    have hc : IsCast fun x => if x = po.n then po.i + 1 else x.toU64 b64 := by
      intro x k hx
      show (if x = po.n then po.i + 1 else x.toU64 b64) = k
      rw [if_neg (by rintro rfl; exact hn ⟨k, hx⟩)]
      exact toU64_isCast x k hx
    have := hs _ hc
    rw [anyCast_ok _ s po h, h, if_pos hv] at this
    have := congrArg PluralOperands.i (Except.ok.inj this)
    simp at this
  · intro hn cast hc
    rw [anyCast_ok cast s po h, ← anyCast_std, anyCast_ok _ s po h]
    by_cases hv : po.v = 0
    · obtain ⟨k, hk⟩ := hn hv
      rw [if_pos hv, if_pos hv, hc _ _ hk, toU64_isCast _ _ hk]
    · rw [if_neg hv, if_neg hv]

/-! ## Thresholds -/

/-- Rounding reaches a power of two from half a unit below it on. -/
theorem rnd_power (F : Fmt) (hP : 0 < F.prec) (E : Nat) (hE : F.prec ≤ E + F.scale)
    (hT : 2 ^ (E + F.scale) ≤ Flt.roundMag F ((2 ^ (F.prec + 1) - 1) * 2 ^ E) (2 ^ (F.prec + 1))) (y : ℚ) (h0 : 0 ≤ y) :
    2 ^ (E + F.scale) ≤ Flt.rnd F y ↔ 2 ^ E - 2 ^ E / 2 ^ (F.prec + 1) ≤ y := by
  have hPp : (0 : ℚ) < 2 ^ (F.prec + 1) := by positivity
  have h1 : 1 ≤ 2 ^ (F.prec + 1) := Nat.two_pow_pos _
  have eT : (2 : ℚ) ^ E - 2 ^ E / 2 ^ (F.prec + 1) =
      (((2 ^ (F.prec + 1) - 1) * 2 ^ E : Nat) : ℚ) / ((2 ^ (F.prec + 1) : Nat) : ℚ) := by
    push_cast [Nat.cast_sub h1]
    field_simp
  constructor
  · intro h
    by_contra hlt
    rw [not_le] at hlt
    have hr := Flt.rnd_nearest F hP y h0 ((2 ^ F.prec - 1) * 2 ^ (E + F.scale - F.prec))
      ⟨2 ^ F.prec - 1, _, Nat.sub_lt (Nat.two_pow_pos _) one_pos, rfl⟩
    have e2 : (((2 ^ F.prec - 1) * 2 ^ (E + F.scale - F.prec) : Nat) : ℚ) =
        2 ^ (E + F.scale) - 2 ^ (E + F.scale) / 2 ^ F.prec := by
      have : (2 : ℚ) ^ (E + F.scale) = 2 ^ (E + F.scale - F.prec) * 2 ^ F.prec := by
        rw [← pow_add]; congr 1; omega
      rw [this]
      push_cast [Nat.cast_sub (Nat.two_pow_pos F.prec : 1 ≤ 2 ^ F.prec)]
      field_simp
    rw [e2] at hr
    have h' : ((2 ^ (E + F.scale) : Nat) : ℚ) ≤ (Flt.rnd F y : ℚ) := by exact_mod_cast h
    push_cast at h'
    have hS : (0 : ℚ) < 2 ^ F.scale := by positivity
    have hY : y * 2 ^ F.scale < 2 ^ (E + F.scale) - 2 ^ (E + F.scale) / 2 ^ F.prec / 2 := by
      have := mul_lt_mul_of_pos_right hlt hS
      refine lt_of_lt_of_eq this ?_
      rw [pow_succ, show (2 : ℚ) ^ (E + F.scale) = 2 ^ E * 2 ^ F.scale from pow_add ..]; field_simp
    have hU : (0 : ℚ) < 2 ^ (E + F.scale) / 2 ^ F.prec := by positivity
    generalize (2 : ℚ) ^ (E + F.scale) / 2 ^ F.prec = U at *
    generalize (2 : ℚ) ^ (E + F.scale) = M at *
    generalize y * 2 ^ F.scale = Y at *
    rcases abs_cases ((Flt.rnd F y : ℚ) - Y) with ⟨h3, _⟩ | ⟨h3, _⟩ <;> rcases abs_cases (M - U - Y) with ⟨h4, _⟩ | ⟨h4, _⟩ <;> linarith
  · intro h
    rw [eT] at h
    refine le_trans ?_ (Flt.rnd_mono F hP _ y (by positivity) h)
    rw [Flt.rnd_div F _ _ (by positivity)]
    exact hT

theorem below_power (m a b : Nat) : m / 2 ^ b < 2 ^ a ↔ m < 2 ^ a * 2 ^ b := Nat.div_lt_iff_lt_mul (Nat.two_pow_pos b)

theorem below_power' (m a b : Nat) : m / 2 ^ b < 2 ^ a ↔ ¬ 2 ^ (a + b) ≤ m := by rw [below_power, Nat.pow_add, Nat.not_le]

theorem below_one (m b : Nat) : m / 2 ^ b < 1 ↔ ¬ 2 ^ b ≤ m := by
  rw [Nat.not_le, Nat.div_lt_iff_lt_mul (Nat.two_pow_pos b), Nat.one_mul]

theorem ieee_cases {y : ℚ} (h0 : 0 ≤ y) {n : Flt} (h : Ieee b64 y n) :
    n = if 2 ^ 2098 ≤ Flt.rnd b64 y then .inf false else .fin false (Flt.rnd b64 y) :=
  C77_unique b64 (by decide) y _ _ h (ieee_rnd b64 (.inl rfl) y h0)

theorem truncates_int (k : Nat) (h : k < 2 ^ 64) : TruncatesTo (.fin false (k * 2 ^ 1074)) k :=
  ⟨(Nat.mul_div_cancel k (Nat.two_pow_pos 1074)).symm, h⟩

theorem inRange_positive (m : Nat) :
    (∃ k, TruncatesTo (if 2 ^ 2098 ≤ m then .inf false else .fin false m) k) ↔ ¬ 2 ^ 1138 ≤ m := by
  split_ifs with hb
  · have : 2 ^ 1138 ≤ m := le_trans (Nat.pow_le_pow_right (by decide) (by decide)) hb
    simp [TruncatesTo, this]
  · simp only [TruncatesTo, Bool.false_eq_true, if_false, exists_eq_left]
    exact below_power' m 64 1074

theorem inRange_negative (m : Nat) :
    (∃ k, TruncatesTo (negated (if 2 ^ 2098 ≤ m then .inf false else .fin false m)) k) ↔ ¬ 2 ^ 1074 ≤ m := by
  split_ifs with hb
  · have : 2 ^ 1074 ≤ m := le_trans (Nat.pow_le_pow_right (by decide) (by decide)) hb
    simp [negated, TruncatesTo, this]
  · simp only [negated, Bool.not_false, TruncatesTo, if_true, exists_eq_left]
    exact below_one m 1074

theorem rnd_64 (y : ℚ) (h0 : 0 ≤ y) : 2 ^ 1138 ≤ Flt.rnd b64 y ↔ (2 : ℚ) ^ 64 - 2 ^ 10 ≤ y := by
  have key := rnd_power b64 (by decide) 64 (by decide) (by decide +kernel) y h0
  have e : (2 : ℚ) ^ 64 - 2 ^ 64 / 2 ^ (b64.prec + 1) = 2 ^ 64 - 2 ^ 10 := by
    rw [show b64.prec + 1 = 54 from rfl]
    norm_num
  have e' : (64 + b64.scale) = 1138 := rfl
  rw [e, e'] at key
  exact key

theorem rnd_1 (y : ℚ) (h0 : 0 ≤ y) : 2 ^ 1074 ≤ Flt.rnd b64 y ↔ (1 - 1 / 2 ^ 54 : ℚ) ≤ y := by
  have key := rnd_power b64 (by decide) 0 (by decide) (by decide +kernel) y h0
  have e : (2 : ℚ) ^ 0 - 2 ^ 0 / 2 ^ (b64.prec + 1) = 1 - 1 / 2 ^ 54 := by
    rw [show b64.prec + 1 = 54 from rfl]
    norm_num
  have e' : (0 + b64.scale) = 1074 := rfl
  rw [e, e'] at key
  exact key

theorem truncates_positive {y : ℚ} (h0 : 0 ≤ y) {n : Flt} (h : Ieee b64 y n) :
    (∃ k, TruncatesTo n k) ↔ y < 2 ^ 64 - 2 ^ 10 := by
  rw [ieee_cases h0 h, ← not_le, ← rnd_64 y h0]
  exact inRange_positive _

theorem truncates_negative {y : ℚ} (h0 : 0 ≤ y) {n : Flt} (h : Ieee b64 y n) :
    (∃ k, TruncatesTo (negated n) k) ↔ y < 1 - 1 / 2 ^ 54 := by
  rw [ieee_cases h0 h, ← not_le, ← rnd_1 y h0]
  exact inRange_negative _

/-! ## C107 -/

theorem value_nonneg (ip : List (Fin 10)) (e : Int) : (0 : ℚ) ≤ digitsNum ip * 10 ^ e :=
  mul_nonneg (Nat.cast_nonneg _) (zpow_nonneg (by norm_num) _)

theorem outside_ok (s : Str) (h : Outside s) : ∃ po, TextOps s po ∧ po.v = 0 ∧ ¬ ∃ k, TruncatesTo po.n k := by
  have signed : ∀ sign ∈ [c!"", c!"-", c!"+", c!"-+"], ∀ s po, BodyOps false s po → TextOps (sign ++ s) po := by
    intro sign hs s po hb
    simp only [List.mem_cons, List.not_mem_nil, or_false] at hs
    rcases hs with rfl | rfl | rfl | rfl
    · exact .plain [] s po (.inl rfl) hb
    · exact .plain ['-'] s po (.inr rfl) hb
    · exact .plus [] s po (.inl rfl) hb
    · exact .plus ['-'] s po (.inr rfl) hb
  cases h with
  | word sign s hs hw =>
    have hb : ∀ neg, ∃ po, BodyOps neg s po ∧ po.v = 0 ∧ ¬ ∃ k, TruncatesTo po.n k := by
      intro neg
      rcases hw with hw | hw | hw
      · exact ⟨_, .infinity neg s (.inl hw), rfl, fun ⟨_, h⟩ => h⟩
      · exact ⟨_, .infinity neg s (.inr hw), rfl, fun ⟨_, h⟩ => h⟩
      · exact ⟨_, .nan neg s hw, rfl, fun ⟨_, h⟩ => h⟩
    rcases (by simpa using hs : sign = _ ∨ sign = _ ∨ sign = _ ∨ sign = _ ∨ sign = _) with rfl | rfl | rfl | rfl | rfl
    · obtain ⟨po, h1, h2⟩ := hb false; exact ⟨po, signed _ (by simp) s po h1, h2⟩
    · obtain ⟨po, h1, h2⟩ := hb false; exact ⟨po, signed _ (by simp) s po h1, h2⟩
    · obtain ⟨po, h1, h2⟩ := hb false; exact ⟨po, signed _ (by simp) s po h1, h2⟩
    · obtain ⟨po, h1, h2⟩ := hb false; exact ⟨po, signed _ (by simp) s po h1, h2⟩
    · obtain ⟨po, h1, h2⟩ := hb true; exact ⟨po, .minus s po h1, h2⟩
  | large sign ip x e hs hi hx hl =>
    obtain ⟨n, hn⟩ : ∃ n, Ieee b64 (digitsNum ip * 10 ^ e) n := ⟨_, ieee_ofDec b64 (.inl rfl) (digitsNum ip) e⟩
    refine ⟨_, signed sign hs _ _ (.number false ip x e _ hi hx hn), rfl, fun hk => ?_⟩
    exact absurd ((truncates_positive (value_nonneg ip e) hn).1 hk) (not_lt.2 hl)
  | negative ip x e hi hx hl =>
    obtain ⟨n, hn⟩ : ∃ n, Ieee b64 (digitsNum ip * 10 ^ e) n := ⟨_, ieee_ofDec b64 (.inl rfl) (digitsNum ip) e⟩
    refine ⟨_, .minus _ _ (.number true ip x e _ hi hx hn), rfl, fun hk => ?_⟩
    exact absurd ((truncates_negative (value_nonneg ip e) hn).1 hk) (not_lt.2 hl)

theorem inside_ok (s : Str) (po : PluralOperands) (h : TextOps s po) (hv : po.v = 0) (hk : ¬ ∃ k, TruncatesTo po.n k) : Outside s := by
  have pos : ∀ sign ∈ [c!"", c!"-", c!"+", c!"-+"], ∀ s, BodyOps false s po → Outside (sign ++ s) := by
    intro sign hs s hb
    have hs' : sign ∈ [c!"", c!"-", c!"+", c!"-+", c!"--"] := by
      have : [c!"", c!"-", c!"+", c!"-+", c!"--"] = [c!"", c!"-", c!"+", c!"-+"] ++ [c!"--"] := rfl
      rw [this]; exact List.mem_append_left _ hs
    cases hb with
    | point ip fp n hi hf =>
      exact absurd hv fun h => hf (List.length_eq_zero_iff.1 h)
    | number _ ip x e n hi hx hn =>
      exact .large sign ip x e hs hi hx (not_lt.1 fun hl => hk ((truncates_positive (value_nonneg ip e) hn).2 hl))
    | infinity _ _ hw => exact .word sign s hs' (by tauto)
    | nan _ _ hw => exact .word sign s hs' (by tauto)
  cases h with
  | plain minus s _ hm hb => rcases hm with rfl | rfl <;> exact pos _ (by simp) s hb
  | plus minus s _ hm hb =>
    rcases hm with rfl | rfl
    · exact pos c!"+" (by simp) s hb
    · exact pos c!"-+" (by simp) s hb
  | minus s _ hb =>
    cases hb with
    | number _ ip x e n hi hx hn =>
      exact .negative ip x e hi hx (not_lt.1 fun hl => hk ((truncates_negative (value_nonneg ip e) hn).2 hl))
    | infinity _ _ hw => exact .word c!"--" s (by simp) (by tauto)
    | nan _ _ hw => exact .word c!"--" s (by simp) (by tauto)

/-- C107: the conversion of a text is the same with every cast that truncates where it can, exactly if the text is not one of: a word,
with at most a minus sign and a further sign; a number from 2^64 - 2^10 on, which rounds to 2^64 at least, without a point; or after two
minus signs one that rounds to 1 at least. -/
theorem C107_texts (s : Str) : (∀ cast, IsCast cast → AnyCast.tryFromStr cast s = tryFromStr s) ↔ ¬ Outside s := by
  constructor
  · intro h ho
    obtain ⟨po, h1, h2, h3⟩ := outside_ok s ho
    exact h3 ((same_iff s po ((C78_operands s po).2 h1)).1 h h2)
  · intro ho
    cases h : tryFromStr s with
    | error e => exact fun cast _ => anyCast_error cast s e h
    | ok po =>
      rw [← h]
      refine (same_iff s po h).2 fun hv => ?_
      by_contra hk
      exact ho (inside_ok s po ((C78_operands s po).1 h) hv hk)

/-- 2^64 - 1 is out of range as a text, since it rounds to 2^64; 2^64 - 1025 is not, and no text with a point is. -/
example : Outside c!"18446744073709551615" ∧ ¬ Outside c!"18446744073709550591" ∧ ¬ Outside c!"-18446744073709551615.0" ∧
    Outside c!"--1e0" ∧ Outside c!"-Inf" := by
  refine ⟨.large c!"" [1, 8, 4, 4, 6, 7, 4, 4, 0, 7, 3, 7, 0, 9, 5, 5, 1, 6, 1, 5] [] 0 (by simp) (by simp) .none ?_, ?_, ?_,
    .negative [1] c!"e0" _ (by simp) (.plus 'e' [] [0] (.inl rfl) (.inl rfl) (by simp)) ?_, .word c!"-" c!"Inf" (by simp) (.inl ?_)⟩
  · norm_num [digitsNum]
  · intro h
    obtain ⟨po, h1, -, h3⟩ := outside_ok _ h
    have h4 : (tryFromStr c!"18446744073709550591").toOption.map (·.n) = some (.fin false (18446744073709549568 * 2 ^ 1074)) := by
      decide +kernel
    rw [(C78_operands _ po).2 h1] at h4
    have h5 : po.n = .fin false (18446744073709549568 * 2 ^ 1074) := Option.some.inj h4
    exact h3 ⟨_, h5 ▸ truncates_int 18446744073709549568 (by decide)⟩
  · intro h
    obtain ⟨po, h1, h2, -⟩ := outside_ok _ h
    have h4 : (tryFromStr c!"-18446744073709551615.0").toOption.map (·.v) = some 1 := by decide +kernel
    rw [(C78_operands _ po).2 h1] at h4
    exact absurd (h2.symm.trans (Option.some.inj h4)) (by decide)
  · norm_num [digitsNum]
  · repeat first | exact .nil | refine .cons (by decide) ?_

/-- C107: whatever the cast does, it changes the operand `i` only, and which texts are accepted not at all. -/
theorem C107_only_i (cast : Flt → Nat) (s : Str) :
    (∃ po i, tryFromStr s = .ok po ∧ AnyCast.tryFromStr cast s = .ok { po with i := i }) ∨
    ∃ e, tryFromStr s = .error e ∧ AnyCast.tryFromStr cast s = .error e := by
  cases h : tryFromStr s with
  | error e => exact .inr ⟨e, rfl, anyCast_error cast s e h⟩
  | ok po => exact .inl ⟨po, _, rfl, anyCast_ok cast s po h⟩

/-- C107: the conversion of an `f64` is the same with every such cast exactly if the float is finite and below 2^64. -/
theorem C107_f64 (x : Flt) (h : IsFloat b64 x) :
    (∀ cast, IsCast cast → AnyCast.tryFromFloat cast b64 x = tryFromFloat b64 x) ↔ ∃ neg m, x = .fin neg m ∧ m < 2 ^ 64 * 2 ^ 1074 := by
  obtain ⟨po, hpo⟩ := C20_succeeds x h
  refine (same_iff _ po hpo).trans ?_
  match x, h with
  | .nan, _ =>
    rw [(C20_special false).2] at hpo; cases hpo
    simp [TruncatesTo]
  | .inf neg, _ =>
    rw [(C20_special neg).1] at hpo; cases hpo
    simp [TruncatesTo]
  | .fin neg m, h =>
    obtain ⟨h1, -, -, -, -, hv⟩ := C20_finite neg m h po hpo
    rw [hv, h1]
    simp only [TruncatesTo, Bool.false_eq_true, if_false, exists_eq_left]
    rw [below_power m 64 1074]
    constructor
    · intro hk
      refine ⟨neg, m, rfl, ?_⟩
      by_cases hd : 2 ^ 1074 ∣ m
      · exact hk hd
      · rcases convert_finite b64 (by decide) (by decide) neg m h with ⟨hd', -⟩ | ⟨-, d, j, -, hd64, -, -, h3, -⟩
        · exact absurd hd' hd
        · rw [← below_power m 64 1074, ← show d / 10 ^ j = m / 2 ^ 1074 from h3]
          exact lt_of_le_of_lt (Nat.div_le_self _ _) hd64
    · rintro ⟨_, _, e, h2⟩ _
      cases e
      exact h2

/-- The largest `f64` below 2^64, and 2^64. -/
example : (∀ cast, IsCast cast → AnyCast.tryFromFloat cast b64 (.fin true ((2 ^ 64 - 2 ^ 11) * 2 ^ 1074)) =
      tryFromFloat b64 (.fin true ((2 ^ 64 - 2 ^ 11) * 2 ^ 1074))) ∧
    ¬ ∀ cast, IsCast cast → AnyCast.tryFromFloat cast b64 (.fin false (2 ^ 64 * 2 ^ 1074)) = tryFromFloat b64 (.fin false (2 ^ 64 * 2 ^ 1074)) := by
  refine ⟨(C107_f64 (.fin true ((2 ^ 64 - 2 ^ 11) * 2 ^ 1074)) ⟨⟨2 ^ 53 - 1, 11 + 1074, by decide, by decide +kernel⟩, by decide +kernel⟩).2 ⟨_, _, rfl, by decide +kernel⟩, fun h => ?_⟩
  obtain ⟨_, _, e, h2⟩ := (C107_f64 (.fin false (2 ^ 64 * 2 ^ 1074)) ⟨⟨1, 64 + 1074, by decide, by decide +kernel⟩, by decide +kernel⟩).1 h
  cases e
  exact absurd h2 (Nat.lt_irrefl _)

/-! ## `f32` -/

theorem rnd32 : Flt.rnd b32 (2 ^ 64 - 2 ^ 10) = 2 ^ 213 ∧ Flt.rnd b32 (2 ^ 64) = 2 ^ 213 := by
  have h1 := Flt.rnd_div b32 (2 ^ 64 - 2 ^ 10) 1 one_pos
  have h2 := Flt.rnd_div b32 (2 ^ 64) 1 one_pos
  have e1 : (((2 ^ 64 - 2 ^ 10 : Nat) : ℚ) / ((1 : Nat) : ℚ)) = 2 ^ 64 - 2 ^ 10 := by norm_num
  have e2 : (((2 ^ 64 : Nat) : ℚ) / ((1 : Nat) : ℚ)) = 2 ^ 64 := by norm_num
  rw [e1] at h1
  rw [e2] at h2
  rw [h1, h2]
  decide +kernel

/-- C107: the conversion of an `f32` is the same with every such cast exactly if the float is finite and at most 2^64; the text of the
`f32` 2^64 is 18446744000000000000. -/
theorem C107_f32 (x : Flt) (h : IsFloat b32 x) :
    (∀ cast, IsCast cast → AnyCast.tryFromFloat cast b32 x = tryFromFloat b32 x) ↔ ∃ neg m, x = .fin neg m ∧ m ≤ 2 ^ 64 * 2 ^ 149 := by
  match x, h with
  | .nan, _ =>
    refine (same_iff _ ⟨.nan, 0, 0, 0, 0, 0⟩ rfl).trans ?_
    simp [TruncatesTo]
  | .inf neg, _ =>
    refine (same_iff _ ⟨.inf false, 2 ^ 64 - 1, 0, 0, 0, 0⟩ (by cases neg <;> rfl)).trans ?_
    simp [TruncatesTo]
  | .fin neg m, h =>
    have goal : (∃ neg' m', Flt.fin neg m = .fin neg' m' ∧ m' ≤ 2 ^ 64 * 2 ^ 149) ↔ m ≤ 2 ^ 213 := by
      rw [← Nat.pow_add]
      exact ⟨fun ⟨_, _, e, h⟩ => by cases e; exact h, fun h => ⟨_, _, rfl, h⟩⟩
    rw [goal]
    rcases convert_finite b32 (by decide) (by decide) neg m h with ⟨hd, d, k, h2, h1⟩ | ⟨-, d, j, hj, hd64, -, -, h3, h1⟩
    · rw [Flt.reads_iff b32 m d k h.2] at h2
      have hi := ieee_ofDec b64 (.inl rfl) d k
      generalize Flt.ofDec b64 false d k = n at h1 hi
      have h0 : (0 : ℚ) ≤ d * 10 ^ (k : Int) := mul_nonneg (Nat.cast_nonneg _) (zpow_nonneg (by norm_num) _)
      have key := truncates_positive h0 hi
      have h3 : (∃ k, TruncatesTo n k) ↔ m ≤ 2 ^ 213 := by
        rcases Nat.lt_trichotomy m (2 ^ 213) with hlt | rfl | hgt
        · refine ⟨fun _ => hlt.le, fun _ => key.2 (not_le.1 fun hle => ?_)⟩
          have := Flt.rnd_mono b32 (by decide) _ _ (by norm_num) hle
          rw [rnd32.1, h2] at this
          exact absurd hlt (Nat.not_lt.2 this)
        · refine ⟨fun _ => le_refl _, fun _ => ?_⟩
          have h4 : ∀ neg, (tryFromFloat b32 (.fin neg (2 ^ 213))).toOption.map (·.n) = some (.fin false (18446744000000000000 * 2 ^ 1074)) := by
            decide +kernel
          have h5 := h4 neg
          rw [h1] at h5
          have h6 : n = .fin false (18446744000000000000 * 2 ^ 1074) := Option.some.inj h5
          rw [h6]
          exact ⟨_, truncates_int 18446744000000000000 (by decide)⟩
        · refine ⟨fun hk => ?_, fun hle => absurd hgt (Nat.not_lt.2 hle)⟩
          have := Flt.rnd_mono b32 (by decide) _ (2 ^ 64) h0 (le_trans (key.1 hk).le (by norm_num))
          rw [rnd32.2, h2] at this
          exact this
      refine (same_iff _ _ h1).trans ?_
      exact ⟨fun h => h3.1 (h rfl), fun h _ => h3.2 h⟩
    · refine (same_iff _ _ h1).trans ?_
      have : m ≤ 2 ^ 213 := by
        have h4 : m / 2 ^ 149 < 2 ^ 64 := by
          rw [← show d / 10 ^ j = m / 2 ^ 149 from h3]
          exact lt_of_le_of_lt (Nat.div_le_self _ _) hd64
        rw [below_power m 64 149, ← Nat.pow_add] at h4
        exact h4.le
      exact ⟨fun _ => this, fun _ (hv : j = 0) => absurd hv (by omega)⟩

/-- 2^64 as an `f32`, and the next one. -/
example : (∀ cast, IsCast cast → AnyCast.tryFromFloat cast b32 (.fin false (2 ^ 213)) = tryFromFloat b32 (.fin false (2 ^ 213))) ∧
    ¬ ∀ cast, IsCast cast → AnyCast.tryFromFloat cast b32 (.fin false (2 ^ 213 + 2 ^ 190)) = tryFromFloat b32 (.fin false (2 ^ 213 + 2 ^ 190)) := by
  refine ⟨(C107_f32 (.fin false (2 ^ 213)) ⟨⟨1, 213, by decide, by decide⟩, by decide⟩).2 ⟨_, _, rfl, by decide⟩, fun h => ?_⟩
  obtain ⟨_, _, e, h2⟩ := (C107_f32 (.fin false (2 ^ 213 + 2 ^ 190)) ⟨⟨2 ^ 23 + 1, 190, by decide, by decide⟩, by decide⟩).1 h
  cases e
  exact absurd h2 (by decide)

end Verif.Props
