import Verif.AnyRead
import Verif.Props.AllNumbers
import Verif.Props.Errors

/-!
# C101: the conversion of texts whatever `f64::from_str` does
-/

namespace Verif.Props
open Verif Api Rust Uts35 Spec Sem PluralOperands

attribute [local irreducible] Flt.ofRat Flt.roundMag Flt.ofDec

/-- With the `f64::from_str` of the model it is the conversion of the model. -/
theorem anyRead_std (s : Str) : AnyRead.tryFromStr (Flt.fromStr b64) s = tryFromStr s := rfl

/-- C101: if `f64::from_str` refuses some of the texts, the conversion gives what it gave before, or refuses the text with the message
for texts that are no numbers. -/
theorem C101_refusing (read : Str → Option Flt) (hr : ∀ s x, read s = some x → Flt.fromStr b64 s = some x) (s r : Str)
    (h : AfterMinus s r) :
    (read r ≠ none → AnyRead.tryFromStr read s = tryFromStr s) ∧
    (read r = none → ∃ e, AnyRead.tryFromStr read s = .error e ∧ e.text = c!"Incorrect number passed!") := by
  have ha : absStr s = r := (afterMinus_iff s r).1 h
  constructor
  · intro hn
    obtain ⟨x, hx⟩ := Option.ne_none_iff_exists'.1 hn
    simp only [AnyRead.tryFromStr, tryFromStr, ha, hx, hr _ _ hx]
    rfl
  · intro hn
    exact ⟨.incorrectNumber, by simp only [AnyRead.tryFromStr, ha, hn], rfl⟩

/-- A `from_str` that refuses `Infinity`, on a text it reads and on one it refuses. -/
example : let read := fun s => if s = c!"Infinity" then none else Flt.fromStr b64 s
    AnyRead.tryFromStr read c!"-1.5" = tryFromStr c!"-1.5" ∧
    ∃ e, AnyRead.tryFromStr read c!"-Infinity" = .error e ∧ e.text = c!"Incorrect number passed!" := by
  intro read
  have hr : ∀ s x, read s = some x → Flt.fromStr b64 s = some x := by
    intro s x h
    simp only [read] at h
    split at h
    · cases h
    · exact h
  refine ⟨(C101_refusing read hr c!"-1.5" c!"1.5" (.inl rfl)).1 ?_, (C101_refusing read hr c!"-Infinity" c!"Infinity" (.inl rfl)).2 (by decide)⟩
  have : (read c!"1.5").isSome = true := by decide +kernel
  intro h; rw [h] at this; cases this

theorem splitPoint_some {s : Str} (h : '.' ∈ s) : splitPoint s ≠ none := by
  induction s with
  | nil => cases h
  | cons c t ih =>
    unfold splitPoint
    by_cases hc : c = '.'
    · simp [hc]
    · have hm : '.' ∈ t := by
        rcases List.mem_cons.1 h with e | e
        · exact absurd e.symm hc
        · exact e
      obtain ⟨p, hp⟩ := Option.ne_none_iff_exists'.1 (ih hm)
      simp [hc, hp]

/-- C101: of a text with a point only `n` depends on `f64::from_str`; two of them that both read it give the same other operands, or
the same error. -/
theorem C101_point (read read' : Str → Option Flt) (s r : Str) (h : AfterMinus s r) (hp : '.' ∈ r) (x y : Flt) (hx : read r = some x)
    (hy : read' r = some y) :
    (∃ po, AnyRead.tryFromStr read s = .ok po ∧ AnyRead.tryFromStr read' s = .ok { po with n := y }) ∨
    (∃ e, AnyRead.tryFromStr read s = .error e ∧ AnyRead.tryFromStr read' s = .error e) := by
  have ha : absStr s = r := (afterMinus_iff s r).1 h
  obtain ⟨⟨a, b⟩, hs⟩ := Option.ne_none_iff_exists'.1 (splitPoint_some hp)
  simp only [AnyRead.tryFromStr, ha, hx, hy, hs]
  cases parseUnsigned 64 a with
  | none => exact .inr ⟨_, rfl, rfl⟩
  | some i =>
    cases parseUnsigned 64 b with
    | none => exact .inr ⟨_, rfl, rfl⟩
    | some f => exact .inl ⟨_, rfl, rfl⟩

/-- Two `from_str` that read 0.1 as different floats. -/
example : AnyRead.tryFromStr (fun _ => some (.fin false 1)) c!"-0.1" = .ok ⟨.fin false 1, 0, 1, 1, 1, 1⟩ ∧
    AnyRead.tryFromStr (fun _ => some .nan) c!"-0.1" = .ok ⟨.nan, 0, 1, 1, 1, 1⟩ := by
  have h1 : AnyRead.tryFromStr (fun _ => some (.fin false 1)) c!"-0.1" = .ok ⟨.fin false 1, 0, 1, 1, 1, 1⟩ := by with_unfolding_all rfl
  refine ⟨h1, ?_⟩
  rcases C101_point (fun _ => some (.fin false 1)) (fun _ => some .nan) c!"-0.1" c!"0.1" (.inl rfl) (by decide) _ _ rfl rfl with ⟨po, h2, h3⟩ | ⟨e, h2, -⟩
  · rw [h1] at h2; cases h2; exact h3
  · rw [h1] at h2; cases h2

/-- C101: if `f64::from_str` tells the integers up to 800 from all other numbers, however it rounds otherwise, then every decimal
number with a point whose parts are `u64` gets its CLDR category, except the wrong numbers of C66. -/
theorem C101_decimal (read : Str → Option Flt) (t : PluralRuleType) (id : LangId) (pr : PluralRules) (h : create id t = .ok pr)
    (sign : Str) (hs : sign = [] ∨ sign = ['-']) (ip fp : List (Fin 10)) (hi : ip ≠ []) (hf : fp ≠ [])
    (h1 : digitsNum ip < 2 ^ 64) (h2 : digitsNum fp < 2 ^ 64) (x : Flt) (hx : read (decText ip fp) = some x)
    (hn : ∀ k : Nat, k ≤ 800 → (Flt.eq x (Flt.ofNat b64 k) = true ↔ (decOf ip fp).value = k)) :
    ∃ c c', select pr (AnyRead.tryFromStr read (sign ++ decText ip fp)) = some (.ok c) ∧
      CldrCategory t id (decOf ip fp) c' ∧ (c = c' ↔ ¬ IsWrong t id (decOf ip fp)) := by
  obtain ⟨po, h3, h4, -⟩ := C11_decimal sign hs ip fp hi hf h1 h2
  have hfirst : absStr (sign ++ decText ip fp) = decText ip fp := by
    rcases hs with rfl | rfl
    · exact (afterMinus_iff _ _).1 (.inr ⟨rfl, Strings.digits_no_minus ip hi _⟩)
    · simp [absStr]
  obtain ⟨y, hy⟩ : ∃ y, Flt.fromStr b64 (absStr (sign ++ decText ip fp)) = some y := by
    cases hz : Flt.fromStr b64 (absStr (sign ++ decText ip fp)) with
    | none => simp [tryFromStr, hz] at h3
    | some y => exact ⟨y, rfl⟩
  rw [hfirst] at hy
  have hp : '.' ∈ decText ip fp := by simp [decText]
  have h6 : AnyRead.tryFromStr read (sign ++ decText ip fp) = .ok { po with n := x } := by
    rcases C101_point (Flt.fromStr b64) read _ _ ((afterMinus_iff _ _).2 hfirst) hp y x hy hx with ⟨po', e, e'⟩ | ⟨e, e', -⟩
    · rw [anyRead_std, h3] at e
      cases e
      exact e'
    · rw [anyRead_std, h3] at e'; cases e'
  have h7 := alike_ideal { po with n := x } (decOf ip fp) h4.i h4.v h4.w h4.f h4.t hn
  obtain ⟨c, c', h8, h9⟩ := select_exactly t id pr h _ _ (ideal_represents (decOf ip fp))
  exact ⟨c, c', by rw [h6, select_alike t id pr h h7, h8], h9⟩

/-- C101 is not empty: a `from_str` that reads 0.1 as the least positive `f64` is such a one, and one that refuses `Infinity` refuses
only. -/
example : (∀ k : Nat, k ≤ 800 → (Flt.eq (.fin false 1) (Flt.ofNat b64 k) = true ↔ (decOf [0] [1]).value = k)) ∧
    (∀ s x, (fun s => if s = c!"Infinity" then none else Flt.fromStr b64 s) s = some x → Flt.fromStr b64 s = some x) ∧
    AfterMinus c!"-0.1" c!"0.1" ∧ '.' ∈ c!"0.1" := by
  refine ⟨fun k hk => ?_, fun s x h => ?_, .inl rfl, by decide⟩
  · have h1 : ∀ k < 801, Flt.eq (.fin false 1) (Flt.ofNat b64 k) = false := by decide +kernel
    rw [h1 k (by omega), Dec.value_eq_nat]
    have h2 : (decOf [0] [1]).f ≠ 0 := by decide
    simp [h2]
  · dsimp only at h
    split at h
    · cases h
    · exact h

end Verif.Props
