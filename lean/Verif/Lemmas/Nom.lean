import Verif.Nom
import Verif.Grammar
import Verif.Lemmas.Strings

/-!
# Lemmas: parser combinators
-/

namespace Verif.Nom
open Verif Grammar Spec Uts35 Strings

/-- The text does not start with such a character. -/
def NoHead (p : Char → Bool) (r : Str) : Prop := ∀ c t, r = c :: t → p c = false

theorem noHead_nil (p : Char → Bool) : NoHead p [] := fun _ _ h => by cases h

theorem noHead_cons {p : Char → Bool} {c : Char} {t : Str} : NoHead p (c :: t) ↔ p c = false :=
  ⟨fun h => h c t rfl, fun h c' t' e => by cases e; exact h⟩

theorem takeWhile_app (p : Char → Bool) (s r : Str) (hs : ∀ c ∈ s, p c = true) (hr : NoHead p r) :
    (s ++ r).takeWhile p = s ∧ (s ++ r).dropWhile p = r := by
  induction s with
  | nil =>
    cases r with
    | nil => exact ⟨rfl, rfl⟩
    | cons c t =>
      have := hr c t rfl
      simp [List.takeWhile, List.dropWhile, this]
  | cons c s ih =>
    have h1 := hs c (by simp)
    have h2 := ih fun c hc => hs c (by simp [hc])
    simp [List.takeWhile, List.dropWhile, h1, h2]

theorem dropWhile_noHead (p : Char → Bool) (s : Str) : NoHead p (s.dropWhile p) := by
  induction s with
  | nil => exact noHead_nil p
  | cons c s ih =>
    by_cases h : p c = true
    · simpa [List.dropWhile, h] using ih
    · have h : p c = false := by simpa using h
      simp only [List.dropWhile, h]
      exact noHead_cons.2 h

theorem takeWhile_all (p : Char → Bool) (s : Str) : ∀ c ∈ s.takeWhile p, p c = true := by
  induction s with
  | nil => simp
  | cons c s ih =>
    by_cases h : p c = true
    · simp only [List.takeWhile, h, List.mem_cons]
      rintro x (rfl | hx)
      · exact h
      · exact ih x hx
    · have h : p c = false := by simpa using h
      simp [List.takeWhile, h]

theorem isSpace_iff (c : Char) : isSpace c = true ↔ c = ' ' ∨ c = '\t' := by
  simp [isSpace]

theorem spaces_iff (s : Str) : Spaces s ↔ ∀ c ∈ s, isSpace c = true := by
  simp only [Spaces, isSpace_iff]

/-! ## What each combinator accepts -/

theorem map_some {p : P α} {f : α → β} {i r : Str} {b : β} : map p f i = some (r, b) ↔ ∃ a, p i = some (r, a) ∧ f a = b := by
  unfold map
  cases h : p i with
  | none => simp
  | some x => obtain ⟨r', a⟩ := x; simp [and_comm, eq_comm]

theorem map_none {p : P α} {f : α → β} {i : Str} : map p f i = none ↔ p i = none := by
  unfold map
  cases h : p i with
  | none => simp
  | some x => obtain ⟨r', a⟩ := x; simp

theorem mapRes_some {p : P α} {f : α → Option β} {i r : Str} {b : β} :
    mapRes p f i = some (r, b) ↔ ∃ a, p i = some (r, a) ∧ f a = some b := by
  unfold mapRes
  cases h : p i with
  | none => simp
  | some x =>
    obtain ⟨r', a⟩ := x
    simp only [Option.some.injEq, Prod.mk.injEq]
    cases h2 : f a with
    | none =>
      simp only [reduceCtorEq, false_iff]
      rintro ⟨a', ⟨-, rfl⟩, h⟩
      rw [h2] at h; cases h
    | some b' =>
      simp only [Option.some.injEq, Prod.mk.injEq]
      constructor
      · rintro ⟨rfl, rfl⟩; exact ⟨a, ⟨rfl, rfl⟩, h2⟩
      · rintro ⟨a', ⟨rfl, rfl⟩, h⟩
        rw [h2] at h
        exact ⟨rfl, by simpa using h⟩

theorem pair_some {p : P α} {q : P β} {i r : Str} {x : α × β} :
    pair p q i = some (r, x) ↔ ∃ r1, p i = some (r1, x.1) ∧ q r1 = some (r, x.2) := by
  unfold pair
  cases h : p i with
  | none => simp
  | some y =>
    obtain ⟨r', a⟩ := y
    simp only [Option.some.injEq, Prod.mk.injEq]
    cases h2 : q r' with
    | none =>
      simp only [reduceCtorEq, false_iff]
      rintro ⟨r1, ⟨rfl, -⟩, h⟩
      rw [h2] at h; cases h
    | some z =>
      obtain ⟨r'', b⟩ := z
      obtain ⟨x1, x2⟩ := x
      simp only [Option.some.injEq, Prod.mk.injEq]
      constructor
      · rintro ⟨rfl, rfl, rfl⟩; exact ⟨r', ⟨rfl, rfl⟩, h2⟩
      · rintro ⟨r1, ⟨rfl, rfl⟩, h⟩
        rw [h2] at h
        simp only [Option.some.injEq, Prod.mk.injEq] at h
        exact ⟨h.1, rfl, h.2⟩

theorem pair_none_left {p : P α} {q : P β} {i : Str} (h : p i = none) : pair p q i = none := by
  simp [pair, h]

theorem pair_none_right {p : P α} {q : P β} {i r : Str} {a : α} (h : p i = some (r, a)) (h2 : q r = none) :
    pair p q i = none := by
  simp [pair, h, h2]

theorem pair_of {p : P α} {q : P β} {i r r' : Str} {a : α} {b : β} (h : p i = some (r, a)) (h2 : q r = some (r', b)) :
    pair p q i = some (r', (a, b)) := by
  simp [pair, h, h2]

theorem map_of {p : P α} {f : α → β} {i r : Str} {a : α} (h : p i = some (r, a)) : map p f i = some (r, f a) := by
  simp [map, h]

theorem preceded_some {p : P α} {q : P β} {i r : Str} {b : β} :
    preceded p q i = some (r, b) ↔ ∃ r1 a, p i = some (r1, a) ∧ q r1 = some (r, b) := by
  simp only [preceded, map_some, pair_some]
  constructor
  · rintro ⟨⟨a, b'⟩, ⟨r1, h1, h2⟩, rfl⟩; exact ⟨r1, a, h1, h2⟩
  · rintro ⟨r1, a, h1, h2⟩; exact ⟨(a, b), ⟨r1, h1, h2⟩, rfl⟩

theorem preceded_of {p : P α} {q : P β} {i r r' : Str} {a : α} {b : β} (h : p i = some (r, a)) (h2 : q r = some (r', b)) :
    preceded p q i = some (r', b) := preceded_some.2 ⟨r, a, h, h2⟩

theorem preceded_none_left {p : P α} {q : P β} {i : Str} (h : p i = none) : preceded p q i = none := by
  simp [preceded, map, pair, h]

theorem preceded_none_right {p : P α} {q : P β} {i r : Str} {a : α} (h : p i = some (r, a)) (h2 : q r = none) :
    preceded p q i = none := by
  simp [preceded, map, pair, h, h2]

theorem alt_some {p q : P α} {i : Str} {x : Str × α} : alt p q i = some x ↔ p i = some x ∨ p i = none ∧ q i = some x := by
  unfold alt
  cases h : p i <;> simp

theorem alt_left {p q : P α} {i : Str} {x : Str × α} (h : p i = some x) : alt p q i = some x := alt_some.2 (.inl h)

theorem alt_right {p q : P α} {i : Str} (h : p i = none) : alt p q i = q i := by simp [alt, h]

theorem opt_some {p : P α} {i r : Str} {o : Option α} : opt p i = some (r, o) ↔
    (∃ a, o = some a ∧ p i = some (r, a)) ∨ (o = none ∧ p i = none ∧ r = i) := by
  unfold opt
  cases h : p i with
  | none =>
    simp only [Option.some.injEq, Prod.mk.injEq, reduceCtorEq, and_false, exists_false, true_and, false_or]
    constructor
    · rintro ⟨rfl, rfl⟩; exact ⟨rfl, rfl⟩
    · rintro ⟨rfl, rfl⟩; exact ⟨rfl, rfl⟩
  | some x =>
    obtain ⟨r', a⟩ := x
    simp only [Option.some.injEq, Prod.mk.injEq, reduceCtorEq, false_and, and_false, or_false]
    constructor
    · rintro ⟨rfl, rfl⟩; exact ⟨a, rfl, rfl, rfl⟩
    · rintro ⟨a', rfl, rfl, rfl⟩; exact ⟨rfl, rfl⟩

theorem opt_of {p : P α} {i r : Str} {a : α} (h : p i = some (r, a)) : opt p i = some (r, some a) := by simp [opt, h]

theorem opt_none {p : P α} {i : Str} (h : p i = none) : opt p i = some (i, none) := by simp [opt, h]

/-! ## Characters -/

theorem tag_some {t i r x : Str} : tag t i = some (r, x) ↔ i = t ++ r ∧ x = t := by
  unfold tag
  split_ifs with h
  · rw [List.isPrefixOf_iff_prefix] at h
    obtain ⟨s, rfl⟩ := h
    simp [eq_comm]
  · simp only [reduceCtorEq, false_iff, not_and]
    rintro rfl
    exact absurd (List.isPrefixOf_iff_prefix.2 ⟨r, rfl⟩) h

theorem tag_of (t r : Str) : tag t (t ++ r) = some (r, t) := tag_some.2 ⟨rfl, rfl⟩

theorem tag_none {t i : Str} (h : ∀ r, i ≠ t ++ r) : tag t i = none := by
  cases hh : tag t i with
  | none => rfl
  | some x => exact absurd (tag_some.1 (show tag t i = some (x.1, x.2) from hh)).1 (h x.1)

/-- A tag does not match at another first character. -/
theorem tag_head {c : Char} {t i : Str} (h : NoHead (· == c) i) : tag (c :: t) i = none := by
  refine tag_none fun r hr => ?_
  have := h c (t ++ r) hr
  simp at this

theorem space0_of {sp r : Str} (hs : Spaces sp) (hr : NoHead isSpace r) : space0 (sp ++ r) = some (r, sp) := by
  obtain ⟨h1, h2⟩ := takeWhile_app isSpace sp r ((spaces_iff sp).1 hs) hr
  simp [space0, h1, h2]

theorem space1_of {sp r : Str} (hs : Spaces1 sp) (hr : NoHead isSpace r) : space1 (sp ++ r) = some (r, sp) := by
  obtain ⟨h1, h2⟩ := takeWhile_app isSpace sp r ((spaces_iff sp).1 hs.1) hr
  simp [space1, h1, h2, hs.2]

theorem space0_some {i r x : Str} (h : space0 i = some (r, x)) : Spaces x ∧ i = x ++ r ∧ NoHead isSpace r := by
  simp only [space0, Option.some.injEq, Prod.mk.injEq] at h
  obtain ⟨rfl, rfl⟩ := h
  exact ⟨(spaces_iff _).2 (takeWhile_all isSpace i), List.takeWhile_append_dropWhile.symm, dropWhile_noHead isSpace i⟩

theorem space1_some {i r x : Str} (h : space1 i = some (r, x)) : Spaces1 x ∧ i = x ++ r ∧ NoHead isSpace r := by
  unfold space1 at h
  split_ifs at h with h1
  obtain ⟨h2, h3, h4⟩ := space0_some h
  refine ⟨⟨h2, ?_⟩, h3, h4⟩
  simp only [Option.some.injEq, Prod.mk.injEq] at h
  rw [← h.2]
  simpa using h1

theorem space1_none {i : Str} (h : NoHead isSpace i) : space1 i = none := by
  have := (takeWhile_app isSpace [] i (by simp) h).1
  simp only [List.nil_append] at this
  simp [space1, this]

/-! ## Lists with separators -/

section sep
variable {α σ : Type} {sep : P σ} {f : P α} {Sep : Str → Prop} {E L : Str → α → Prop} {Stop : Str → Prop}

/-- The texts that `sepLoop` reads are sequences of separators and elements. -/
theorem sepLoop_sound
    (hsep : ∀ i r x, sep i = some (r, x) → ∃ m, i = m ++ r ∧ Sep m)
    (hf : ∀ i r a, f i = some (r, a) → ∃ s, i = s ++ r ∧ (E s a ∨ L s a ∧ Stop r))
    (hstop : ∀ r, Stop r → sep r = none) :
    ∀ fuel i acc r l, sepLoop sep f fuel i acc = some (r, l) → ∃ l', l = acc.reverse ++ l' ∧
      (l' = [] ∧ r = i ∨ ∃ m t, i = m ++ (t ++ r) ∧ Sep m ∧ (SepText Sep E E t l' ∨ SepText Sep E L t l' ∧ Stop r)) := by
  intro fuel
  induction fuel with
  | zero => intro i acc r l h; simp [sepLoop] at h
  | succ fuel ih =>
    intro i acc r l h
    unfold sepLoop at h
    cases h1 : sep i with
    | none =>
      rw [h1] at h
      simp only [Option.some.injEq, Prod.mk.injEq] at h
      exact ⟨[], by simp [h.2], .inl ⟨rfl, h.1.symm⟩⟩
    | some x =>
      obtain ⟨i1, y⟩ := x
      rw [h1] at h
      simp only at h
      split_ifs at h with h2
      cases h3 : f i1 with
      | none =>
        rw [h3] at h
        simp only [Option.some.injEq, Prod.mk.injEq] at h
        exact ⟨[], by simp [h.2], .inl ⟨rfl, h.1.symm⟩⟩
      | some z =>
        obtain ⟨i2, o⟩ := z
        rw [h3] at h
        simp only at h
        split_ifs at h with h4
        obtain ⟨m, rfl, hm⟩ := hsep _ _ _ h1
        obtain ⟨s, rfl, hs⟩ := hf _ _ _ h3
        obtain ⟨l', hl, h5⟩ := ih _ _ _ _ h
        refine ⟨o :: l', by simp [hl], .inr ?_⟩
        rcases h5 with ⟨rfl, rfl⟩ | ⟨m', t, rfl, hm', ht⟩
        · refine ⟨m, s, rfl, hm, ?_⟩
          rcases hs with hs | ⟨hs, hst⟩
          · exact .inl (.last hs)
          · exact .inr ⟨.last hs, hst⟩
        · refine ⟨m, s ++ (m' ++ t), by simp, hm, ?_⟩
          have hE : E s o := by
            rcases hs with hs | ⟨hs, hst⟩
            · exact hs
            · exfalso
              have := hstop _ hst
              cases fuel with
              | zero => simp [sepLoop] at h
              | succ fuel =>
                unfold sepLoop at h
                rw [this] at h
                simp only [Option.some.injEq, Prod.mk.injEq, List.reverse_cons] at h
                have hl2 := h.2
                rw [hl] at hl2
                have : l' = [] := by simpa using hl2.symm
                subst this
                rcases ht with ht | ⟨ht, -⟩ <;> cases ht
          rcases ht with ht | ⟨ht, hst⟩
          · exact .inl (.cons hE hm' ht)
          · exact .inr ⟨.cons hE hm' ht, hst⟩

theorem separatedNonemptyList_sound
    (hsep : ∀ i r x, sep i = some (r, x) → ∃ m, i = m ++ r ∧ Sep m)
    (hf : ∀ i r a, f i = some (r, a) → ∃ s, i = s ++ r ∧ (E s a ∨ L s a ∧ Stop r))
    (hstop : ∀ r, Stop r → sep r = none) {i r : Str} {l : List α} (h : separatedNonemptyList sep f i = some (r, l)) :
    ∃ t, i = t ++ r ∧ (SepText Sep E E t l ∨ SepText Sep E L t l ∧ Stop r) := by
  unfold separatedNonemptyList at h
  cases h1 : f i with
  | none => rw [h1] at h; cases h
  | some x =>
    obtain ⟨i1, o⟩ := x
    rw [h1] at h
    simp only at h
    split_ifs at h with h2
    obtain ⟨s, rfl, hs⟩ := hf _ _ _ h1
    obtain ⟨l', hl, h5⟩ := sepLoop_sound hsep hf hstop _ _ _ _ _ h
    simp only [List.reverse_cons, List.reverse_nil, List.nil_append, List.singleton_append] at hl
    rcases h5 with ⟨rfl, rfl⟩ | ⟨m', t, rfl, hm', ht⟩
    · refine ⟨s, rfl, ?_⟩
      subst hl
      rcases hs with hs | ⟨hs, hst⟩
      · exact .inl (.last hs)
      · exact .inr ⟨.last hs, hst⟩
    · refine ⟨s ++ (m' ++ t), by simp, ?_⟩
      have hE : E s o := by
        rcases hs with hs | ⟨hs, hst⟩
        · exact hs
        · exfalso
          have := hstop _ hst
          unfold sepLoop at h
          rw [this] at h
          simp only [Option.some.injEq, Prod.mk.injEq, List.reverse_cons] at h
          have hl2 := h.2
          rw [hl] at hl2
          have : l' = [] := by simpa using hl2.symm
          subst this
          rcases ht with ht | ⟨ht, -⟩ <;> cases ht
      subst hl
      rcases ht with ht | ⟨ht, hst⟩
      · exact .inl (.cons hE hm' ht)
      · exact .inr ⟨.cons hE hm' ht, hst⟩

/-- The loop reads such a sequence, up to a rest that it cannot continue with. -/
theorem sepLoop_complete {r : Str} {Fol : Str → Prop}
    (hE : ∀ s a r, E s a → Fol r → f (s ++ r) = some (r, a))
    (hL : ∀ s a, L s a → f (s ++ r) = some (r, a))
    (hEne : ∀ s a, E s a → s ≠ []) (hLne : ∀ s a, L s a → s ≠ [])
    (hsep : ∀ m s a r, Sep m → (E s a ∨ L s a) → ∃ x, sep (m ++ (s ++ r)) = some (s ++ r, x))
    (hSne : ∀ m, Sep m → m ≠ [])
    (hFol : ∀ m s a r, Sep m → (E s a ∨ L s a) → Fol (m ++ (s ++ r)))
    (hend : sep r = none ∨ ∃ i1 x, sep r = some (i1, x) ∧ i1 ≠ r ∧ f i1 = none)
    {t : Str} {l : List α} (h : SepText Sep E L t l) :
    ∀ m acc fuel, Sep m → (m ++ (t ++ r)).length < fuel → sepLoop sep f fuel (m ++ (t ++ r)) acc = some (r, acc.reverse ++ l) := by
  have hlast : ∀ acc fuel, 0 < fuel → sepLoop sep f fuel r acc = some (r, acc.reverse) := by
    intro acc fuel hfuel
    obtain ⟨fuel, rfl⟩ : ∃ k, fuel = k + 1 := ⟨fuel - 1, by omega⟩
    unfold sepLoop
    rcases hend with h | ⟨i1, x, h, h2, h3⟩
    · rw [h]
    · rw [h]
      simp only [h3]
      rw [if_neg (by simpa using h2)]
  have app_ne : ∀ (m x : Str), m ≠ [] → x ≠ m ++ x := by
    intro m x hm he
    have := congrArg List.length he
    rw [List.length_append] at this
    exact hm (List.length_eq_zero_iff.1 (by omega))
  induction h with
  | @last s a hs =>
    intro m acc fuel hm hfuel
    obtain ⟨fuel, rfl⟩ : ∃ k, fuel = k + 1 := ⟨fuel - 1, by omega⟩
    obtain ⟨x, hx⟩ := hsep m s a r hm (.inr hs)
    unfold sepLoop
    rw [hx]
    simp only [hL s a hs]
    rw [if_neg (by simpa using hSne m hm), if_neg]
    · rw [hlast _ _ (by simp only [List.length_append] at hfuel; have := List.length_pos_of_ne_nil (hSne m hm); omega)]
      simp
    · have := app_ne (m ++ s) r (by simp [hSne m hm])
      simpa [List.append_assoc] using this
  | @cons s m' t a l hs hm' ht ih =>
    intro m acc fuel hm hfuel
    obtain ⟨fuel, rfl⟩ : ∃ k, fuel = k + 1 := ⟨fuel - 1, by omega⟩
    obtain ⟨x, hx⟩ := hsep m s a (m' ++ (t ++ r)) hm (.inl hs)
    have e : m ++ ((s ++ (m' ++ t)) ++ r) = m ++ (s ++ (m' ++ (t ++ r))) := by simp
    rw [e] at hfuel ⊢
    unfold sepLoop
    rw [hx]
    have hF : Fol (m' ++ (t ++ r)) := by
      cases ht with
      | last h => exact hFol _ _ _ _ hm' (.inr h)
      | cons h _ _ => rw [List.append_assoc]; exact hFol _ _ _ _ hm' (.inl h)
    simp only [hE s a _ hs hF]
    rw [if_neg (by simpa using hSne m hm), if_neg]
    · rw [ih m' (a :: acc) fuel hm' (by
        simp only [List.length_append] at hfuel ⊢
        have := List.length_pos_of_ne_nil (hSne m hm)
        omega)]
      simp
    · have := app_ne (m ++ s) (m' ++ (t ++ r)) (by simp [hSne m hm])
      simpa [List.append_assoc] using this

theorem separatedNonemptyList_complete {r : Str} {Fol : Str → Prop}
    (hE : ∀ s a r, E s a → Fol r → f (s ++ r) = some (r, a))
    (hL : ∀ s a, L s a → f (s ++ r) = some (r, a))
    (hEne : ∀ s a, E s a → s ≠ []) (hLne : ∀ s a, L s a → s ≠ [])
    (hsep : ∀ m s a r, Sep m → (E s a ∨ L s a) → ∃ x, sep (m ++ (s ++ r)) = some (s ++ r, x))
    (hSne : ∀ m, Sep m → m ≠ [])
    (hFol : ∀ m s a r, Sep m → (E s a ∨ L s a) → Fol (m ++ (s ++ r)))
    (hend : sep r = none ∨ ∃ i1 x, sep r = some (i1, x) ∧ i1 ≠ r ∧ f i1 = none)
    {t : Str} {l : List α} (h : SepText Sep E L t l) :
    separatedNonemptyList sep f (t ++ r) = some (r, l) ∧ separatedList sep f (t ++ r) = some (r, l) := by
  have key : ∃ i1 o, f (t ++ r) = some (i1, o) ∧ i1 ≠ t ++ r ∧ sepLoop sep f (i1.length + 1) i1 [o] = some (r, l) := by
    have app_ne : ∀ (m x : Str), m ≠ [] → x ≠ m ++ x := by
      intro m x hm he
      have := congrArg List.length he
      rw [List.length_append] at this
      exact hm (List.length_eq_zero_iff.1 (by omega))
    cases h with
    | @last s a hs =>
      refine ⟨r, a, hL _ _ hs, app_ne _ _ (hLne _ _ hs), ?_⟩
      unfold sepLoop
      rcases hend with h | ⟨i1, x, h, h2, h3⟩
      · rw [h]; rfl
      · rw [h]
        simp only [h3]
        rw [if_neg (by simpa using h2)]; rfl
    | @cons s m t a l hs hm ht =>
      have hF : Fol (m ++ (t ++ r)) := by
        cases ht with
        | last h => exact hFol _ _ _ _ hm (.inr h)
        | cons h _ _ => rw [List.append_assoc]; exact hFol _ _ _ _ hm (.inl h)
      have e : (s ++ (m ++ t)) ++ r = s ++ (m ++ (t ++ r)) := by simp
      refine ⟨m ++ (t ++ r), a, by rw [e]; exact hE _ _ _ hs hF, ?_, ?_⟩
      · rw [e]; exact app_ne _ _ (hEne _ _ hs)
      · have := sepLoop_complete hE hL hEne hLne hsep hSne hFol hend ht m [a] _ hm (Nat.lt_succ_self _)
        rw [this]; rfl
  obtain ⟨i1, o, h1, h2, h3⟩ := key
  unfold separatedNonemptyList separatedList
  rw [h1]
  simp only
  rw [if_neg (by simpa using h2)]
  exact ⟨h3, h3⟩

end sep

theorem SepText.mono {α : Type} {Sep : Str → Prop} {E L E' L' : Str → α → Prop} (hE : ∀ s a, E s a → E' s a)
    (hL : ∀ s a, L s a → L' s a) {t : Str} {l : List α} (h : SepText Sep E L t l) : SepText Sep E' L' t l := by
  induction h with
  | last h => exact .last (hL _ _ h)
  | cons h1 h2 _ ih => exact .cons (hE _ _ h1) h2 ih

theorem SepText.ne_nil {α : Type} {Sep : Str → Prop} {E L : Str → α → Prop} {t : Str} {l : List α}
    (h : SepText Sep E L t l) : l ≠ [] := by cases h <;> simp

/-- The first element of the text. -/
theorem SepText.head {α : Type} {Sep : Str → Prop} {E L : Str → α → Prop} {t : Str} {l : List α}
    (h : SepText Sep E L t l) : ∃ s a r, t = s ++ r ∧ (E s a ∨ L s a) := by
  cases h with
  | last h => exact ⟨_, _, [], by simp, .inr h⟩
  | cons h _ _ => exact ⟨_, _, _, rfl, .inl h⟩

/-- Where the separator and the element consume input, the loop ends with a list before the fuel does. -/
theorem sepLoop_fuel {σ α : Type} {sep : P σ} {f : P α} (hsep : ∀ i r x, sep i = some (r, x) → r.length < i.length)
    (hf : ∀ i r x, f i = some (r, x) → r.length < i.length) :
    ∀ (fuel : Nat) (i : Str) (acc : List α), i.length < fuel → ∃ r l, sepLoop sep f fuel i acc = some (r, l) := by
  intro fuel
  induction fuel with
  | zero => intro i acc h; omega
  | succ n ih =>
    intro i acc h
    unfold sepLoop
    cases h1 : sep i with
    | none => exact ⟨_, _, rfl⟩
    | some x =>
      obtain ⟨i1, x⟩ := x
      have l1 := hsep _ _ _ h1
      have n1 : (i1 == i) = false := by
        rw [beq_eq_false_iff_ne]; rintro rfl; omega
      simp only [n1]
      cases h2 : f i1 with
      | none => exact ⟨_, _, rfl⟩
      | some y =>
        obtain ⟨i2, o⟩ := y
        have l2 := hf _ _ _ h2
        have n2 : (i2 == i) = false := by
          rw [beq_eq_false_iff_ne]; rintro rfl; omega
        simp only [n2]
        exact ih i2 _ (by omega)

theorem separatedNonemptyList_total {σ α : Type} {sep : P σ} {f : P α} (hsep : ∀ i r x, sep i = some (r, x) → r.length < i.length)
    (hf : ∀ i r x, f i = some (r, x) → r.length < i.length) {i r : Str} {a : α} (h : f i = some (r, a)) :
    ∃ r' l, separatedNonemptyList sep f i = some (r', l) ∧ separatedList sep f i = some (r', l) := by
  have l1 := hf _ _ _ h
  have n1 : (r == i) = false := by
    rw [beq_eq_false_iff_ne]; rintro rfl; omega
  obtain ⟨r', l, h'⟩ := sepLoop_fuel hsep hf (r.length + 1) r [a] (by omega)
  refine ⟨r', l, ?_, ?_⟩
  · simp only [separatedNonemptyList, h, n1]; exact h'
  · simp only [separatedList, h, n1]; exact h'

end Verif.Nom
