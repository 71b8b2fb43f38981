import Verif.Lemmas.Ids
import Verif.Props.Locales
import Verif.Props.Tables

/-! # C91: texts of language identifiers -/

namespace Verif.Props
open Verif Verif.Spec Verif.Ids Api

/-- C91: which texts are identifiers, and which identifier each of them is. -/
theorem C91_texts (s : Str) (id : LangId) : LangId.parse s = some id ↔ IdText s id := parse_some

/-- C91: the case of letters and the choice of separator do not matter. -/
theorem C91_fold (s s' : Str) (h : SameSpelling s s') : LangId.parse s = LangId.parse s' := by
  rw [← parse_fold s, ← parse_fold s', show s.map foldChar = s'.map foldChar from h]

example : LangId.parse c!"ZH_hANT-tw" = LangId.parse c!"zh-Hant-TW" := C91_fold _ _ (by unfold SameSpelling; decide +kernel)

/-- C91: and nothing else is ignored, as long as there are no variants. -/
theorem C91_one_spelling (s s' : Str) (id : LangId) (hv : id.variants = none)
    (h : LangId.parse s = some id) (h' : LangId.parse s' = some id) : SameSpelling s s' := by
  obtain ⟨l, sc, rg, vs, hj, hl, hsc, hrg, hvs, el, esc, erg, evs⟩ := parse_some.1 h
  obtain ⟨l', sc', rg', vs', hj', hl', hsc', hrg', hvs', el', esc', erg', evs'⟩ := parse_some.1 h'
  rw [hv] at evs evs'
  have nv : vs = [] := by simpa [StoredVariants] using evs
  have nv' : vs' = [] := by simpa [StoredVariants] using evs'
  subst nv nv'
  have e1 : lower l = lower l' := by
    rcases el with ⟨a, b⟩ | ⟨a, b⟩ <;> rcases el' with ⟨a', b'⟩ | ⟨a', b'⟩
    · rw [a, a']
    · rw [b] at b'; cases b'
    · rw [b] at b'; cases b'
    · rw [b] at b'; simpa using b'
  have e2 : sc.map lower = sc'.map lower := by
    have := congrArg (Option.map lower) (esc.symm.trans esc')
    rw [Option.map_map, Option.map_map, show lower ∘ title = lower from funext lower_title] at this
    exact this
  have e3 : rg.map lower = rg'.map lower := by
    have := congrArg (Option.map lower) (erg.symm.trans erg')
    rw [Option.map_map, Option.map_map, show lower ∘ upper = lower from funext lower_upper] at this
    exact this
  refine joined_fold hj hj' ?_
  have fl : ∀ (l : Str) (sc rg : Option Str), LanguageTag l → (∀ x ∈ sc, ScriptTag x) → (∀ x ∈ rg, RegionTag x) →
      (l :: (sc.toList ++ (rg.toList ++ []))).map (·.map foldChar) =
        lower l :: ((sc.map lower).toList ++ (rg.map lower).toList) := by
    intro l sc rg hl hs hr
    have a := fold_lower (tag_nosep (.inl hl))
    have b : ∀ x ∈ sc, x.map foldChar = lower x := fun x hx => fold_lower (tag_nosep (.inr (.inl (hs x hx))))
    have c : ∀ x ∈ rg, x.map foldChar = lower x := fun x hx => fold_lower (tag_nosep (.inr (.inr (.inl (hr x hx)))))
    cases sc <;> cases rg <;> simp_all
  rw [fl l sc rg hl hsc hrg, fl l' sc' rg' hl' hsc' hrg', e1, e2, e3]

example (s : Str) (h : LangId.parse s = some ⟨some c!"zh", some c!"Hant", none, none⟩) : SameSpelling s c!"zh-Hant" :=
  C91_one_spelling s _ _ rfl h (by decide +kernel)

/-- C91: a text leads to plural rules exactly if it is the name of a locale in the CLDR file, up to spelling. -/
theorem C91_create (s : Str) (t : PluralRuleType) :
    (∃ id pr, LangId.parse s = some id ∧ create id t = .ok pr) ↔
      ∃ p ∈ cldrData t, p.1 ≠ c!"root" ∧ SameSpelling s p.1 := by
  constructor
  · rintro ⟨id, pr, hs, hc⟩
    have hv : id.variants = none := by
      refine Classical.byContradiction fun hv => ?_
      have := C04_no_fallback id t (.inr (.inr (.inl hv)))
      rw [hc] at this; cases this
    obtain ⟨p, hp, hr, he⟩ := ((C21_locales_are_keys t).1 id).1 ((C01_create_iff_listed id t).1.1 ⟨pr, hc⟩)
    exact ⟨p, hp, hr, C91_one_spelling s p.1 id hv hs he⟩
  · rintro ⟨p, hp, hr, he⟩
    obtain ⟨id, hid⟩ := Option.ne_none_iff_exists'.1 ((C21_locales_are_keys t).2.1 p hp hr)
    obtain ⟨pr, hpr⟩ := (C01_create_iff_listed id t).1.2 (((C21_locales_are_keys t).1 id).2 ⟨p, hp, hr, hid⟩)
    exact ⟨id, pr, (C91_fold s p.1 he).trans hid, hpr⟩

/-- Texts of C91: with a script and a region, `und`, and texts that are not identifiers. -/
example : LangId.parse c!"ZH_hANT-tw" = some ⟨some c!"zh", some c!"Hant", some c!"TW", none⟩ ∧
    LangId.parse c!"UND-419" = some ⟨none, none, some c!"419", none⟩ ∧
    LangId.parse c!"sl-rozaj-1994-rozaj" = some ⟨some c!"sl", none, none, some [c!"1994", c!"rozaj"]⟩ ∧
    LangId.parse c!"" = none ∧ LangId.parse c!"e" = none ∧ LangId.parse c!"latn" = none ∧
    LangId.parse c!"en-" = none ∧ LangId.parse c!"en-US-Latn" = none ∧ LangId.parse c!"en-u-nu-latn" = none := by
  decide +kernel

/-- Other spellings of listed names lead to plural rules; longer names do not. -/
example : SameSpelling c!"PT_pt" c!"pt-PT" ∧
    ((LangId.parse c!"PT_pt").bind fun id => (create id .CARDINAL).toOption).isSome = true ∧
    ((LangId.parse c!"PL").bind fun id => (create id .ORDINAL).toOption).isSome = true ∧
    ((LangId.parse c!"en-US").bind fun id => (create id .CARDINAL).toOption).isSome = false ∧
    ((LangId.parse c!"root").bind fun id => (create id .CARDINAL).toOption).isSome = false := by
  unfold SameSpelling; decide +kernel

/-- With variants there are more texts of one identifier, so the condition of `C91_one_spelling` is needed. -/
example : LangId.parse c!"sl-rozaj-1994" = LangId.parse c!"sl-1994-rozaj" ∧ LangId.parse c!"sl-rozaj-1994" ≠ none ∧
    ¬ SameSpelling c!"sl-rozaj-1994" c!"sl-1994-rozaj" := by
  unfold SameSpelling; decide +kernel

end Verif.Props
