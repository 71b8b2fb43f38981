import Verif.Props.Locales

/-!
# C106: codes for one language

A few languages have an old and a new code, or a code for a group and codes of its members.  The answers for the two codes are the
same; the tables may lack one of them.
-/

namespace Verif.Props
open Verif Rust Api PluralOperands

/-- The replaced code and the code in use (ISO 639: Hebrew, Indonesian, Yiddish, Javanese, Moldavian, Tagalog), and Serbo-Croatian with
its three members. -/
def oldCodes : List (Str × Str) :=
  [(c!"iw", c!"he"), (c!"in", c!"id"), (c!"ji", c!"yi"), (c!"jw", c!"jv"), (c!"mo", c!"ro"), (c!"tl", c!"fil"),
   (c!"sh", c!"sr"), (c!"sh", c!"hr"), (c!"sh", c!"bs")]

/-- A language code without script, region and variants. -/
def ofCode (s : Str) : LangId := ⟨some s, none, none, none⟩

/-- The code that `create` finds for a language code. -/
def codeFor (s : Str) (t : PluralRuleType) : Option Closure := (create (ofCode s) t).toOption.map (·.function)

theorem codeFor_ok {s : Str} {t : PluralRuleType} {pr : PluralRules} (h : create (ofCode s) t = .ok pr) :
    codeFor s t = some pr.function := by
  simp only [codeFor, h]; rfl

theorem codeFor_some {s : Str} {t : PluralRuleType} {f : Closure} (h : codeFor s t = some f) :
    ∃ pr, create (ofCode s) t = .ok pr ∧ pr.function = f := by
  unfold codeFor at h
  cases e : create (ofCode s) t with
  | error x => rw [e] at h; cases h
  | ok pr => rw [e] at h; exact ⟨pr, rfl, Option.some.inj h⟩

theorem same_code {s s' : Str} {t : PluralRuleType} (e : codeFor s t = codeFor s' t) :
    ((∃ pr, create (ofCode s) t = .ok pr) ↔ ∃ pr, create (ofCode s') t = .ok pr) ∧
    ∀ pr pr', create (ofCode s) t = .ok pr → create (ofCode s') t = .ok pr' →
      ∀ {ε : Type} (ops : Except ε PluralOperands), select pr ops = select pr' ops := by
  refine ⟨⟨fun ⟨pr, h⟩ => ?_, fun ⟨pr, h⟩ => ?_⟩, fun pr pr' h h' ε ops => ?_⟩
  · obtain ⟨p, hp, _⟩ := codeFor_some (e ▸ codeFor_ok h); exact ⟨p, hp⟩
  · obtain ⟨p, hp, _⟩ := codeFor_some (e.symm ▸ codeFor_ok h); exact ⟨p, hp⟩
  · have : pr.function = pr'.function := Option.some.inj ((codeFor_ok h).symm.trans (e.trans (codeFor_ok h')))
    cases ops <;> simp only [select, this]

theorem oldCodes_checked : ∀ t ∈ [PluralRuleType.CARDINAL, .ORDINAL], ∀ p ∈ oldCodes, codeFor p.1 t = codeFor p.2 t := by
  decide +kernel

/-- C106: the old and the new code of a language, and Serbo-Croatian and its members, are both listed or both not, and get the same
answers for all inputs, for cardinal and for ordinal numbers. -/
theorem C106_old_codes (t : PluralRuleType) (p : Str × Str) (hp : p ∈ oldCodes) :
    ((∃ pr, create (ofCode p.1) t = .ok pr) ↔ ∃ pr, create (ofCode p.2) t = .ok pr) ∧
    ∀ pr pr', create (ofCode p.1) t = .ok pr → create (ofCode p.2) t = .ok pr' →
      ∀ {ε : Type} (ops : Except ε PluralOperands), select pr ops = select pr' ops :=
  same_code (oldCodes_checked t (by cases t <;> simp) p hp)

/-- Hebrew: both codes are listed, and 2 is TWO for both. -/
example : ((create (ofCode c!"iw") .CARDINAL).toOption.map fun pr => (select pr (tryFromStr c!"2")).bind (·.toOption)) =
      some (some .TWO) ∧
    ((create (ofCode c!"he") .CARDINAL).toOption.map fun pr => (select pr (tryFromStr c!"2")).bind (·.toOption)) =
      some (some .TWO) := by
  decide +kernel

theorem norwegian_checked : codeFor c!"no" .CARDINAL = codeFor c!"nb" .CARDINAL ∧ codeFor c!"no" .CARDINAL = codeFor c!"nn" .CARDINAL ∧
    codeFor c!"no" .ORDINAL = none ∧ codeFor c!"nn" .ORDINAL = none ∧ (codeFor c!"nb" .ORDINAL).isSome := by
  decide +kernel

/-- C106: Norwegian, Bokmål and Nynorsk get the same answers for cardinal numbers, but only Bokmål has ordinal rules: with the codes
`no` and `nn` `create` fails. -/
theorem C106_norwegian :
    (∀ s ∈ [c!"nb", c!"nn"], ∃ pr pr', create (ofCode c!"no") .CARDINAL = .ok pr ∧ create (ofCode s) .CARDINAL = .ok pr' ∧
      ∀ {ε : Type} (ops : Except ε PluralOperands), select pr ops = select pr' ops) ∧
    (∃ pr, create (ofCode c!"nb") .ORDINAL = .ok pr) ∧
    ∀ s ∈ [c!"no", c!"nn"], create (ofCode s) .ORDINAL = .error c!"unknown locale" := by
  obtain ⟨h1, h2, h3, h4, h5⟩ := norwegian_checked
  have listed : ∀ {s t}, (codeFor s t).isSome → ∃ pr, create (ofCode s) t = .ok pr := fun h => by
    obtain ⟨f, hf⟩ := Option.isSome_iff_exists.1 h
    obtain ⟨pr, hp, _⟩ := codeFor_some hf
    exact ⟨pr, hp⟩
  obtain ⟨pr, hpr⟩ := listed (s := c!"no") (t := .CARDINAL) (by decide +kernel)
  have both : ∀ s, codeFor c!"no" .CARDINAL = codeFor s .CARDINAL → ∃ pr pr', create (ofCode c!"no") .CARDINAL = .ok pr ∧
      create (ofCode s) .CARDINAL = .ok pr' ∧ ∀ {ε : Type} (ops : Except ε PluralOperands), select pr ops = select pr' ops := by
    intro s e
    obtain ⟨pr', hpr'⟩ := (same_code e).1.1 ⟨pr, hpr⟩
    exact ⟨pr, pr', hpr, hpr', (same_code e).2 pr pr' hpr hpr'⟩
  have lacks : ∀ s, codeFor s .ORDINAL = none → create (ofCode s) .ORDINAL = .error c!"unknown locale" := by
    intro s e
    refine (C01_create_iff_listed _ _).2.1 fun hm => ?_
    obtain ⟨p, hp⟩ := (C01_create_iff_listed _ _).1.2 hm
    rw [codeFor_ok hp] at e; cases e
  refine ⟨fun s hs => ?_, listed h5, fun s hs => ?_⟩
  · rcases (by simpa using hs : s = _ ∨ s = _) with rfl | rfl
    · exact both _ h1
    · exact both _ h2
  · rcases (by simpa using hs : s = _ ∨ s = _) with rfl | rfl
    · exact lacks _ h3
    · exact lacks _ h4

theorem ordinals_listed : ∀ id ∈ getLocales .ORDINAL, id ∈ getLocales .CARDINAL := by decide +kernel

/-- C106: every locale with ordinal rules has cardinal rules. -/
theorem C106_ordinal (id : LangId) (pr : PluralRules) (h : create id .ORDINAL = .ok pr) : ∃ pr', create id .CARDINAL = .ok pr' :=
  (C01_create_iff_listed id .CARDINAL).1.2 (ordinals_listed id ((C01_create_iff_listed id .ORDINAL).1.1 ⟨pr, h⟩))

/-- 115 locales have cardinal rules only; Polish has both. -/
example : ((getLocales .CARDINAL).filter fun id => id ∉ getLocales .ORDINAL).length = 115 ∧
    ofCode c!"pl" ∈ getLocales .ORDINAL := by
  decide +kernel

end Verif.Props
