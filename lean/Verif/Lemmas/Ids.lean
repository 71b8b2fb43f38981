import Verif.IdSpec
import Verif.Lemmas.Order
import Mathlib.Tactic.Tauto

/-! Helper lemmas for C91: parsing of language identifiers. -/

namespace Verif.Ids
open Verif Spec LangId

/-! ## Characters -/

theorem le_iff {a b : Char} : a ≤ b ↔ a.toNat ≤ b.toNat := by
  rw [Char.le_def, UInt32.le_iff_toNat_le]; rfl

theorem isAlpha_iff (c : Char) : isAlpha c = true ↔ Letter c := by
  simp only [isAlpha, Letter, le_iff, Bool.or_eq_true, Bool.and_eq_true, decide_eq_true_eq]

theorem isDigit_iff (c : Char) : isDigit c = true ↔ Numeral c := by
  simp only [isDigit, Numeral, le_iff, Bool.and_eq_true, decide_eq_true_eq]

theorem all_alpha {s : Str} : s.all isAlpha = true ↔ ∀ c ∈ s, Letter c := by
  simp only [List.all_eq_true, isAlpha_iff]

theorem all_digit {s : Str} : s.all isDigit = true ↔ ∀ c ∈ s, Numeral c := by
  simp only [List.all_eq_true, isDigit_iff]

theorem all_alnum {s : Str} : s.all (fun c => isAlpha c || isDigit c) = true ↔ ∀ c ∈ s, Letter c ∨ Numeral c := by
  simp only [List.all_eq_true, Bool.or_eq_true, isAlpha_iff, isDigit_iff]

/-- The ASCII characters, one by one. -/
theorem ascii_ind {P : Char → Prop} (h : ∀ n : Fin 128, P (Char.ofNat n.val)) (c : Char) (hc : c.toNat < 128) : P c := by
  have := h ⟨c.toNat, hc⟩
  simpa using this

theorem ge_of_not_ascii {c : Char} (h : ¬ c.toNat < 128) : lowerChar c = c ∧ upperChar c = c ∧ c.toLower = c ∧ c.toUpper = c := by
  have h1 : 'A'.toNat = 65 := rfl
  have h2 : 'Z'.toNat = 90 := rfl
  have h3 : 'a'.toNat = 97 := rfl
  have h4 : 'z'.toNat = 122 := rfl
  refine ⟨?_, ?_, ?_, ?_⟩
  · unfold lowerChar; rw [if_neg]; simp only [Bool.and_eq_true, decide_eq_true_eq]; omega
  · unfold upperChar; rw [if_neg]; simp only [Bool.and_eq_true, decide_eq_true_eq]; omega
  · unfold Char.toLower
    rw [dif_neg]
    rintro ⟨-, x⟩
    have : c.toNat ≤ 90 := UInt32.le_iff_toNat_le.1 x
    omega
  · unfold Char.toUpper
    rw [dif_neg]
    rintro ⟨-, x⟩
    have : c.toNat ≤ 122 := UInt32.le_iff_toNat_le.1 x
    omega

theorem lowerChar_eq (c : Char) : lowerChar c = c.toLower := by
  by_cases h : c.toNat < 128
  · exact ascii_ind (P := fun c => lowerChar c = c.toLower) (by decide +kernel) c h
  · rw [(ge_of_not_ascii h).1, (ge_of_not_ascii h).2.2.1]

theorem upperChar_eq (c : Char) : upperChar c = c.toUpper := by
  by_cases h : c.toNat < 128
  · exact ascii_ind (P := fun c => upperChar c = c.toUpper) (by decide +kernel) c h
  · rw [(ge_of_not_ascii h).2.1, (ge_of_not_ascii h).2.2.2]


theorem map_lower (s : Str) : s.map lowerChar = lower s := by
  unfold lower; congr 1; funext c; exact lowerChar_eq c

theorem map_upper (s : Str) : s.map upperChar = upper s := by
  unfold upper; congr 1; funext c; exact upperChar_eq c

/-! ## Subtags -/

theorem parseLanguage_some {s : Str} {o : Option Str} : parseLanguage s = some o ↔
    LanguageTag s ∧ (lower s = c!"und" ∧ o = none ∨ lower s ≠ c!"und" ∧ o = some (lower s)) := by
  unfold parseLanguage LanguageTag
  rw [← all_alpha, map_lower]
  split
  · rename_i h
    split
    · rename_i hu; simp only [hu, true_and, ne_eq, not_true, false_and, or_false, Option.some.injEq]
      exact ⟨fun e => ⟨h, e.symm⟩, fun e => e.2.symm⟩
    · rename_i hu; simp only [hu, false_and, false_or, ne_eq, not_false_eq_true, true_and, Option.some.injEq]
      exact ⟨fun e => ⟨h, e.symm⟩, fun e => e.2.symm⟩
  · rename_i h; exact ⟨fun e => (by cases e), fun e => absurd e.1 h⟩

theorem parseScript_some {s r : Str} : parseScript s = some r ↔ ScriptTag s ∧ r = title s := by
  unfold parseScript ScriptTag
  rw [← all_alpha]
  split
  · rename_i h
    cases s with
    | nil => simp at h
    | cons c t =>
      simp only [title, map_lower, upperChar_eq, Option.some.injEq]
      exact ⟨fun e => ⟨h, e.symm⟩, fun e => e.2.symm⟩
  · rename_i h; exact ⟨fun e => (by cases e), fun e => absurd e.1 h⟩

theorem upper_digits {s : Str} (h : ∀ c ∈ s, Numeral c) : upper s = s := by
  unfold upper
  refine (List.map_congr_left fun c hc => ?_).trans (List.map_id s)
  rw [id_eq]
  obtain ⟨h1, h2⟩ := h c hc
  rw [le_iff] at h1 h2
  have e : '9'.toNat = 57 := rfl
  exact ascii_ind (P := fun c => '0'.toNat ≤ c.toNat → c.toNat ≤ '9'.toNat → c.toUpper = c) (by decide +kernel) c (by omega) h1 h2

theorem parseRegion_some {s r : Str} : parseRegion s = some r ↔ RegionTag s ∧ r = upper s := by
  unfold parseRegion RegionTag
  rw [← all_alpha, ← all_digit, map_upper]
  split
  · rename_i h
    simp only [Option.some.injEq]
    exact ⟨fun e => ⟨.inl h, e.symm⟩, fun e => e.2.symm⟩
  · rename_i h
    split
    · rename_i h'
      simp only [Option.some.injEq, upper_digits (all_digit.1 h'.2)]
      exact ⟨fun e => ⟨.inr h', e.symm⟩, fun e => e.2.symm⟩
    · rename_i h'
      exact ⟨fun e => (by cases e), fun e => absurd e.1 (not_or.2 ⟨h, h'⟩)⟩

theorem parseVariant_some {s r : Str} : parseVariant s = some r ↔ VariantTag s ∧ r = lower s := by
  unfold parseVariant VariantTag
  have e : ((5 ≤ s.length ∧ s.length ≤ 8 ∧ s.all (fun c => isAlpha c || isDigit c) = true) ∨
      (s.length = 4 ∧ (s.head?.map isDigit) = some true ∧ s.all (fun c => isAlpha c || isDigit c) = true)) ↔
      ((5 ≤ s.length ∧ s.length ≤ 8 ∨ s.length = 4 ∧ ∃ c t, s = c :: t ∧ Numeral c) ∧ ∀ c ∈ s, Letter c ∨ Numeral c) := by
    rw [all_alnum]
    have : (s.head?.map isDigit) = some true ↔ ∃ c t, s = c :: t ∧ Numeral c := by
      cases s with
      | nil => simp
      | cons c t => simp [isDigit_iff]
    rw [this]
    tauto
  rw [← e, map_lower]
  split
  · rename_i h
    simp only [Option.some.injEq]
    exact ⟨fun x => ⟨h, x.symm⟩, fun x => x.2.symm⟩
  · rename_i h; exact ⟨fun e => (by cases e), fun e => absurd e.1 h⟩

theorem parseVariants_some {l r : List Str} : parseVariants l = some r ↔ (∀ x ∈ l, VariantTag x) ∧ r = l.map lower := by
  induction l generalizing r with
  | nil => simp [parseVariants, eq_comm]
  | cons x l ih =>
    unfold parseVariants
    cases hv : parseVariant x with
    | none =>
      have : ¬ VariantTag x := fun h => by rw [parseVariant_some.2 ⟨h, rfl⟩] at hv; cases hv
      simp [this]
    | some v =>
      obtain ⟨h1, rfl⟩ := parseVariant_some.1 hv
      cases hr : parseVariants l with
      | none =>
        have : ¬ ∀ x ∈ l, VariantTag x := fun h => by rw [ih.2 ⟨h, rfl⟩] at hr; cases hr
        simp only [List.mem_cons, forall_eq_or_imp, this, and_false, false_and, reduceCtorEq]
      | some vs =>
        obtain ⟨h2, rfl⟩ := ih.1 hr
        simp only [Option.some.injEq, List.mem_cons, forall_eq_or_imp, h1, true_and, List.map_cons]
        exact ⟨fun x => ⟨h2, x.symm⟩, fun x => x.2.symm⟩

/-! ## Stored variants -/

theorem cmpStr_lt {a b : Str} : cmpStr a b = .lt ↔ a < b := by
  induction a generalizing b with
  | nil => cases b <;> simp [cmpStr]
  | cons x s ih =>
    cases b with
    | nil => simp [cmpStr]
    | cons y t =>
      rw [cmpStr, List.cons_lt_cons_iff, ← ih, Char.lt_def, UInt32.lt_iff_toNat_lt, Char.toNat_val, Char.toNat_val]
      split
      · simp_all
      · rename_i h
        split
        · rename_i h'
          simp; exact ⟨by omega, by rintro rfl; omega⟩
        · have : x = y := Char.toNat_inj.mp (by omega)
          subst this
          simp

theorem insertStr_spec (x : Str) (l : List Str) (h : l.Pairwise (· < ·)) :
    (insertStr x l).Pairwise (· < ·) ∧ ∀ y, y ∈ insertStr x l ↔ y = x ∨ y ∈ l := by
  induction l with
  | nil => simp [insertStr]
  | cons z r ih =>
    obtain ⟨hz, hr⟩ := List.pairwise_cons.1 h
    unfold insertStr
    cases hc : cmpStr x z with
    | lt =>
      have hx := cmpStr_lt.1 hc
      refine ⟨List.pairwise_cons.2 ⟨fun y hy => ?_, h⟩, by simp⟩
      rcases List.mem_cons.1 hy with rfl | hy
      · exact hx
      · exact List.lt_trans hx (hz y hy)
    | eq =>
      have := (cmpStr_lawful.eq_iff x z).1 hc
      subst this
      exact ⟨h, by simp⟩
    | gt =>
      have hx := cmpStr_lt.1 ((cmpStr_lawful.gt_iff x z).1 hc)
      obtain ⟨h1, h2⟩ := ih hr
      refine ⟨List.pairwise_cons.2 ⟨fun y hy => ?_, h1⟩, fun y => ?_⟩
      · rcases (h2 y).1 hy with rfl | hy
        · exact hx
        · exact hz y hy
      · simp only [List.mem_cons, h2]; tauto

theorem foldr_spec (l : List Str) : (l.foldr insertStr []).Pairwise (· < ·) ∧ ∀ y, y ∈ l.foldr insertStr [] ↔ y ∈ l := by
  induction l with
  | nil => simp
  | cons x l ih =>
    obtain ⟨h1, h2⟩ := insertStr_spec x _ ih.1
    exact ⟨h1, fun y => by rw [List.foldr_cons, h2, ih.2, List.mem_cons]⟩

theorem str_lt_irrefl (a : Str) : ¬ a < a := fun h => by
  have := cmpStr_lt.2 h
  rw [cmpStr_lawful.refl] at this; cases this

theorem str_lt_asymm {a b : Str} (h : a < b) : ¬ b < a := fun h' => str_lt_irrefl a (List.lt_trans h h')

theorem sorted_ext {l m : List Str} (hl : l.Pairwise (· < ·)) (hm : m.Pairwise (· < ·)) (h : ∀ x, x ∈ l ↔ x ∈ m) : l = m := by
  induction l generalizing m with
  | nil =>
    cases m with
    | nil => rfl
    | cons y m => exact absurd ((h y).2 List.mem_cons_self) (by simp)
  | cons x l ih =>
    cases m with
    | nil => exact absurd ((h x).1 List.mem_cons_self) (by simp)
    | cons y m =>
      obtain ⟨a1, a2⟩ := List.pairwise_cons.1 hl
      obtain ⟨b1, b2⟩ := List.pairwise_cons.1 hm
      have e : x = y := by
        rcases List.mem_cons.1 ((h x).1 List.mem_cons_self) with e | hx
        · exact e
        · rcases List.mem_cons.1 ((h y).2 List.mem_cons_self) with e | hy
          · exact e.symm
          · exact absurd (a1 y hy) (str_lt_asymm (b1 x hx))
      subst e
      rw [ih a2 b2 fun z => ?_]
      have := h z
      simp only [List.mem_cons] at this
      constructor
      · intro hz
        rcases this.1 (.inr hz) with rfl | h
        · exact absurd (a1 _ hz) (str_lt_irrefl _)
        · exact h
      · intro hz
        rcases this.2 (.inr hz) with rfl | h
        · exact absurd (b1 _ hz) (str_lt_irrefl _)
        · exact h

theorem normVariants_iff (vs : List Str) (o : Option (List Str)) : o = normVariants vs ↔ StoredVariants vs o := by
  unfold normVariants
  cases vs with
  | nil => cases o <;> simp [StoredVariants]
  | cons v vs =>
    obtain ⟨h1, h2⟩ := foldr_spec (v :: vs)
    simp only [List.isEmpty_cons, Bool.false_eq_true, if_false]
    cases o with
    | none => simp [StoredVariants]
    | some ws =>
      simp only [StoredVariants, ne_eq, reduceCtorEq, not_false_eq_true, true_and, Option.some.injEq]
      constructor
      · rintro rfl; exact ⟨h1, h2⟩
      · rintro ⟨h3, h4⟩; exact sorted_ext h3 h1 fun x => by rw [h4, h2]

/-! ## Parts of a text -/

/-- No separator. -/
def NoSep (s : Str) : Prop := ∀ c ∈ s, c ≠ '-' ∧ c ≠ '_'

theorem letter_sep {c : Char} (h : Letter c ∨ Numeral c) : c ≠ '-' ∧ c ≠ '_' := by
  constructor <;> rintro rfl <;> revert h <;> unfold Letter Numeral <;> decide

theorem split_ne (s : Str) : splitSubtags s ≠ [] := by
  cases s with
  | nil => simp [splitSubtags]
  | cons c t =>
    unfold splitSubtags
    split
    · simp
    · split <;> simp

theorem split_joined (s : Str) : Joined (splitSubtags s) s ∧ ∀ p ∈ splitSubtags s, NoSep p := by
  induction s with
  | nil => exact ⟨.one [], by simp [splitSubtags, NoSep]⟩
  | cons c t ih =>
    unfold splitSubtags
    split
    · rename_i hc
      simp only [Bool.or_eq_true, beq_iff_eq] at hc
      refine ⟨.more [] hc ih.1, fun p hp => ?_⟩
      rcases List.mem_cons.1 hp with rfl | hp
      · simp [NoSep]
      · exact ih.2 p hp
    · rename_i hc
      simp only [Bool.or_eq_true, beq_iff_eq, not_or] at hc
      cases hs : splitSubtags t with
      | nil => exact absurd hs (split_ne t)
      | cons h r =>
        rw [hs] at ih
        simp only
        refine ⟨?_, fun p hp => ?_⟩
        · cases ih.1 with
          | one => exact .one _
          | more _ hsep hj => exact .more (c :: h) hsep hj
        · rcases List.mem_cons.1 hp with rfl | hp
          · intro d hd
            rcases List.mem_cons.1 hd with rfl | hd
            · exact hc
            · exact ih.2 h (by simp) d hd
          · exact ih.2 p (by simp [hp])

theorem split_nosep {p : Str} (hp : NoSep p) : splitSubtags p = [p] ∧ ∀ sep t, sep = '-' ∨ sep = '_' →
    splitSubtags (p ++ sep :: t) = p :: splitSubtags t := by
  induction p with
  | nil =>
    refine ⟨rfl, fun sep t h => ?_⟩
    rw [List.nil_append, splitSubtags, if_pos (by simpa using h)]
  | cons c p ih =>
    have hc := hp c (by simp)
    obtain ⟨h1, h2⟩ := ih fun d hd => hp d (by simp [hd])
    refine ⟨?_, fun sep t h => ?_⟩
    · rw [splitSubtags, if_neg (by simpa using hc), h1]
    · rw [List.cons_append, splitSubtags, if_neg (by simpa using hc), h2 sep t h]

theorem split_iff (s : Str) (ps : List Str) : splitSubtags s = ps ↔ Joined ps s ∧ ∀ p ∈ ps, NoSep p := by
  constructor
  · rintro rfl; exact split_joined s
  · rintro ⟨h, hp⟩
    induction h with
    | one s => exact (split_nosep (hp s (by simp))).1
    | more s hsep _ ih => rw [(split_nosep (hp s (by simp))).2 _ _ hsep, ih fun p h => hp p (by simp [h])]

/-! ## Identifiers -/

theorem tag_nosep {s : Str} (h : LanguageTag s ∨ ScriptTag s ∨ RegionTag s ∨ VariantTag s) : NoSep s := by
  intro c hc
  refine letter_sep ?_
  rcases h with h | h | (h | h) | h
  · exact .inl (h.2 c hc)
  · exact .inl (h.2 c hc)
  · exact .inl (h.2 c hc)
  · exact .inr (h.2 c hc)
  · exact h.2 c hc

theorem variant_not_region {s : Str} (h : VariantTag s) : ¬ RegionTag s := by
  rintro (h' | h') <;> obtain ⟨h | h, -⟩ := h <;> omega

theorem variant_not_script {s : Str} (h : VariantTag s) : ¬ ScriptTag s := by
  rintro ⟨h1, h2⟩
  obtain ⟨h | ⟨-, c, t, rfl, hc⟩, -⟩ := h
  · omega
  · have := h2 c (by simp)
    obtain ⟨hc1, hc2⟩ := hc
    unfold Letter at this
    simp only [le_iff] at this hc1 hc2
    have e1 : '9'.toNat = 57 := rfl
    have e2 : 'a'.toNat = 97 := rfl
    have e3 : 'A'.toNat = 65 := rfl
    omega

theorem region_not_script {s : Str} (h : RegionTag s) : ¬ ScriptTag s := by
  rintro ⟨h1, -⟩; rcases h with h | h <;> omega

/-- A region or not, and variants. -/
theorem parseAfterScript_some {lang script : Option Str} {rest : List Str} {id : LangId} :
    parseAfterScript lang script rest = some id ↔ ∃ (rg : Option Str) (vs : List Str), rest = rg.toList ++ vs ∧ (∀ x ∈ rg, RegionTag x) ∧
      (∀ x ∈ vs, VariantTag x) ∧ id = ⟨lang, script, rg.map upper, normVariants (vs.map lower)⟩ := by
  constructor
  · intro h
    cases rest with
    | nil =>
      simp only [parseAfterScript, Option.some.injEq] at h
      subst h
      exact ⟨none, [], rfl, by simp, by simp, rfl⟩
    | cons r rest =>
      unfold parseAfterScript at h
      cases hr : parseRegion r with
      | some reg =>
        obtain ⟨h1, rfl⟩ := parseRegion_some.1 hr
        simp only [hr] at h
        obtain ⟨vs, hv, rfl⟩ := Option.map_eq_some_iff.1 h
        obtain ⟨h2, rfl⟩ := parseVariants_some.1 hv
        exact ⟨some r, rest, rfl, by simpa using h1, h2, rfl⟩
      | none =>
        simp only [hr] at h
        obtain ⟨vs, hv, rfl⟩ := Option.map_eq_some_iff.1 h
        obtain ⟨h2, rfl⟩ := parseVariants_some.1 hv
        exact ⟨none, r :: rest, rfl, by simp, h2, rfl⟩
  · rintro ⟨rg, vs, rfl, h1, h2, rfl⟩
    cases rg with
    | some r =>
      simp only [Option.toList_some, List.singleton_append, parseAfterScript, parseRegion_some.2 ⟨h1 r rfl, rfl⟩,
        parseVariants_some.2 ⟨h2, rfl⟩, Option.map_some]
    | none =>
      cases vs with
      | nil => rfl
      | cons v vs =>
        have hr : parseRegion v = none := by
          cases hr : parseRegion v with
          | none => rfl
          | some x => exact absurd (parseRegion_some.1 hr).1 (variant_not_region (h2 v (by simp)))
        simp only [Option.toList_none, List.nil_append, parseAfterScript, hr, parseVariants_some.2 ⟨h2, rfl⟩, Option.map_some,
          Option.map_none]

theorem parse_some {s : Str} {id : LangId} : LangId.parse s = some id ↔ IdText s id := by
  constructor
  · intro h
    unfold LangId.parse at h
    obtain ⟨hj, -⟩ := split_joined s
    cases hs : splitSubtags s with
    | nil => simp [hs] at h
    | cons l rest =>
      simp only [hs] at h
      rw [hs] at hj
      cases hl : parseLanguage l with
      | none => simp [hl] at h
      | some lang =>
        simp only [hl] at h
        obtain ⟨hl1, hl2⟩ := parseLanguage_some.1 hl
        have key : ∀ (sc : Option Str) (rest' : List Str), rest = sc.toList ++ rest' → (∀ x ∈ sc, ScriptTag x) →
            parseAfterScript lang (sc.map title) rest' = some id → IdText s id := by
          intro sc rest' e hsc h
          obtain ⟨rg, vs, rfl, h1, h2, rfl⟩ := parseAfterScript_some.1 h
          exact ⟨l, sc, rg, vs, e ▸ hj, hl1, hsc, h1, h2, hl2, rfl, rfl, (normVariants_iff _ _).1 rfl⟩
        cases rest with
        | nil => exact key none [] rfl (by simp) h
        | cons x rest =>
          simp only at h
          cases hx : parseScript x with
          | some sc =>
            simp only [hx] at h
            obtain ⟨h1, rfl⟩ := parseScript_some.1 hx
            exact key (some x) rest rfl (by simpa using h1) h
          | none =>
            simp only [hx] at h
            exact key none (x :: rest) rfl (by simp) h
  · rintro ⟨l, sc, rg, vs, hj, hl, hsc, hrg, hvs, h1, h2, h3, h4⟩
    have hs : splitSubtags s = l :: (sc.toList ++ (rg.toList ++ vs)) := by
      refine (split_iff s _).2 ⟨hj, fun p hp => tag_nosep ?_⟩
      simp only [List.mem_cons, List.mem_append, Option.mem_toList] at hp
      rcases hp with rfl | hp | hp | hp
      · exact .inl hl
      · exact .inr (.inl (hsc p hp))
      · exact .inr (.inr (.inl (hrg p hp)))
      · exact .inr (.inr (.inr (hvs p hp)))
    have hpl := parseLanguage_some.2 ⟨hl, h1⟩
    have hafter : parseAfterScript id.language id.script (rg.toList ++ vs) = some id := by
      refine parseAfterScript_some.2 ⟨rg, vs, rfl, hrg, hvs, ?_⟩
      obtain ⟨a, b, c, d⟩ := id
      simp only at h3 h4 ⊢
      rw [h3, (normVariants_iff _ _).2 h4]
    unfold LangId.parse
    simp only [hs, hpl]
    cases sc with
    | some x =>
      simp only [Option.toList_some, List.singleton_append, parseScript_some.2 ⟨hsc x rfl, rfl⟩]
      rw [h2] at hafter
      exact hafter
    | none =>
      rw [h2] at hafter
      simp only [Option.toList_none, List.nil_append, Option.map_none] at hafter ⊢
      cases hr : rg.toList ++ vs with
      | nil => rw [hr] at hafter; exact hafter
      | cons x rest =>
        have hx : parseScript x = none := by
          cases hx : parseScript x with
          | none => rfl
          | some y =>
            have ht := (parseScript_some.1 hx).1
            cases rg with
            | some r =>
              simp only [Option.toList_some, List.singleton_append, List.cons.injEq] at hr
              exact absurd ht (region_not_script (hr.1 ▸ hrg r rfl))
            | none =>
              simp only [Option.toList_none, List.nil_append] at hr
              exact absurd ht (variant_not_script (hvs x (by simp [hr])))
        simp only [hx]
        rw [hr] at hafter
        exact hafter

/-! ## Spelling -/

theorem foldChar_lower (c : Char) (h : c ≠ '_') : foldChar c = c.toLower := if_neg h

theorem fold_facts (c : Char) : isAlpha (foldChar c) = isAlpha c ∧ isDigit (foldChar c) = isDigit c ∧
    (foldChar c == '-' || foldChar c == '_') = (c == '-' || c == '_') ∧
    (c ≠ '_' → lowerChar (foldChar c) = lowerChar c ∧ upperChar (foldChar c) = upperChar c) := by
  by_cases h : c.toNat < 128
  · exact ascii_ind (P := fun c => isAlpha (foldChar c) = isAlpha c ∧ isDigit (foldChar c) = isDigit c ∧
      (foldChar c == '-' || foldChar c == '_') = (c == '-' || c == '_') ∧
      (c ≠ '_' → lowerChar (foldChar c) = lowerChar c ∧ upperChar (foldChar c) = upperChar c)) (by decide +kernel) c h
  · have hu : c ≠ '_' := by rintro rfl; exact h (by decide)
    rw [foldChar_lower c hu, (ge_of_not_ascii h).2.2.1]
    simp

theorem split_fold (s : Str) : splitSubtags (s.map foldChar) = (splitSubtags s).map (·.map foldChar) := by
  induction s with
  | nil => rfl
  | cons c t ih =>
    rw [List.map_cons, splitSubtags, splitSubtags, (fold_facts c).2.2.1, ih]
    split
    · rfl
    · cases splitSubtags t <;> rfl

theorem all_fold {p : Char → Bool} (hp : ∀ c, p (foldChar c) = p c) (s : Str) : (s.map foldChar).all p = s.all p := by
  rw [List.all_map]; congr 1; funext c; exact hp c

theorem lower_fold {s : Str} (h : NoSep s) : (s.map foldChar).map lowerChar = s.map lowerChar := by
  rw [List.map_map]
  exact List.map_congr_left fun c hc => ((fold_facts c).2.2.2 (h c hc).2).1

theorem upper_fold {s : Str} (h : NoSep s) : (s.map foldChar).map upperChar = s.map upperChar := by
  rw [List.map_map]
  exact List.map_congr_left fun c hc => ((fold_facts c).2.2.2 (h c hc).2).2

theorem parseLanguage_fold {s : Str} (h : NoSep s) : parseLanguage (s.map foldChar) = parseLanguage s := by
  unfold parseLanguage
  rw [List.length_map, all_fold (fun c => (fold_facts c).1), lower_fold h]

theorem digits_fold {s : Str} (h : s.all isDigit = true) : s.map foldChar = s := by
  refine (List.map_congr_left fun c hc => ?_).trans (List.map_id s)
  have hd := List.all_eq_true.1 h c hc
  have h9 : '9'.toNat = 57 := rfl
  have : c.toNat < 128 := by
    simp only [isDigit, Bool.and_eq_true, decide_eq_true_eq] at hd; omega
  exact ascii_ind (P := fun c => isDigit c = true → foldChar c = c) (by decide +kernel) c this hd

theorem parseScript_fold {s : Str} (h : NoSep s) : parseScript (s.map foldChar) = parseScript s := by
  unfold parseScript
  rw [List.length_map, all_fold (fun c => (fold_facts c).1)]
  split
  · cases s with
    | nil => rfl
    | cons c t =>
      simp only [List.map_cons]
      rw [lower_fold fun d hd => h d (by simp [hd]), ((fold_facts c).2.2.2 (h c (by simp)).2).2]
  · rfl

theorem parseRegion_fold {s : Str} (h : NoSep s) : parseRegion (s.map foldChar) = parseRegion s := by
  unfold parseRegion
  rw [List.length_map, all_fold (fun c => (fold_facts c).1), all_fold (fun c => (fold_facts c).2.1), upper_fold h]
  split
  · rfl
  · split
    · rename_i hd; rw [digits_fold hd.2]
    · rfl

theorem parseVariant_fold {s : Str} (h : NoSep s) : parseVariant (s.map foldChar) = parseVariant s := by
  unfold parseVariant
  rw [List.length_map, all_fold (fun c => by rw [(fold_facts c).1, (fold_facts c).2.1]), lower_fold h]
  have : ((s.map foldChar).head?.map isDigit) = s.head?.map isDigit := by
    cases s with
    | nil => rfl
    | cons c t => simp [(fold_facts c).2.1]
  rw [this]

theorem parseVariants_fold {l : List Str} (h : ∀ p ∈ l, NoSep p) : parseVariants (l.map (·.map foldChar)) = parseVariants l := by
  induction l with
  | nil => rfl
  | cons x l ih =>
    rw [List.map_cons, parseVariants, parseVariants, parseVariant_fold (h x (by simp)), ih fun p hp => h p (by simp [hp])]

theorem parseAfterScript_fold (lang script : Option Str) {l : List Str} (h : ∀ p ∈ l, NoSep p) :
    parseAfterScript lang script (l.map (·.map foldChar)) = parseAfterScript lang script l := by
  cases l with
  | nil => rfl
  | cons x l =>
    have h1 := parseVariants_fold h
    have h2 := parseVariants_fold fun p hp => h p (List.mem_cons_of_mem x hp)
    rw [List.map_cons] at h1 ⊢
    unfold parseAfterScript
    dsimp only
    rw [parseRegion_fold (h x (by simp)), h1, h2]

/-- Parsing does not see the case of letters and which separator is used. -/
theorem parse_fold (s : Str) : LangId.parse (s.map foldChar) = LangId.parse s := by
  obtain ⟨-, hp⟩ := split_joined s
  unfold LangId.parse
  rw [split_fold]
  cases hs : splitSubtags s with
  | nil => rfl
  | cons l rest =>
    rw [hs] at hp
    simp only [List.map_cons]
    rw [parseLanguage_fold (hp l (by simp))]
    cases parseLanguage l with
    | none => rfl
    | some lang =>
      simp only
      cases rest with
      | nil => rfl
      | cons x rest =>
        have h1 : ∀ p ∈ x :: rest, NoSep p := fun p h => hp p (List.mem_cons_of_mem l h)
        simp only [List.map_cons]
        rw [parseScript_fold (h1 x (by simp))]
        have e1 := parseAfterScript_fold lang none h1
        rw [List.map_cons] at e1
        cases parseScript x with
        | none => exact e1
        | some sc => exact parseAfterScript_fold lang (some sc) fun p h => h1 p (List.mem_cons_of_mem x h)

theorem fold_lower {s : Str} (h : NoSep s) : s.map foldChar = lower s :=
  List.map_congr_left fun c hc => foldChar_lower c (h c hc).2

theorem lower_facts (c : Char) : c.toUpper.toLower = c.toLower ∧ c.toLower.toLower = c.toLower := by
  by_cases h : c.toNat < 128
  · exact ascii_ind (P := fun c => c.toUpper.toLower = c.toLower ∧ c.toLower.toLower = c.toLower) (by decide +kernel) c h
  · obtain ⟨-, -, h1, h2⟩ := ge_of_not_ascii h
    rw [h2, h1, h1]; exact ⟨rfl, rfl⟩

theorem lower_title (s : Str) : lower (title s) = lower s := by
  cases s with
  | nil => rfl
  | cons c t =>
    simp only [title, lower, List.map_cons, List.map_map, (lower_facts c).1]
    congr 1
    exact List.map_congr_left fun c _ => (lower_facts c).2

theorem lower_upper (s : Str) : lower (upper s) = lower s := by
  simp only [lower, upper, List.map_map]
  exact List.map_congr_left fun c _ => (lower_facts c).1

/-- The parts of a text decide its spelling. -/
theorem joined_fold {ps ps' : List Str} {s s' : Str} (h : Joined ps s) (h' : Joined ps' s')
    (e : ps.map (·.map foldChar) = ps'.map (·.map foldChar)) : s.map foldChar = s'.map foldChar := by
  induction h generalizing ps' s' with
  | one s =>
    cases h' with
    | one => simpa using e
    | more s' _ hj => cases hj <;> simp at e
  | @more s sep ps t hsep hj ih =>
    cases h' with
    | one s' => cases hj <;> simp at e
    | @more s' sep' ps' t' hsep' hj' =>
      simp only [List.map_cons, List.cons.injEq] at e
      have hs : foldChar sep = foldChar sep' := by
        rcases hsep with rfl | rfl <;> rcases hsep' with rfl | rfl <;> decide
      simp only [List.map_append, List.map_cons, e.1, hs, ih hj' e.2]

end Verif.Ids
