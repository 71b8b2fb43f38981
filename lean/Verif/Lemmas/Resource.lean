import Verif.ResourceSpec
import Verif.Lemmas.Json
import Verif.Lemmas.Precedence

/-!
# Reading of input files
-/

namespace Verif.Lemmas
open Verif Json Generate Resource JsonSpec ResourceSpec GenPr

theorem asString_iff (j : Json) (s : Str) : asString j = some s ↔ IsStr j s := by
  unfold IsStr
  cases j with
  | str x => cases x <;> simp [asString]
  | _ => simp [asString]

theorem mapPanic_forall₂ {f : α → Option β} {P : α → β → Prop} (hf : ∀ a b, f a = some b ↔ P a b) (l : List α) (m : List β) :
    mapPanic f l = some m ↔ List.Forall₂ P l m := by
  induction l generalizing m with
  | nil => cases m <;> simp [mapPanic]
  | cons a l ih =>
    simp only [mapPanic]
    constructor
    · intro h
      cases ha : f a with
      | none => simp [ha] at h
      | some b =>
        cases hm : mapPanic f l with
        | none => simp [ha, hm] at h
        | some bs =>
          simp only [ha, hm, Option.some.injEq] at h
          subst h
          exact .cons ((hf a b).1 ha) ((ih bs).1 hm)
    · intro h
      cases h with
      | @cons _ b _ bs h1 h2 => simp [(hf a b).2 h1, (ih bs).2 h2]

theorem asMembers_iff {f : Json → Option α} {P : Json → α → Prop} (hf : ∀ j a, f j = some a ↔ P j a) (j : Json) (l : List (Str × α)) :
    asMembers f j = some l ↔ IsMap P j l := by
  unfold IsMap
  cases j with
  | obj ms =>
    rw [asMembers, mapPanic_forall₂ (P := fun m p => m.1 = some p.1 ∧ P m.2 p.2)]
    · constructor
      · intro h; exact ⟨ms, rfl, h⟩
      · rintro ⟨_, ⟨⟩, h⟩; exact h
    · rintro ⟨k, v⟩ ⟨k', a⟩
      unfold asMember
      simp only
      rw [← hf]
      cases k <;> cases f v <;> simp
  | _ => simp [asMembers]

theorem asType_iff (j : Json) (l : TypeObj) : asTypeObj j = some l ↔ IsType j l :=
  asMembers_iff (asMembers_iff asString_iff) j l

theorem asOption_iff {f : Json → Option α} {P : Json → α → Prop} (hf : ∀ j a, f j = some a ↔ P j a) (hn : f .null = none) (j : Json)
    (a : Option α) : asOption f j = some a ↔ OrNull P j a := by
  cases j with
  | null => cases a with
    | none => simp [asOption, OrNull]
    | some a => simp [asOption, OrNull, ← hf, hn]
  | _ => cases a <;> simp [asOption, OrNull, ← hf]

theorem optional_iff {f : Json → Option α} {P : Json → α → Prop} (hf : ∀ j a, f j = some a ↔ P j a) (hn : f .null = none)
    (v : Option Json) (a : Option α) : optional f v = some a ↔ OptField P v a := by
  unfold OptField
  cases v with
  | none => simp [Resource.optional, eq_comm (a := a)]
  | some j => simp [Resource.optional, asOption_iff hf hn]

theorem member_iff (ms : List (Option Str × Json)) (name : Str) (v : Option Json) :
    (valuesOf name ms).length < 2 ∧ (valuesOf name ms).head? = v ↔ Member ms name v := by
  have hnil : ∀ l : List (Option Str × Json), valuesOf name l = [] ↔ ∀ m ∈ l, m.1 ≠ some name := by
    intro l
    unfold valuesOf
    rw [List.filterMap_eq_nil_iff]
    exact forall_congr' fun m => imp_congr_right fun _ => by simp
  have happ : ∀ a b : List (Option Str × Json), valuesOf name (a ++ b) = valuesOf name a ++ valuesOf name b := by
    intro a b; simp [valuesOf]
  cases v with
  | none =>
    rw [List.head?_eq_none_iff, hnil]
    constructor
    · exact fun h => h.2
    · intro h
      have h' : ∀ m ∈ ms, m.1 ≠ some name := h
      exact ⟨by rw [(hnil ms).2 h']; simp, h'⟩
  | some v =>
    constructor
    · rintro ⟨h1, h2⟩
      induction ms with
      | nil => simp [valuesOf] at h2
      | cons m ms ih =>
        by_cases hm : m.1 = some name
        · have e : valuesOf name (m :: ms) = m.2 :: valuesOf name ms := by simp [valuesOf, hm]
          rw [e] at h1 h2
          simp only [List.head?_cons, Option.some.injEq] at h2
          simp only [List.length_cons] at h1
          have h0 : valuesOf name ms = [] := List.length_eq_zero_iff.1 (by omega)
          refine ⟨[], ms, ?_, by simpa using (hnil ms).1 h0⟩
          rw [← h2, ← hm]; rfl
        · have e : valuesOf name (m :: ms) = valuesOf name ms := by simp [valuesOf, hm]
          rw [e] at h1 h2
          obtain ⟨a, b, rfl, h⟩ := ih h1 h2
          refine ⟨m :: a, b, rfl, fun x hx => ?_⟩
          rw [List.cons_append, List.mem_cons] at hx
          rcases hx with rfl | hx
          · exact hm
          · exact h x hx
    · rintro ⟨a, b, rfl, h⟩
      have ha := (hnil a).2 fun m hm => h m (by simp [hm])
      have hb := (hnil b).2 fun m hm => h m (by simp [hm])
      have e : valuesOf name ((some name, v) :: b) = [v] := by
        have : valuesOf name ((some name, v) :: b) = v :: valuesOf name b := by simp [valuesOf]
        rw [this, hb]
      rw [happ, ha, e]
      simp

theorem structFields_iff (names : List Str) (j : Json) (vals : List (Option Json)) :
    structFields names j = some vals ↔ IsStruct names j vals := by
  unfold IsStruct
  cases j with
  | obj ms =>
    rw [structFields]
    have hfor : ∀ names : List Str, (names.any (fun n => 2 ≤ (valuesOf n ms).length) = false ∧
        names.map (fun n => (valuesOf n ms).head?) = vals) ↔ List.Forall₂ (Member ms) names vals := by
      intro names
      induction names generalizing vals with
      | nil => cases vals <;> simp
      | cons n names ih =>
        cases vals with
        | nil => simp
        | cons v vals =>
          rw [List.forall₂_cons, ← ih, ← member_iff]
          simp only [List.any_cons, List.map_cons, List.cons.injEq, Bool.or_eq_false_iff, decide_eq_false_iff_not, Nat.not_le]
          tauto
    constructor
    · intro h
      by_cases h1 : ms.any (fun m => m.1.isNone) = true
      · simp [h1] at h
      · by_cases h2 : names.any (fun n => 2 ≤ (valuesOf n ms).length) = true
        · simp [h1, h2] at h
        · simp only [h1, h2, if_false, Option.some.injEq, Bool.false_eq_true] at h
          refine .inl ⟨ms, rfl, fun m hm hn => h1 ?_, (hfor names).1 ⟨by simpa using h2, h⟩⟩
          rw [List.any_eq_true]
          exact ⟨m, hm, by simp [hn]⟩
    · rintro (⟨_, ⟨⟩, h1, h2⟩ | ⟨_, ⟨⟩, _⟩)
      obtain ⟨h3, h4⟩ := (hfor names).2 h2
      rw [if_neg, h3, if_neg (by simp), h4]
      rw [List.any_eq_true]
      rintro ⟨m, hm, hn⟩
      exact h1 m hm (by simpa using hn)
  | arr l =>
    rw [structFields]
    constructor
    · intro h
      by_cases hl : l.length = names.length
      · simp only [hl, if_true, Option.some.injEq] at h
        exact .inr ⟨l, rfl, hl, h.symm⟩
      · simp [hl] at h
    · rintro (⟨_, ⟨⟩, _⟩ | ⟨_, ⟨⟩, h1, h2⟩)
      rw [if_pos h1, h2]
  | _ => simp [structFields]

theorem isStruct_unique {names : List Str} {j : Json} {v v' : List (Option Json)} (h : IsStruct names j v) (h' : IsStruct names j v') :
    v = v' := by
  rw [← structFields_iff] at h h'
  rw [h] at h'; exact Option.some.inj h'

theorem structFields_length {names : List Str} {j : Json} {v : List (Option Json)} (h : structFields names j = some v) :
    v.length = names.length := by
  rw [structFields_iff] at h
  rcases h with ⟨_, _, _, h⟩ | ⟨l, _, h, rfl⟩
  · exact h.length_eq.symm
  · simpa using h

theorem asVersion_iff (j : Json) (c : Str) : (∃ v, asVersion j = some v ∧ v.cldrVersion = c) ↔ IsVersion j c := by
  unfold asVersion IsVersion
  constructor
  · rintro ⟨v, h, rfl⟩
    cases hs : structFields [c!"_number", c!"_unicodeVersion", c!"_cldrVersion"] j with
    | none => simp [hs] at h
    | some l =>
      rw [hs] at h
      match l, h, hs with
      | [n, u, c], h, hs =>
        simp only at h
        cases h1 : optional asString n with
        | none => simp [h1] at h
        | some n' =>
          cases u with
          | none => simp [h1, required] at h
          | some u =>
            cases c with
            | none => simp [h1, required] at h
            | some c =>
              simp only [h1, required] at h
              cases h2 : asString u with
              | none => simp [h2] at h
              | some u' =>
                cases h3 : asString c with
                | none => simp [h2, h3] at h
                | some c' =>
                  simp only [h2, h3, Option.some.injEq] at h
                  subst h
                  exact ⟨n, u, c, n', u', (structFields_iff _ _ _).1 hs, (optional_iff asString_iff rfl _ _).1 h1,
                    (asString_iff _ _).1 h2, (asString_iff _ _).1 h3⟩
  · rintro ⟨n, u, c, num, uni, h1, h2, h3, h4⟩
    rw [(structFields_iff _ _ _).2 h1]
    simp only [(optional_iff asString_iff rfl _ _).2 h2, required, (asString_iff _ _).2 h3, (asString_iff _ _).2 h4]
    exact ⟨_, rfl, rfl⟩

theorem asSupplemental_iff (j : Json) (r : Generate.Resource) : asSupplemental j = some r ↔ IsSupplemental j r := by
  have hn : asTypeObj .null = none := rfl
  unfold asSupplemental IsSupplemental
  constructor
  · intro h
    cases hs : structFields [c!"version", c!"plurals-type-cardinal", c!"plurals-type-ordinal"] j with
    | none => simp [hs] at h
    | some l =>
      rw [hs] at h
      match l, h, hs with
      | [v, c, o], h, hs =>
        simp only at h
        cases v with
        | none => simp [required] at h
        | some v =>
          simp only [required] at h
          cases h1 : asVersion v with
          | none => simp [h1] at h
          | some v' =>
            cases h2 : optional asTypeObj c with
            | none => simp [h1, h2] at h
            | some c' =>
              cases h3 : optional asTypeObj o with
              | none => simp [h1, h2, h3] at h
              | some o' =>
                simp only [h1, h2, h3, Option.some.injEq] at h
                subst h
                exact ⟨v, c, o, (structFields_iff _ _ _).1 hs, (asVersion_iff _ _).1 ⟨v', h1, rfl⟩,
                  (optional_iff asType_iff hn _ _).1 h2, (optional_iff asType_iff hn _ _).1 h3⟩
  · rintro ⟨v, c, o, h1, h2, h3, h4⟩
    obtain ⟨v', h5, h6⟩ := (asVersion_iff _ _).2 h2
    rw [(structFields_iff _ _ _).2 h1]
    simp only [required, h5, (optional_iff asType_iff hn _ _).2 h3, (optional_iff asType_iff hn _ _).2 h4, h6]

theorem asResource_iff (j : Json) (r : Generate.Resource) : asResource j = some r ↔ IsResource j r := by
  unfold asResource IsResource
  constructor
  · intro h
    cases hs : structFields [c!"supplemental"] j with
    | none => simp [hs] at h
    | some l =>
      rw [hs] at h
      match l, h, hs with
      | [none], h, hs => simp [required] at h
      | [some s], h, hs => exact ⟨s, (structFields_iff _ _ _).1 hs, (asSupplemental_iff _ _).1 h⟩
  · rintro ⟨s, h1, h2⟩
    rw [(structFields_iff _ _ _).2 h1]
    exact (asSupplemental_iff _ _).2 h2

theorem parseResource_iff (s : Str) (r : Generate.Resource) : parseResource s = some r ↔ ResourceText s r := by
  unfold parseResource ResourceText
  constructor
  · intro h
    cases hj : Json.parse s with
    | none => simp [hj] at h
    | some j =>
      rw [hj] at h
      exact ⟨j, (parse_iff s j).1 hj, (asResource_iff j r).1 h⟩
  · rintro ⟨j, h1, h2⟩
    rw [(parse_iff s j).2 h1]
    exact (asResource_iff j r).2 h2

end Verif.Lemmas
