import Verif.AnySort
import Verif.Props.Generator

/-!
# C80: the generated text does not depend on the sorting algorithm
-/

namespace Verif.Props
open Verif Api Rust Uts35 Spec Verif.Parser Grammar Generate GenPr GenRs RulesRead Gen Maps

variable (sort : List (LangId × List (Str × Str)) → List (LangId × List (Str × Str)))

theorem cmp_antisymm {a b : LangId} (h1 : LangId.cmp a b ≠ .gt) (h2 : LangId.cmp b a ≠ .gt) : a = b := by
  rw [LangId.cmp_lawful.swap a b] at h2
  cases hc : LangId.cmp a b with
  | eq => exact (LangId.cmp_lawful.eq_iff _ _).1 hc
  | gt => exact absurd hc h1
  | lt => rw [hc] at h2; exact absurd rfl h2

/-- Sorted permutations of a list with distinct identifiers are equal. -/
theorem sorted_unique {l l' : List (LangId × α)} (hp : l.Perm l') (hn : (l.map (·.1)).Nodup)
    (h : l.Pairwise fun a b => LangId.cmp a.1 b.1 ≠ .gt) (h' : l'.Pairwise fun a b => LangId.cmp a.1 b.1 ≠ .gt) : l = l' := by
  refine List.Perm.eq_of_pairwise (le := fun a b => LangId.cmp a.1 b.1 ≠ .gt) ?_ h h' hp
  intro a b ha hb h1 h2
  exact List.inj_on_of_nodup_map hn ha (hp.mem_iff.2 hb) (cmp_antisymm h1 h2)

/-- The entries with any sorting algorithm, and with insertion. -/
theorem entries_perm (hs : Sorts sort) (parseId : Str → Option LangId) (obj : TypeObj) :
    (genTypeEntriesWith sort parseId obj = none ↔ genTypeEntries parseId obj = none) ∧
    ∀ l l', genTypeEntriesWith sort parseId obj = some l → genTypeEntries parseId obj = some l' →
      l.Perm l' ∧ (l.Pairwise fun a b => LangId.cmp a.1 b.1 ≠ .gt) ∧ l'.Pairwise fun a b => LangId.cmp a.1 b.1 ≠ .gt := by
  unfold genTypeEntriesWith genTypeEntries
  cases hk : parseKeys parseId (btree (obj.map fun p => (p.1, btree p.2))) with
  | none => simp
  | some ks =>
    have hp : (sort ks).Perm (sortById ks) := (hs ks).1.trans (sortById_perm ks).symm
    refine ⟨?_, fun l l' h h' => ?_⟩
    · simp only [Prec.mapPanic_none, hp.mem_iff]
    · simp only at h h'
      have hids : ∀ (m : List (LangId × List (Str × Str))) (l : List (LangId × List (PluralCategory × List Tok))),
          mapPanic (fun p => (genLocaleRules p.2).map fun s => (p.1, s)) m = some l → (m.Pairwise fun a b => LangId.cmp a.1 b.1 ≠ .gt) →
          l.Pairwise fun a b => LangId.cmp a.1 b.1 ≠ .gt := by
        intro m l h hm
        have e : l.map (·.1) = m.map (·.1) := by
          refine mapPanic_map h _ _ fun a b hb => ?_
          cases hg : genLocaleRules a.2 with
          | none => simp [hg] at hb
          | some s => simp only [hg, Option.map_some, Option.some.injEq] at hb; subst hb; rfl
        have h1 : (m.map (·.1)).Pairwise fun a b => LangId.cmp a b ≠ .gt := List.pairwise_map.2 hm
        rw [← e] at h1
        exact List.pairwise_map.1 h1
      refine ⟨?_, hids _ _ h (hs ks).2, hids _ _ h' (sortById_sorted ks)⟩
      have e : ∀ (m : List (LangId × List (Str × Str))) (l : List (LangId × List (PluralCategory × List Tok))),
          mapPanic (fun p => (genLocaleRules p.2).map fun s => (p.1, s)) m = some l →
          l = m.filterMap fun p => (genLocaleRules p.2).map fun s => (p.1, s) := by
        intro m l h
        have hf := Prec.mapPanic_some h
        clear h
        induction hf with
        | nil => rfl
        | cons h1 _ ih => rw [List.filterMap_cons, h1, ← ih]
      rw [e _ _ h, e _ _ h']
      exact hp.filterMap _

theorem typeRs_none (hs : Sorts sort) (parseId : Str → Option LangId) (obj : TypeObj) :
    genTypeRsWith sort parseId obj = none ↔ genTypeRs parseId obj = none := by
  simp only [genTypeRsWith, genTypeRs, Option.map_eq_none_iff]
  exact (entries_perm sort hs parseId obj).1

/-- The states of the two loops. -/
def SameShape (s s' : GenState) : Prop :=
  s.version = s'.version ∧ (s.cardinal = none ↔ s'.cardinal = none) ∧ (s.ordinal = none ↔ s'.ordinal = none)

theorem addType_alike (hs : Sorts sort) (parseId : Str → Option LangId) (old old' : Option (List (List Tok)))
    (ho : old = none ↔ old' = none) (x : Option TypeObj) :
    (addTypeWith sort parseId old x = none ↔ addType parseId old' x = none) ∧
    ∀ o o', addTypeWith sort parseId old x = some o → addType parseId old' x = some o' → (o = none ↔ o' = none) := by
  cases x with
  | none => simp only [addTypeWith, addType, Option.some.injEq]; exact ⟨by simp, by rintro o o' rfl rfl; exact ho⟩
  | some obj =>
    have h := typeRs_none sort hs parseId obj
    have ho' : old.isSome = old'.isSome := by
      cases old <;> cases old' <;> simp at ho ⊢
    simp only [addTypeWith, addType]
    cases h1 : genTypeRsWith sort parseId obj with
    | none => rw [h.1 h1]; simp
    | some t =>
      cases h2 : genTypeRs parseId obj with
      | none => rw [h.2 h2] at h1; cases h1
      | some t' =>
        simp only [ho']
        split
        · simp
        · refine ⟨by simp, ?_⟩
          rintro o o' h3 h4
          cases h3; cases h4
          simp

theorem loop_alike (hs : Sorts sort) (parseId : Str → Option LangId) (rs : List Resource) : ∀ s s', SameShape s s' →
    (genLoopWith sort parseId s rs = none ↔ genLoop parseId s' rs = none) ∧
    ∀ t t', genLoopWith sort parseId s rs = some t → genLoop parseId s' rs = some t' → SameShape t t' := by
  induction rs with
  | nil =>
    intro s s' h
    simp only [genLoopWith, genLoop, Option.some.injEq]
    exact ⟨by simp, by rintro t t' rfl rfl; exact h⟩
  | cons r rs ih =>
    intro s s' h
    obtain ⟨v, c, o⟩ := s
    obtain ⟨v', c', o'⟩ := s'
    obtain ⟨hv, hc, ho⟩ := h
    simp only at hv hc ho
    subst hv
    simp only [genLoopWith, genLoop, genStepWith, genStep]
    by_cases hcond : (v.isSome && v != some r.cldrVersion) = true
    · simp only [if_pos hcond]; simp
    · simp only [if_neg hcond]
      obtain ⟨c1, c2⟩ := addType_alike sort hs parseId c c' hc r.cardinal
      obtain ⟨o1, o2⟩ := addType_alike sort hs parseId o o' ho r.ordinal
      cases hc1 : addTypeWith sort parseId c r.cardinal with
      | none => rw [c1.1 hc1]; simp
      | some x =>
        cases hc2 : addType parseId c' r.cardinal with
        | none => rw [c1.2 hc2] at hc1; cases hc1
        | some x' =>
          cases ho1 : addTypeWith sort parseId o r.ordinal with
          | none => rw [o1.1 ho1]; simp
          | some y =>
            cases ho2 : addType parseId o' r.ordinal with
            | none => rw [o1.2 ho2] at ho1; cases ho1
            | some y' => exact ih _ _ ⟨rfl, c2 _ _ hc1 hc2, o2 _ _ ho1 ho2⟩

/-- C80: whether the generator panics does not depend on the algorithm. -/
theorem C80_succeeds (hs : Sorts sort) (parseId : Str → Option LangId) (rs : List Resource) :
    (generateRsWith sort parseId rs = none) ↔ generateRs parseId rs = none := by
  obtain ⟨h1, h2⟩ := loop_alike sort hs parseId rs ⟨none, none, none⟩ ⟨none, none, none⟩ ⟨rfl, .rfl, .rfl⟩
  simp only [generateRsWith, generateRs, Option.map_eq_none_iff, generateTokensWith, generateTokens]
  cases hl : genLoopWith sort parseId ⟨none, none, none⟩ rs with
  | none => rw [h1.1 hl]
  | some s =>
    cases hl' : genLoop parseId ⟨none, none, none⟩ rs with
    | none => rw [h1.2 hl'] at hl; cases hl
    | some s' =>
      obtain ⟨v, c, o⟩ := s
      obtain ⟨v', c', o'⟩ := s'
      obtain ⟨hv, hc, ho⟩ := h2 _ _ hl hl'
      simp only at hv hc ho
      subst hv
      have e : (c.isNone && o.isNone) = (c'.isNone && o'.isNone) := by
        cases c <;> cases c' <;> simp at hc ⊢ <;> cases o <;> cases o' <;> simp at ho ⊢
      cases v with
      | none => rfl
      | some v =>
        simp only [e]
        split
        · rfl
        · unfold genFn
          cases parseSigned 64 v <;> simp

/-- C80: nor does the table, up to the order of entries with equal identifiers. -/
theorem C80_table (hs : Sorts sort) (parseId : Str → Option LangId) (obj : TypeObj)
    (l l' : List (LangId × List (PluralCategory × List Tok))) (h : genTypeEntriesWith sort parseId obj = some l)
    (h' : genTypeEntries parseId obj = some l') : l.Perm l' ∧ l.map (·.1) = l'.map (·.1) := by
  obtain ⟨h1, h2, h3⟩ := (entries_perm sort hs parseId obj).2 l l' h h'
  refine ⟨h1, ?_⟩
  have h2 : (l.map (·.1)).Pairwise fun a b => LangId.cmp a b ≠ .gt := List.pairwise_map.2 h2
  have h3 : (l'.map (·.1)).Pairwise fun a b => LangId.cmp a b ≠ .gt := List.pairwise_map.2 h3
  refine List.Perm.eq_of_pairwise ?_ h2 h3 (h1.map _)
  intro a b _ _ ha hb
  exact cmp_antisymm ha hb

/-- C80: with distinct identifiers the generated text does not depend on it at all. -/
theorem C80_text (hs : Sorts sort) (parseId : Str → Option LangId) (rs : List Resource)
    (hd : ∀ r ∈ rs, ∀ obj, r.cardinal = some obj ∨ r.ordinal = some obj → DistinctIds parseId obj) :
    generateRsWith sort parseId rs = generateRs parseId rs := by
  have ht : ∀ obj, DistinctIds parseId obj → genTypeRsWith sort parseId obj = genTypeRs parseId obj := by
    intro obj h
    simp only [genTypeRsWith, genTypeRs, genTypeEntriesWith, genTypeEntries]
    cases hk : parseKeys parseId (btree (obj.map fun p => (p.1, btree p.2))) with
    | none => rfl
    | some ks =>
      have hn := parseKeys_nodup parseId obj ks hk h
      have e : sort ks = sortById ks := by
        refine sorted_unique ((hs ks).1.trans (sortById_perm ks).symm) ?_ (hs ks).2 (sortById_sorted ks)
        exact ((hs ks).1.map _).nodup_iff.2 hn
      simp only [e]
  have ha : ∀ old x, (∀ obj, x = some obj → DistinctIds parseId obj) → addTypeWith sort parseId old x = addType parseId old x := by
    intro old x h
    cases x with
    | none => rfl
    | some obj => simp only [addTypeWith, addType, ht obj (h obj rfl)]; rfl
  have hl : ∀ s, genLoopWith sort parseId s rs = genLoop parseId s rs := by
    induction rs with
    | nil => intro s; rfl
    | cons r rs ih =>
      intro s
      have ih := ih fun r hr => hd r (by simp [hr])
      have e : genStepWith sort parseId s r = genStep parseId s r := by
        simp only [genStepWith, genStep, ha _ _ fun obj h => hd r (by simp) obj (.inl h), ha _ _ fun obj h => hd r (by simp) obj (.inr h)]
        rfl
      simp only [genLoopWith, genLoop, e, ih]
      rfl
  simp only [generateRsWith, generateTokensWith, generateRs, generateTokens, hl]
  rfl

/-! ## Two spellings of a locale -/

/-- Another sorting algorithm. -/
def sortReversed (l : List (LangId × α)) : List (LangId × α) := sortById l.reverse

theorem sortReversed_sorts : Sorts sortReversed :=
  fun l => ⟨(sortById_perm _).trans (List.reverse_perm l), sortById_sorted _⟩

theorem distinctIds_of {obj : TypeObj} (hn : (obj.map (·.1)).Nodup)
    (h : ∀ a ∈ obj.map (·.1), ∀ b ∈ obj.map (·.1), LangId.parse a = LangId.parse b → a = b) : DistinctIds LangId.parse obj := by
  intro k k' r r' id h1 h2 _ _ hi hi'
  exact h k (List.mem_map.2 ⟨_, (lastOf_nodup hn k r).1 h1, rfl⟩) k' (List.mem_map.2 ⟨_, (lastOf_nodup hn k' r').1 h2, rfl⟩)
    (hi.trans hi'.symm)

/-- The files of C45. -/
example : generateRsWith sortReversed LangId.parse exampleFiles = generateRs LangId.parse exampleFiles ∧
    generateRs LangId.parse exampleFiles ≠ none := by
  refine ⟨C80_text _ sortReversed_sorts _ _ ?_, by decide +kernel⟩
  intro r hr obj ho
  simp only [exampleFiles, List.mem_cons, List.not_mem_nil, or_false] at hr
  rcases hr with rfl | rfl
  · rcases ho with ho | ho
    · obtain rfl := Option.some.inj ho
      exact distinctIds_of (by decide +kernel) (by decide +kernel)
    · cases ho
  · rcases ho with ho | ho
    · cases ho
    · obtain rfl := Option.some.inj ho
      exact distinctIds_of (by decide +kernel) (by decide +kernel)

/-- C80: so the shipped data gives the same text with every sorting algorithm. -/
theorem C80_shipped (hs : Sorts sort) : generateRsWith sort LangId.parse [CldrData.cardinalResource, CldrData.ordinalResource] =
    generateRs LangId.parse [CldrData.cardinalResource, CldrData.ordinalResource] := by
  have lastOf_mem : ∀ {m : TypeObj} {k r}, LastOf m k r → (k, r) ∈ m := by
    rintro m k r ⟨b, a, rfl, -⟩
    simp
  have h : ∀ t, DistinctIds LangId.parse (cldrData t) := by
    intro t k k' r r' id h1 h2 _ _ hi hi'
    exact (key_unique t id k k' r r' (lastOf_mem h1) (lastOf_mem h2) hi hi').1
  refine C80_text sort hs _ _ fun r hr obj ho => ?_
  simp only [List.mem_cons, List.not_mem_nil, or_false] at hr
  rcases hr with rfl | rfl
  · rcases ho with ho | ho
    · obtain rfl := Option.some.inj ho; exact h .CARDINAL
    · cases ho
  · rcases ho with ho | ho
    · cases ho
    · obtain rfl := Option.some.inj ho; exact h .ORDINAL

example : generateRsWith sortReversed LangId.parse [CldrData.cardinalResource, CldrData.ordinalResource] =
    generateRs LangId.parse [CldrData.cardinalResource, CldrData.ordinalResource] := C80_shipped _ sortReversed_sorts

/-- A file with two spellings of a locale and different rules for them. -/
def twoSpellings : List Resource :=
  [⟨c!"37", some [(c!"pt-PT", [(c!"pluralRule-count-one", c!"i = 1")]), (c!"pt_PT", [(c!"pluralRule-count-one", c!"i = 0")])], none⟩]

/-- C80: with two spellings of one locale it does. -/
theorem C80_spellings : ∃ sort sort' rs, Sorts sort ∧ Sorts sort' ∧ generateRsWith sort LangId.parse rs ≠ none ∧
    generateRsWith sort LangId.parse rs ≠ generateRsWith sort' LangId.parse rs :=
  ⟨sortById, sortReversed, twoSpellings, fun l => ⟨sortById_perm l, sortById_sorted l⟩, sortReversed_sorts, by decide +kernel, by decide +kernel⟩

end Verif.Props
