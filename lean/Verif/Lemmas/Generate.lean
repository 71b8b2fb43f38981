import Verif.Lemmas.Maps
import Verif.RulesRead

/-! Helper lemmas for C45–C52: the loop over the files, the entries of a table, and reading a generated entry. -/

namespace Verif.Gen
open Verif Spec Generate Rust GenPr GenRs Maps

/-! ## `mapPanic` -/

theorem mem_mapPanic {f : α → Option β} {l : List α} {bs : List β} (h : mapPanic f l = some bs) (b : β) :
    b ∈ bs ↔ ∃ a ∈ l, f a = some b := by
  revert b
  have hf := Prec.mapPanic_some h
  clear h
  induction hf with
  | nil => simp
  | @cons a b' l bs h1 _ ih =>
    intro b
    rw [List.mem_cons, ih]
    constructor
    · rintro (rfl | ⟨x, hx, h⟩)
      · exact ⟨a, by simp, h1⟩
      · exact ⟨x, by simp [hx], h⟩
    · rintro ⟨x, hx, h⟩
      rcases List.mem_cons.1 hx with rfl | hx
      · rw [h1] at h; exact .inl (Option.some.inj h).symm
      · exact .inr ⟨x, hx, h⟩

theorem mapPanic_isSome {f : α → Option β} {l : List α} : mapPanic f l ≠ none ↔ ∀ a ∈ l, f a ≠ none := by
  rw [Ne, Prec.mapPanic_none]; simp

theorem mapPanic_map {f : α → Option β} {l : List α} {bs : List β} (h : mapPanic f l = some bs) (g : α → γ) (g' : β → γ)
    (hg : ∀ a b, f a = some b → g' b = g a) : bs.map g' = l.map g := by
  have hf := Prec.mapPanic_some h
  clear h
  induction hf with
  | nil => rfl
  | cons h1 _ ih => simp [ih, hg _ _ h1]

theorem mapPanic_of {f : α → Option β} {g : α → β} {l : List α} (h : ∀ a ∈ l, f a = some (g a)) :
    mapPanic f l = some (l.map g) := by
  induction l with
  | nil => rfl
  | cons a l ih =>
    simp only [mapPanic, h a (by simp), ih fun x hx => h x (by simp [hx])]
    rfl

/-! ## C45: the loop over the files -/

variable (parseId : Str → Option LangId)

theorem addType_comm (old : Option (List (List Tok))) (x y : Option TypeObj) :
    ((addType parseId old x).bind fun o => addType parseId o y) = (addType parseId old y).bind fun o => addType parseId o x := by
  cases x with
  | none =>
    simp only [addType, Option.bind_some]
    cases y with
    | none => rfl
    | some b =>
      simp only
      cases genTypeRs parseId b with
      | none => rfl
      | some t => cases old <;> rfl
  | some a =>
    cases y with
    | none =>
      simp only [addType]
      cases genTypeRs parseId a with
      | none => rfl
      | some t => cases old <;> rfl
    | some b =>
      simp only [addType]
      cases genTypeRs parseId a with
      | none =>
        cases genTypeRs parseId b with
        | none => rfl
        | some t => cases old <;> rfl
      | some s =>
        cases genTypeRs parseId b with
        | none => cases old <;> rfl
        | some t => cases old <;> rfl

theorem genStep_eq (s : GenState) (r : Resource) : genStep parseId s r =
    if s.version = none ∨ s.version = some r.cldrVersion then
      (addType parseId s.cardinal r.cardinal).bind fun c => (addType parseId s.ordinal r.ordinal).bind fun o =>
        some ⟨some r.cldrVersion, c, o⟩
    else none := by
  unfold genStep
  cases hv : s.version with
  | none =>
    simp only [Option.isSome_none, Bool.false_and, Bool.false_eq_true, if_false, true_or, if_true]
    cases addType parseId s.cardinal r.cardinal with
    | none => rfl
    | some c =>
      simp only [Option.bind_some]
      cases addType parseId s.ordinal r.ordinal <;> rfl
  | some v =>
    by_cases h : v = r.cldrVersion
    · subst h
      simp only [Option.isSome_some, Bool.true_and, bne_self_eq_false, Bool.false_eq_true, if_false, or_true, if_true]
      cases addType parseId s.cardinal r.cardinal with
      | none => rfl
      | some c =>
        simp only [Option.bind_some]
        cases addType parseId s.ordinal r.ordinal <;> rfl
    · have h' : (some v != some r.cldrVersion) = true := by simpa using h
      simp [h', h]

theorem genStep_comm (s : GenState) (a b : Resource) :
    ((genStep parseId s a).bind fun s' => genStep parseId s' b) = (genStep parseId s b).bind fun s' => genStep parseId s' a := by
  have hc := addType_comm parseId s.cardinal a.cardinal b.cardinal
  have ho := addType_comm parseId s.ordinal a.ordinal b.ordinal
  have key : ∀ x y : Resource, ((genStep parseId s x).bind fun s' => genStep parseId s' y) =
      if (s.version = none ∨ s.version = some x.cldrVersion) ∧ x.cldrVersion = y.cldrVersion then
        ((addType parseId s.cardinal x.cardinal).bind fun c => addType parseId c y.cardinal).bind fun c =>
          ((addType parseId s.ordinal x.ordinal).bind fun o => addType parseId o y.ordinal).bind fun o =>
            some ⟨some y.cldrVersion, c, o⟩
      else none := by
    intro x y
    rw [genStep_eq]
    by_cases h1 : s.version = none ∨ s.version = some x.cldrVersion
    · simp only [h1, if_true, true_and]
      cases addType parseId s.cardinal x.cardinal with
      | none => simp
      | some c =>
        simp only [Option.bind_some]
        cases addType parseId s.ordinal x.ordinal with
        | none =>
          simp only [Option.bind_none]
          cases addType parseId c y.cardinal <;> simp
        | some o =>
          simp only [Option.bind_some, genStep_eq, reduceCtorEq, false_or, Option.some.injEq]
    · simp [h1]
  rw [key, key, hc, ho]
  by_cases h : a.cldrVersion = b.cldrVersion
  · rw [h]
  · rw [if_neg (fun h' => h h'.2), if_neg (fun h' => h h'.2.symm)]

theorem genLoop_cons (s : GenState) (r : Resource) (rs : List Resource) :
    genLoop parseId s (r :: rs) = (genStep parseId s r).bind fun s' => genLoop parseId s' rs := by
  simp only [genLoop]; cases genStep parseId s r <;> rfl

theorem genLoop_perm {rs rs' : List Resource} (h : rs.Perm rs') (s : GenState) : genLoop parseId s rs = genLoop parseId s rs' := by
  induction h generalizing s with
  | nil => rfl
  | cons r _ ih => rw [genLoop_cons, genLoop_cons]; congr 1; funext s'; exact ih s'
  | swap a b l =>
    simp only [genLoop_cons, ← Option.bind_assoc]
    rw [genStep_comm]
  | trans _ _ ih1 ih2 => rw [ih1, ih2]

/-! ## C46: members in another order -/

theorem genTypeRs_ext {obj obj' : TypeObj} (h : ∀ key w, (∃ r, LastOf obj key r ∧ btree r = w) ↔ ∃ r, LastOf obj' key r ∧ btree r = w) :
    genTypeRs parseId obj = genTypeRs parseId obj' := by
  have : btree (obj.map fun p => (p.1, btree p.2)) = btree (obj'.map fun p => (p.1, btree p.2)) := by
    refine btree_ext fun k w => ?_
    rw [lastOf_map, lastOf_map, h]
  unfold genTypeRs genTypeEntries
  rw [this]

/-! ## C47: when the generator panics -/

theorem genRule_isSome (p : Str × Str) : genRule p ≠ none ↔
    ∃ part c, ThirdPart p.1 part ∧ Parser.parsePluralCondition 64 p.2 = .ok c ∧ (categoryOfName part ≠ .OTHER → genPr c ≠ none) := by
  unfold genRule Parser.usizeBits
  simp only [← thirdPart_iff]
  cases (splitDash p.1)[2]? with
  | none => simp
  | some part =>
    cases Parser.parsePluralCondition 64 p.2 with
    | error e => simp
    | ok c =>
      simp only [Option.some.injEq, Except.ok.injEq, exists_and_left, exists_eq_left']
      by_cases h : categoryOfName part = .OTHER
      · simp [h]
      · simp [h]

theorem genLocaleRules_isSome (rules : RuleObj) : genLocaleRules (btree rules) ≠ none ↔
    ∀ name text, LastOf rules name text → genRule (name, text) ≠ none := by
  unfold genLocaleRules
  rw [Ne, Option.map_eq_none_iff, ← Ne, mapPanic_isSome]
  constructor
  · intro h name text hl
    exact h _ (((btree_spec rules).2 name text).2 hl)
  · rintro h ⟨name, text⟩ hm
    exact h _ _ (((btree_spec rules).2 name text).1 hm)

theorem parseKeys_isSome (m : List (Str × α)) : parseKeys parseId m ≠ none ↔
    ∀ p ∈ m, p.1 ≠ c!"root" → parseId p.1 ≠ none := by
  unfold parseKeys
  rw [mapPanic_isSome]
  constructor
  · intro h p hp hr hn
    exact h p (List.mem_filter.2 ⟨hp, by simpa using hr⟩) (by simp [hn])
  · intro h p hp
    obtain ⟨h1, h2⟩ := List.mem_filter.1 hp
    have := h p h1 (by simpa using h2)
    cases hq : parseId p.1 with
    | none => exact absurd hq this
    | some x => simp

theorem mem_parseKeys {m : List (Str × α)} {l : List (LangId × α)} (h : parseKeys parseId m = some l) (id : LangId) (v : α) :
    (id, v) ∈ l ↔ ∃ k, (k, v) ∈ m ∧ k ≠ c!"root" ∧ parseId k = some id := by
  unfold parseKeys at h
  rw [mem_mapPanic h]
  constructor
  · rintro ⟨⟨k, v'⟩, hp, he⟩
    obtain ⟨h1, h2⟩ := List.mem_filter.1 hp
    cases hq : parseId k with
    | none => simp [hq] at he
    | some x =>
      simp only [hq, Option.map_some, Option.some.injEq, Prod.mk.injEq] at he
      obtain ⟨rfl, rfl⟩ := he
      exact ⟨k, h1, by simpa using h2, hq⟩
  · rintro ⟨k, h1, h2, h3⟩
    exact ⟨(k, v), List.mem_filter.2 ⟨h1, by simpa using h2⟩, by simp [h3]⟩

theorem mem_typeTree (obj : TypeObj) (k : Str) (w : List (Str × Str)) :
    (k, w) ∈ btree (obj.map fun p => (p.1, btree p.2)) ↔ ∃ r, LastOf obj k r ∧ btree r = w := by
  rw [(btree_spec _).2, lastOf_map]

theorem genTypeRs_isSome (obj : TypeObj) : genTypeRs parseId obj ≠ none ↔
    ∀ key rules, LastOf obj key rules → key ≠ c!"root" → parseId key ≠ none ∧ genLocaleRules (btree rules) ≠ none := by
  unfold genTypeRs
  rw [Ne, Option.map_eq_none_iff, ← Ne]
  unfold genTypeEntries
  cases hk : parseKeys parseId (btree (obj.map fun p => (p.1, btree p.2))) with
  | none =>
    have : ¬ parseKeys parseId (btree (obj.map fun p => (p.1, btree p.2))) ≠ none := by simp [hk]
    rw [parseKeys_isSome] at this
    simp only [ne_eq, not_true_eq_false, false_iff]
    intro h
    refine this ?_
    rintro ⟨k, w⟩ hp hr
    obtain ⟨r, h1, -⟩ := (mem_typeTree obj k w).1 hp
    exact (h k r h1 hr).1
  | some l =>
    have hk' : parseKeys parseId (btree (obj.map fun p => (p.1, btree p.2))) ≠ none := by simp [hk]
    rw [parseKeys_isSome] at hk'
    simp only [mapPanic_isSome, ne_eq, Option.map_eq_none_iff]
    constructor
    · intro h key rules hl hr
      have hm := (mem_typeTree obj key _).2 ⟨rules, hl, rfl⟩
      have hid := hk' _ hm hr
      refine ⟨hid, ?_⟩
      cases hq : parseId key with
      | none => exact absurd hq hid
      | some id =>
        exact h (id, btree rules) ((sortById_perm l).mem_iff.2 ((mem_parseKeys parseId hk _ _).2 ⟨key, hm, hr, hq⟩))
    · rintro h ⟨id, w⟩ hm
      obtain ⟨k, h1, h2, h3⟩ := (mem_parseKeys parseId hk _ _).1 ((sortById_perm l).mem_iff.1 hm)
      obtain ⟨r, h4, rfl⟩ := (mem_typeTree obj k w).1 h1
      exact (h k r h4 h2).2

/-- The type is given at most once in the files that remain, and not at all if it was given before. -/
def Once (old : Option (List (List Tok))) (l : List TypeObj) : Prop := l.length ≤ 1 ∧ (old ≠ none → l = [])

theorem addType_isSome (old : Option (List (List Tok))) (x : Option TypeObj) (l : List TypeObj) (hl : ∀ o ∈ l, genTypeRs parseId o ≠ none) :
    (∃ o, addType parseId old x = some o ∧ Once o l) ↔ (∀ d, x = some d → genTypeRs parseId d ≠ none) ∧ Once old (x.toList ++ l) := by
  cases x with
  | none => simp [addType]
  | some d =>
    cases hd : genTypeRs parseId d with
    | none => simp [addType, hd]
    | some t =>
      cases old with
      | none =>
        simp only [addType, hd, Once]
        simp
        intro h; subst h; simp [hd]
      | some o => simp [addType, hd, Once]

theorem addType_given (old : Option (List (List Tok))) (x : Option TypeObj) (o : Option (List (List Tok)))
    (h : addType parseId old x = some o) : o ≠ none ↔ old ≠ none ∨ x ≠ none := by
  cases x with
  | none => simp only [addType, Option.some.injEq] at h; subst h; simp
  | some d =>
    simp only [addType] at h
    cases hd : genTypeRs parseId d with
    | none => simp [hd] at h
    | some t =>
      simp only [hd] at h
      split at h
      · simp at h
      · cases h; simp

/-- Distinct identifiers of the keys stay distinct. -/
theorem parseKeys_nodup (parseId : Str → Option LangId) (obj : TypeObj) (ks : List (LangId × List (Str × Str)))
    (hk : parseKeys parseId (btree (obj.map fun p => (p.1, btree p.2))) = some ks)
    (hinj : ∀ k k' r r' id, LastOf obj k r → LastOf obj k' r' → k ≠ c!"root" → k' ≠ c!"root" → parseId k = some id →
      parseId k' = some id → k = k') : (ks.map (·.1)).Nodup := by
  have hsort := (btree_spec (obj.map fun p => (p.1, btree p.2))).1
  have hmem := fun k w => (mem_typeTree obj k w).1
  generalize btree (obj.map fun p => (p.1, btree p.2)) = m at hk hsort hmem
  unfold parseKeys at hk
  have hsort' : (m.filter fun p => !(p.1 == c!"root")).Pairwise fun a b => a.1 ≠ b.1 :=
    (hsort.imp fun h => cmpStr_ne h).filter _
  have hmem' : ∀ p ∈ m.filter fun p => !(p.1 == c!"root"), p.1 ≠ c!"root" ∧ ∃ r, LastOf obj p.1 r := by
    rintro ⟨k, w⟩ hp
    obtain ⟨h1, h2⟩ := List.mem_filter.1 hp
    obtain ⟨r, hr, -⟩ := hmem k w h1
    exact ⟨by simpa using h2, r, hr⟩
  generalize (m.filter fun p => !(p.1 == c!"root")) = m' at hk hsort' hmem'
  have hf := Prec.mapPanic_some hk
  clear hk hmem hsort
  induction hf with
  | nil => simp
  | @cons a b m' ks h1 hf ih =>
    obtain ⟨p1, p2⟩ := List.pairwise_cons.1 hsort'
    rw [List.map_cons, List.nodup_cons]
    refine ⟨fun hm => ?_, ih p2 fun p hp => hmem' p (by simp [hp])⟩
    obtain ⟨c, hc, hce⟩ := List.mem_map.1 hm
    have hex : ∃ x ∈ m', (parseId x.1).map (fun id => (id, x.2)) = some c := by
      clear ih hm hmem' hsort' p1 p2
      induction hf with
      | nil => simp at hc
      | cons g1 _ gi =>
        rcases List.mem_cons.1 hc with rfl | hc
        · exact ⟨_, by simp, g1⟩
        · obtain ⟨x, hx, hx'⟩ := gi hc; exact ⟨x, by simp [hx], hx'⟩
    obtain ⟨x, hx, hx'⟩ := hex
    obtain ⟨ra, hra⟩ := (hmem' a (by simp)).2
    obtain ⟨rx, hrx⟩ := (hmem' x (by simp [hx])).2
    cases hpa : parseId a.1 with
    | none => simp [hpa] at h1
    | some ia =>
      cases hpx : parseId x.1 with
      | none => simp [hpx] at hx'
      | some ix =>
        simp only [hpa, hpx, Option.map_some, Option.some.injEq] at h1 hx'
        subst h1; subst hx'
        simp only at hce; subst hce
        exact p1 x hx (hinj _ _ _ _ _ hra hrx (hmem' a (by simp)).1 (hmem' x (by simp [hx])).1 hpa hpx)

/-- The files, after the ones that led to this state, are accepted. -/
structure Accepted (s : GenState) (rs : List Resource) (v : Str) : Prop where
  version : s.version = none ∨ s.version = some v
  versions : ∀ r ∈ rs, r.cldrVersion = v
  types : ∀ r ∈ rs, ∀ d, r.cardinal = some d ∨ r.ordinal = some d → genTypeRs parseId d ≠ none
  cardinal : Once s.cardinal (rs.filterMap (·.cardinal))
  ordinal : Once s.ordinal (rs.filterMap (·.ordinal))

theorem filterMap_cons_toList (f : α → Option β) (a : α) (l : List α) : (a :: l).filterMap f = (f a).toList ++ l.filterMap f := by
  cases h : f a <;> simp [h]

theorem genLoop_some (s : GenState) (rs : List Resource) (s' : GenState) (h : genLoop parseId s rs = some s') :
    (∃ v, Accepted parseId s rs v) ∧ (rs ≠ [] → ∀ v, Accepted parseId s rs v → s'.version = some v) ∧ (rs = [] → s'.version = s.version) ∧
    (s'.cardinal ≠ none ↔ s.cardinal ≠ none ∨ rs.filterMap (·.cardinal) ≠ []) ∧
    (s'.ordinal ≠ none ↔ s.ordinal ≠ none ∨ rs.filterMap (·.ordinal) ≠ []) := by
  induction rs generalizing s with
  | nil =>
    simp only [genLoop, Option.some.injEq] at h; subst h
    refine ⟨⟨s.version.getD [], ?_, by simp, by simp, ?_, ?_⟩, by simp, by simp, by simp, by simp⟩
    · cases s.version <;> simp
    · simp [Once]
    · simp [Once]
  | cons r rs ih =>
    rw [genLoop_cons, genStep_eq] at h
    split at h
    · rename_i hv
      cases hc : addType parseId s.cardinal r.cardinal with
      | none => simp [hc] at h
      | some c =>
        cases ho : addType parseId s.ordinal r.ordinal with
        | none => simp [hc, ho] at h
        | some o =>
          simp only [hc, ho, Option.bind_some] at h
          obtain ⟨⟨v, hacc⟩, h2, h3, h4, h5⟩ := ih _ h
          have hv' : r.cldrVersion = v := by simpa using hacc.version
          subst hv'
          have tc : ∀ o ∈ rs.filterMap (·.cardinal), genTypeRs parseId o ≠ none := by
            intro o ho
            obtain ⟨r', hr', he⟩ := List.mem_filterMap.1 ho
            exact hacc.types r' hr' o (.inl he)
          have tt : ∀ o ∈ rs.filterMap (·.ordinal), genTypeRs parseId o ≠ none := by
            intro o ho
            obtain ⟨r', hr', he⟩ := List.mem_filterMap.1 ho
            exact hacc.types r' hr' o (.inr he)
          obtain ⟨c1, c2⟩ := (addType_isSome parseId s.cardinal r.cardinal _ tc).1 ⟨c, hc, hacc.cardinal⟩
          obtain ⟨o1, o2⟩ := (addType_isSome parseId s.ordinal r.ordinal _ tt).1 ⟨o, ho, hacc.ordinal⟩
          refine ⟨⟨r.cldrVersion, hv, ?_, ?_, ?_, ?_⟩, ?_, by simp, ?_, ?_⟩
          · intro r' hr'
            rcases List.mem_cons.1 hr' with rfl | hr'
            · rfl
            · exact hacc.versions r' hr'
          · intro r' hr' d hd
            rcases List.mem_cons.1 hr' with rfl | hr'
            · exact hd.elim (c1 d) (o1 d)
            · exact hacc.types r' hr' d hd
          · rw [filterMap_cons_toList]; exact c2
          · rw [filterMap_cons_toList]; exact o2
          · intro _ v' hv'
            have e : r.cldrVersion = v' := hv'.versions r (by simp)
            subst e
            by_cases hrs : rs = []
            · rw [h3 hrs]
            · exact h2 hrs _ hacc
          · rw [h4, addType_given parseId _ _ _ hc, filterMap_cons_toList]
            cases r.cardinal <;> simp
          · rw [h5, addType_given parseId _ _ _ ho, filterMap_cons_toList]
            cases r.ordinal <;> simp
    · simp at h

theorem genLoop_of_accepted (s : GenState) (rs : List Resource) (v : Str) (h : Accepted parseId s rs v) :
    genLoop parseId s rs ≠ none := by
  induction rs generalizing s with
  | nil => simp [genLoop]
  | cons r rs ih =>
    have hv : r.cldrVersion = v := h.versions r (by simp)
    subst hv
    have hc := h.cardinal
    have ho := h.ordinal
    rw [filterMap_cons_toList] at hc ho
    have tc : ∀ o ∈ rs.filterMap (·.cardinal), genTypeRs parseId o ≠ none := by
      intro o ho
      obtain ⟨r', hr', he⟩ := List.mem_filterMap.1 ho
      exact h.types r' (by simp [hr']) o (.inl he)
    have tt : ∀ o ∈ rs.filterMap (·.ordinal), genTypeRs parseId o ≠ none := by
      intro o ho
      obtain ⟨r', hr', he⟩ := List.mem_filterMap.1 ho
      exact h.types r' (by simp [hr']) o (.inr he)
    obtain ⟨c, c1, c2⟩ := (addType_isSome parseId s.cardinal r.cardinal _ tc).2 ⟨fun d hd => h.types r (by simp) d (.inl hd), hc⟩
    obtain ⟨o, o1, o2⟩ := (addType_isSome parseId s.ordinal r.ordinal _ tt).2 ⟨fun d hd => h.types r (by simp) d (.inr hd), ho⟩
    rw [genLoop_cons, genStep_eq, if_pos h.version, c1, o1]
    simp only [Option.bind_some]
    exact ih _ ⟨.inr rfl, fun r' hr' => h.versions r' (by simp [hr']), fun r' hr' => h.types r' (by simp [hr']), c2, o2⟩

theorem generateTokens_isSome (rs : List Resource) : generateTokens parseId rs ≠ none ↔
    ∃ v, Accepted parseId ⟨none, none, none⟩ rs v ∧ rs ≠ [] ∧ parseSigned 64 v ≠ none ∧
      (rs.filterMap (·.cardinal) ≠ [] ∨ rs.filterMap (·.ordinal) ≠ []) := by
  unfold generateTokens
  cases hl : genLoop parseId ⟨none, none, none⟩ rs with
  | none =>
    simp only [ne_eq, not_true_eq_false, false_iff]
    rintro ⟨v, hacc, -⟩
    exact genLoop_of_accepted parseId _ _ _ hacc hl
  | some s =>
    obtain ⟨⟨v, hacc⟩, h2, h3, h4, h5⟩ := genLoop_some parseId _ _ _ hl
    replace h4 : s.cardinal ≠ none ↔ rs.filterMap (·.cardinal) ≠ [] := h4.trans (by simp)
    replace h5 : s.ordinal ≠ none ↔ rs.filterMap (·.ordinal) ≠ [] := h5.trans (by simp)
    by_cases hrs : rs = []
    · have := h3 hrs
      simp [this, hrs]
    · have hv := h2 hrs v hacc
      simp only [hv]
      constructor
      · intro h
        refine ⟨v, hacc, hrs, ?_, ?_⟩
        · intro hp
          split at h
          · exact absurd rfl h
          · simp [genFn, hp] at h
        · rw [← h4, ← h5]
          by_contra hcon
          simp only [not_or, not_not] at hcon
          simp [hcon.1, hcon.2] at h
      · rintro ⟨v', hacc', -, hp, hg⟩
        have e := h2 hrs v' hacc'
        rw [hv] at e; cases e
        rw [← h4, ← h5] at hg
        rw [if_neg (by
          simp only [Bool.and_eq_true, Option.isNone_iff_eq_none, not_and_or]; exact hg)]
        unfold genFn
        cases hq : parseSigned 64 v with
        | none => exact absurd hq hp
        | some x => simp

/-! ## C48: the entries of a table -/

theorem entries_spec {obj : TypeObj} {l : List (LangId × List (PluralCategory × List Tok))}
    (h : genTypeEntries parseId obj = some l) :
    (∀ id set, (id, set) ∈ l ↔ ∃ key rules, LastOf obj key rules ∧ key ≠ c!"root" ∧ parseId key = some id ∧
      genLocaleRules (btree rules) = some set) ∧
    (l.Pairwise fun a b => LangId.cmp a.1 b.1 ≠ .gt) ∧
    ((∀ k k' r r' id, LastOf obj k r → LastOf obj k' r' → k ≠ c!"root" → k' ≠ c!"root" → parseId k = some id →
      parseId k' = some id → k = k') → l.Pairwise fun a b => LangId.cmp a.1 b.1 = .lt) := by
  unfold genTypeEntries at h
  cases hk : parseKeys parseId (btree (obj.map fun p => (p.1, btree p.2))) with
  | none => simp [hk] at h
  | some ks =>
    simp only [hk] at h
    have hids : l.map (·.1) = (sortById ks).map (·.1) := by
      refine mapPanic_map h _ _ fun a b hb => ?_
      cases hg : genLocaleRules a.2 with
      | none => simp [hg] at hb
      | some s => simp only [hg, Option.map_some, Option.some.injEq] at hb; subst hb; rfl
    refine ⟨fun id set => ?_, ?_, ?_⟩
    · rw [mem_mapPanic h]
      constructor
      · rintro ⟨⟨id', w⟩, hm, he⟩
        cases hg : genLocaleRules w with
        | none => simp [hg] at he
        | some s =>
          simp only [hg, Option.map_some, Option.some.injEq, Prod.mk.injEq] at he
          obtain ⟨rfl, rfl⟩ := he
          obtain ⟨k, h1, h2, h3⟩ := (mem_parseKeys parseId hk _ _).1 ((sortById_perm ks).mem_iff.1 hm)
          obtain ⟨r, h4, rfl⟩ := (mem_typeTree obj k w).1 h1
          exact ⟨k, r, h4, h2, h3, hg⟩
      · rintro ⟨key, rules, h1, h2, h3, h4⟩
        exact ⟨(id, btree rules), (sortById_perm ks).mem_iff.2 ((mem_parseKeys parseId hk _ _).2
          ⟨key, (mem_typeTree obj key _).2 ⟨rules, h1, rfl⟩, h2, h3⟩), by simp [h4]⟩
    · have := sortById_sorted ks
      have h1 := List.pairwise_map (f := fun p : LangId × List (Str × Str) => p.1) (R := fun a b => LangId.cmp a b ≠ .gt) (l := sortById ks)
      rw [← h1, ← hids, List.pairwise_map] at this
      exact this
    · intro hinj
      have hnd := parseKeys_nodup parseId obj ks hk hinj
      have := sortById_strict ks hnd
      have h1 := List.pairwise_map (f := fun p : LangId × List (Str × Str) => p.1) (R := fun a b => LangId.cmp a b = .lt) (l := sortById ks)
      rw [← h1, ← hids, List.pairwise_map] at this
      exact this

end Verif.Gen
