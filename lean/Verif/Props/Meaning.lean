import Verif.Props.AnySort

/-!
# C82: the generated text depends only on the identifiers, the names of the rules, and what their texts say
-/

namespace Verif.Props
open Verif Api Rust Uts35 Spec Verif.Parser Grammar Generate GenPr GenRs RulesRead Gen Maps

/-- The two relations are the same but for the spelling of the operator: `=`, `in`, `is`, or `!=`, `not in`, `is not`. -/
def SameRelation (r r' : Relation) : Prop :=
  r.expression = r'.expression ∧ r.rangeList = r'.rangeList ∧
    (r.operator = r'.operator ∨ Positive r.operator ∧ Positive r'.operator ∨ Negative r.operator ∧ Negative r'.operator)

/-- The two texts are read as the same condition but for the spelling of operators, or neither is read. -/
def SameCondition (t t' : Str) : Prop :=
  ((∀ c, ¬ ConditionOf 64 t c) ∧ ∀ c, ¬ ConditionOf 64 t' c) ∨
  ∃ c c', ConditionOf 64 t c ∧ ConditionOf 64 t' c' ∧ List.Forall₂ (List.Forall₂ SameRelation) c c'

/-- The two objects have rules of the same names, with texts that say the same. -/
def AlikeRules (r r' : RuleObj) : Prop :=
  (∀ name t, LastOf r name t → ∃ t', LastOf r' name t' ∧ SameCondition t t') ∧
  ∀ name t', LastOf r' name t' → ∃ t, LastOf r name t ∧ SameCondition t t'

/-- Both objects have only identifiers as keys, none in two spellings, and the same ones, with rules that say the same. -/
def AlikeTypes (parseId : Str → Option LangId) (obj obj' : TypeObj) : Prop :=
  (DistinctIds parseId obj ∧ ∀ key r, LastOf obj key r → key ≠ c!"root" → ∃ id, parseId key = some id) ∧
  (DistinctIds parseId obj' ∧ ∀ key r, LastOf obj' key r → key ≠ c!"root" → ∃ id, parseId key = some id) ∧
  (∀ key r id, LastOf obj key r → key ≠ c!"root" → parseId key = some id →
    ∃ key' r', LastOf obj' key' r' ∧ key' ≠ c!"root" ∧ parseId key' = some id ∧ AlikeRules r r') ∧
  ∀ key' r' id, LastOf obj' key' r' → key' ≠ c!"root" → parseId key' = some id →
    ∃ key r, LastOf obj key r ∧ key ≠ c!"root" ∧ parseId key = some id ∧ AlikeRules r r'

/-- What a rule text is to the generator: not read, or a condition for which it panics, or a condition with its code. -/
def codeOf (t : Str) : Option (Option (List Tok)) := (parsePluralCondition 64 t).toOption.map genPr

theorem mapPanic_congr₂ {f : α → Option β} {g : γ → Option β} {l : List α} {m : List γ} (h : List.Forall₂ (fun a b => f a = g b) l m) :
    mapPanic f l = mapPanic g m := by
  induction h with
  | nil => rfl
  | cons h _ ih => simp only [mapPanic, h, ih]

theorem createRelation_same {r r' : Relation} (h : SameRelation r r') : createRelation r = createRelation r' := by
  obtain ⟨e, o, l⟩ := r
  obtain ⟨e', o', l'⟩ := r'
  obtain ⟨h1, h2, h3⟩ := h
  simp only at h1 h2 h3
  subst h1 h2
  rcases h3 with rfl | ⟨a, b⟩ | ⟨a, b⟩
  · rfl
  · rcases a with rfl | rfl | rfl <;> rcases b with rfl | rfl | rfl <;> rfl
  · rcases a with rfl | rfl | rfl <;> rcases b with rfl | rfl | rfl <;> rfl

theorem genPr_same {c c' : Condition} (h : List.Forall₂ (List.Forall₂ SameRelation) c c') : genPr c = genPr c' := by
  unfold genPr createCondition
  rw [mapPanic_congr₂ (h.imp fun a b hab => ?_)]
  unfold createAndCondition
  rw [mapPanic_congr₂ (hab.imp fun _ _ h => createRelation_same h)]

theorem codeOf_eq {t t' : Str} (h : SameCondition t t') : codeOf t = codeOf t' := by
  unfold codeOf
  rcases h with ⟨h1, h2⟩ | ⟨c, c', h1, h2, h3⟩
  · cases e1 : parsePluralCondition 64 t with
    | ok c => exact absurd (parsePluralCondition_ok.1 e1) (h1 c)
    | error _ =>
      cases e2 : parsePluralCondition 64 t' with
      | ok c => exact absurd (parsePluralCondition_ok.1 e2) (h2 c)
      | error _ => rfl
  · rw [parsePluralCondition_ok.2 h1, parsePluralCondition_ok.2 h2]; simp only [Except.toOption, Option.map_some, genPr_same h3]

theorem insertKey_map (f : α → β) (k : Str) (v : α) (m : List (Str × α)) :
    (insertKey k v m).map (fun p => (p.1, f p.2)) = insertKey k (f v) (m.map fun p => (p.1, f p.2)) := by
  induction m with
  | nil => rfl
  | cons p m ih =>
    obtain ⟨k', v'⟩ := p
    simp only [insertKey, List.map_cons]
    cases LangId.cmpStr k k' <;> simp [ih]

theorem btree_map (f : α → β) (m : List (Str × α)) : (btree m).map (fun p => (p.1, f p.2)) = btree (m.map fun p => (p.1, f p.2)) := by
  induction m using List.reverseRecOn with
  | nil => rfl
  | append_singleton m p ih =>
    simp only [btree, List.foldl_append, List.map_append, List.foldl_cons, List.foldl_nil, List.map_cons, List.map_nil] at ih ⊢
    rw [insertKey_map, ih]

/-- One rule, by its code. -/
def genRuleOf (p : Str × Option (Option (List Tok))) : Option (Option (PluralCategory × List Tok)) :=
  match (splitDash p.1)[2]? with
  | none => none
  | some catName =>
    match p.2 with
    | none => none
    | some code => if categoryOfName catName ≠ .OTHER then code.map fun tokens => some (categoryOfName catName, tokens) else some none

theorem genRule_of (p : Str × Str) : genRule p = genRuleOf (p.1, codeOf p.2) := by
  unfold genRule genRuleOf codeOf
  cases (splitDash p.1)[2]? with
  | none => rfl
  | some n =>
    simp only [Verif.Parser.usizeBits]
    cases parsePluralCondition 64 p.2 <;> rfl

theorem mapPanic_comp (f : β → Option γ) (g : α → β) (l : List α) : mapPanic (fun a => f (g a)) l = mapPanic f (l.map g) := by
  induction l with
  | nil => rfl
  | cons a l ih => simp only [mapPanic, List.map_cons, ih]

theorem genLocaleRules_alike {r r' : RuleObj} (h : AlikeRules r r') : genLocaleRules (btree r) = genLocaleRules (btree r') := by
  have e : ∀ r : RuleObj, mapPanic genRule (btree r) = mapPanic genRuleOf (btree (r.map fun p => (p.1, codeOf p.2))) := by
    intro r
    rw [← btree_map, ← mapPanic_comp]
    congr 1; funext p; exact genRule_of p
  unfold genLocaleRules
  rw [e, e, btree_ext (m' := r'.map fun p => (p.1, codeOf p.2))]
  intro k v
  rw [lastOf_map, lastOf_map]
  constructor
  · rintro ⟨t, h1, rfl⟩
    obtain ⟨t', h2, h3⟩ := h.1 k t h1
    exact ⟨t', h2, (codeOf_eq h3).symm⟩
  · rintro ⟨t', h1, rfl⟩
    obtain ⟨t, h2, h3⟩ := h.2 k t' h1
    exact ⟨t, h2, codeOf_eq h3⟩

theorem genTypeEntries_alike (parseId : Str → Option LangId) (obj obj' : TypeObj) (h : AlikeTypes parseId obj obj') :
    genTypeRs parseId obj = genTypeRs parseId obj' := by
  obtain ⟨⟨d1, k1⟩, ⟨d2, k2⟩, a1, a2⟩ := h
  have hsome : genTypeRs parseId obj ≠ none ↔ genTypeRs parseId obj' ≠ none := by
    rw [genTypeRs_isSome, genTypeRs_isSome]
    constructor
    · intro h key r hl hr
      obtain ⟨id, hid⟩ := k2 key r hl hr
      obtain ⟨key', r', h1, h2, h3, h4⟩ := a2 key r id hl hr hid
      exact ⟨by simp [hid], genLocaleRules_alike h4 ▸ (h key' r' h1 h2).2⟩
    · intro h key r hl hr
      obtain ⟨id, hid⟩ := k1 key r hl hr
      obtain ⟨key', r', h1, h2, h3, h4⟩ := a1 key r id hl hr hid
      exact ⟨by simp [hid], genLocaleRules_alike h4 ▸ (h key' r' h1 h2).2⟩
  unfold genTypeRs at hsome ⊢
  cases h1 : genTypeEntries parseId obj with
  | none =>
    cases h2 : genTypeEntries parseId obj' with
    | none => rfl
    | some l' => simp [h1, h2] at hsome
  | some l =>
    cases h2 : genTypeEntries parseId obj' with
    | none => simp [h1, h2] at hsome
    | some l' =>
      obtain ⟨m1, s1, n1⟩ := entries_spec parseId h1
      obtain ⟨m2, s2, n2⟩ := entries_spec parseId h2
      have nd : ∀ l : List (LangId × List (PluralCategory × List Tok)), (l.Pairwise fun a b => LangId.cmp a.1 b.1 = .lt) → (l.map (·.1)).Nodup := by
        intro l hl
        refine List.pairwise_map.2 (hl.imp ?_)
        intro a b hab he
        rw [he, (LangId.cmp_lawful.eq_iff _ _).2 rfl] at hab; cases hab
      have hn1 := nd l (n1 d1)
      have hn2 := nd l' (n2 d2)
      have hp : l.Perm l' := by
        refine (List.perm_ext_iff_of_nodup (List.Nodup.of_map _ hn1) (List.Nodup.of_map _ hn2)).2 ?_
        rintro ⟨id, set⟩
        rw [m1, m2]
        constructor
        · rintro ⟨key, r, b1, b2, b3, b4⟩
          obtain ⟨key', r', c1, c2, c3, c4⟩ := a1 key r id b1 b2 b3
          exact ⟨key', r', c1, c2, c3, by rw [← genLocaleRules_alike c4, b4]⟩
        · rintro ⟨key, r, b1, b2, b3, b4⟩
          obtain ⟨key', r', c1, c2, c3, c4⟩ := a2 key r id b1 b2 b3
          exact ⟨key', r', c1, c2, c3, by rw [genLocaleRules_alike c4, b4]⟩
      rw [sorted_unique hp hn1 s1 s2]

/-- C82: files of the same version whose types have the same identifiers, however they are spelt and ordered, and rules of the same
names, with texts that are read as the same conditions but for the spelling of operators, generate the same text. -/
theorem C82_meaning (parseId : Str → Option LangId) (rs rs' : List Resource) (h : List.Forall₂ (FileRelated (AlikeTypes parseId)) rs rs') :
    generateRs parseId rs = generateRs parseId rs' := by
  have ha : ∀ old x y, BothOrNone (AlikeTypes parseId) x y → addType parseId old x = addType parseId old y := by
    intro old x y h
    cases x with
    | none => cases y with
      | none => rfl
      | some _ => cases h
    | some a => cases y with
      | none => cases h
      | some b => simp only [addType, genTypeEntries_alike parseId a b h]
  have hl : ∀ s, genLoop parseId s rs = genLoop parseId s rs' := by
    induction h with
    | nil => intro s; rfl
    | @cons f g rs rs' h1 _ ih =>
      intro s
      have : genStep parseId s f = genStep parseId s g := by
        rw [genStep_eq, genStep_eq, h1.1, ha _ _ _ h1.2.1, ha _ _ _ h1.2.2]
      rw [genLoop_cons, genLoop_cons, this]
      congr 1; funext s'; exact ih s'
  unfold generateRs generateTokens
  rw [hl]

/-- C82: texts of rules that say the same conditions, whatever their spaces, numbers of leading zeros, operators and samples. -/
theorem C82_texts (t t' : Str) (c c' : Condition) (x x' : Option Samples) (h : RuleText 64 t ⟨c, x⟩) (h' : RuleText 64 t' ⟨c', x'⟩)
    (hc : List.Forall₂ (List.Forall₂ SameRelation) c c') : SameCondition t t' :=
  .inr ⟨c, c', parsePluralCondition_ok.1 (C31_agree 64 _ _ (parsePluralRule_ok.2 h)),
    parsePluralCondition_ok.1 (C31_agree 64 _ _ (parsePluralRule_ok.2 h')), hc⟩

/-- Two spellings of the same data: case and separator of identifiers, order, root, spaces, leading zeros, operators, samples. -/
def spelling1 : TypeObj :=
  [(c!"root", []), (c!"pt_PT", [(c!"pluralRule-count-one", c!"i = 1 and v != 0,3..5 @integer 1"), (c!"pluralRule-count-other", c!" @integer 2")]),
    (c!"fr", [(c!"pluralRule-count-other", [])])]

def spelling2 : TypeObj :=
  [(c!"FR", [(c!"pluralRule-count-other", [])]),
    (c!"PT-pt", [(c!"pluralRule-count-other", c!"@decimal 0.0"), (c!"pluralRule-count-one", c!"i  is 01  and v not in 0, 3..5")])]

example : AlikeTypes LangId.parse spelling1 spelling2 ∧ generateRs LangId.parse [⟨c!"37", some spelling1, none⟩] ≠ none := by
  have one : SameCondition c!"i = 1 and v != 0,3..5 @integer 1" c!"i  is 01  and v not in 0, 3..5" :=
    .inr ⟨[[⟨⟨.I, none⟩, .EQ, [.value 1]⟩, ⟨⟨.V, none⟩, .NotEQ, [.value 0, .range 3 5]⟩]],
      [[⟨⟨.I, none⟩, .Is, [.value 1]⟩, ⟨⟨.V, none⟩, .NotIn, [.value 0, .range 3 5]⟩]], parsePluralCondition_ok.1 (by with_unfolding_all rfl), parsePluralCondition_ok.1 (by with_unfolding_all rfl),
      .cons (.cons ⟨rfl, rfl, .inr (.inl ⟨by simp [Positive], by simp [Positive]⟩)⟩
        (.cons ⟨rfl, rfl, .inr (.inr ⟨by simp [Negative], by simp [Negative]⟩)⟩ .nil)) .nil⟩
  have other : SameCondition c!" @integer 2" c!"@decimal 0.0" :=
    .inr ⟨[], [], parsePluralCondition_ok.1 (by with_unfolding_all rfl), parsePluralCondition_ok.1 (by with_unfolding_all rfl), .nil⟩
  have empty : SameCondition [] [] := .inr ⟨[], [], parsePluralCondition_ok.1 (by with_unfolding_all rfl), parsePluralCondition_ok.1 (by with_unfolding_all rfl), .nil⟩
  have pt : AlikeRules [(c!"pluralRule-count-one", c!"i = 1 and v != 0,3..5 @integer 1"), (c!"pluralRule-count-other", c!" @integer 2")]
      [(c!"pluralRule-count-other", c!"@decimal 0.0"), (c!"pluralRule-count-one", c!"i  is 01  and v not in 0, 3..5")] := by
    unfold AlikeRules
    simp only [lastOf_nodup (show ([(c!"pluralRule-count-one", c!"i = 1 and v != 0,3..5 @integer 1"), (c!"pluralRule-count-other", c!" @integer 2")].map (·.1)).Nodup by decide),
      lastOf_nodup (show ([(c!"pluralRule-count-other", c!"@decimal 0.0"), (c!"pluralRule-count-one", c!"i  is 01  and v not in 0, 3..5")].map (·.1)).Nodup by decide)]
    constructor
    · intro n t h
      rcases List.mem_cons.1 h with h | h
      · cases h; exact ⟨_, List.mem_cons_of_mem _ (List.mem_singleton.2 rfl), one⟩
      · cases List.mem_singleton.1 h; exact ⟨_, List.mem_cons_self, other⟩
    · intro n t h
      rcases List.mem_cons.1 h with h | h
      · cases h; exact ⟨_, List.mem_cons_of_mem _ (List.mem_singleton.2 rfl), other⟩
      · cases List.mem_singleton.1 h; exact ⟨_, List.mem_cons_self, one⟩
  have fr : AlikeRules [(c!"pluralRule-count-other", [])] [(c!"pluralRule-count-other", [])] :=
    ⟨fun n t h => ⟨t, h, by rw [lastOf_nodup (by decide)] at h; cases List.mem_singleton.1 h; exact empty⟩,
      fun n t h => ⟨t, h, by rw [lastOf_nodup (by decide)] at h; cases List.mem_singleton.1 h; exact empty⟩⟩
  have n1 : (spelling1.map (·.1)).Nodup := by decide
  have n2 : (spelling2.map (·.1)).Nodup := by decide
  refine ⟨⟨⟨distinctIds_of n1 (by decide +kernel), ?_⟩, ⟨distinctIds_of n2 (by decide +kernel), ?_⟩, ?_, ?_⟩, by decide +kernel⟩ <;>
    simp only [lastOf_nodup n1, lastOf_nodup n2]
  · intro k r h hr
    rcases List.mem_cons.1 h with h | h
    · cases h; exact absurd rfl hr
    rcases List.mem_cons.1 h with h | h
    · cases h; exact ⟨_, rfl⟩
    · cases List.mem_singleton.1 h; exact ⟨_, rfl⟩
  · intro k r h hr
    rcases List.mem_cons.1 h with h | h
    · cases h; exact ⟨_, rfl⟩
    · cases List.mem_singleton.1 h; exact ⟨_, rfl⟩
  · intro k r id h hr hi
    rcases List.mem_cons.1 h with h | h
    · cases h; exact absurd rfl hr
    rcases List.mem_cons.1 h with h | h
    · cases h; exact ⟨_, _, List.mem_cons_of_mem _ (List.mem_singleton.2 rfl), by decide, hi, pt⟩
    · cases List.mem_singleton.1 h; exact ⟨_, _, List.mem_cons_self, by decide, hi, fr⟩
  · intro k r id h hr hi
    rcases List.mem_cons.1 h with h | h
    · cases h; exact ⟨_, _, List.mem_cons_of_mem _ (List.mem_cons_of_mem _ (List.mem_singleton.2 rfl)), by decide, hi, fr⟩
    · cases List.mem_singleton.1 h; exact ⟨_, _, List.mem_cons_of_mem _ List.mem_cons_self, by decide, hi, pt⟩

end Verif.Props
