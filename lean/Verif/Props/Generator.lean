import Verif.Lemmas.Entry
import Verif.Props.Categories
import Verif.Props.Longest

/-!
# C45–C52: the generator
-/

namespace Verif.Props
open Verif Api Rust Uts35 Spec Verif.Parser Grammar Generate GenPr GenRs RulesRead Gen

/-! ## Specification -/

/-- Two JSON objects of rules say the same. -/
def SameRules (r r' : RuleObj) : Prop := ∀ name text, LastOf r name text ↔ LastOf r' name text

/-- Two JSON objects of locales say the same. -/
def SameType (obj obj' : TypeObj) : Prop :=
  (∀ key rules, LastOf obj key rules → ∃ rules', LastOf obj' key rules' ∧ SameRules rules rules') ∧
  (∀ key rules', LastOf obj' key rules' → ∃ rules, LastOf obj key rules ∧ SameRules rules rules')

/-- The same locales with the same rules, both in another order, and no key twice. -/
def Reordered (obj obj' : TypeObj) : Prop :=
  (obj.map (·.1)).Nodup ∧ ∃ mid, obj.Perm mid ∧
    List.Forall₂ (fun p q => p.1 = q.1 ∧ p.2.Perm q.2 ∧ (p.2.map (·.1)).Nodup) mid obj'

/-- Two optional things are both missing, or related. -/
def BothOrNone (R : α → α → Prop) : Option α → Option α → Prop
  | none, none => True
  | some a, some b => R a b
  | _, _ => False

/-- Two files with the same version and related types. -/
def FileRelated (R : TypeObj → TypeObj → Prop) (f g : Resource) : Prop :=
  f.cldrVersion = g.cldrVersion ∧ BothOrNone R f.cardinal g.cardinal ∧ BothOrNone R f.ordinal g.ordinal

/-- The names of the categories that the generator knows, apart from `other`. -/
def categoryNames : List Str := [c!"zero", c!"one", c!"two", c!"few", c!"many"]

/-- The generator does not panic on the rules of this locale. -/
def RulesAccepted (rules : RuleObj) : Prop := ∀ name text, LastOf rules name text →
  ∃ part c, ThirdPart name part ∧ ConditionOf 64 text c ∧
    (part ∈ categoryNames → ∀ a ∈ c, ∀ r ∈ a, IsWithin r.operator → ∃ lo hi, RangeListItem.range lo hi ∈ r.rangeList)

/-- The generator does not panic on this type. -/
def TypeAccepted (parseId : Str → Option LangId) (obj : TypeObj) : Prop := ∀ key rules, LastOf obj key rules →
  key ≠ c!"root" → (∃ id, parseId key = some id) ∧ RulesAccepted rules

/-- Different keys but `root` are different identifiers. -/
def DistinctIds (parseId : Str → Option LangId) (obj : TypeObj) : Prop := ∀ k k' r r' id, LastOf obj k r → LastOf obj k' r' →
  k ≠ c!"root" → k' ≠ c!"root" → parseId k = some id → parseId k' = some id → k = k'

/-- Every key but `root` is an identifier with a language and without variants. -/
def PlainIds (obj : TypeObj) : Prop := ∀ key rules, LastOf obj key rules → key ≠ c!"root" →
  ∃ id, LangId.parse key = some id ∧ id.language ≠ none ∧ id.variants = none

/-- The order of the tests. -/
def testOrder : List PluralCategory := [.FEW, .MANY, .ONE, .TWO, .ZERO]

/-- The category is tested before the other one. -/
def Earlier (a b : PluralCategory) : Prop := [a, b].Sublist testOrder

/-- Every key is `pluralRule-count-` and the name of a category. -/
def StandardKeys (rules : RuleObj) : Prop := ∀ name text, LastOf rules name text → ∃ c, name = c!"pluralRule-count-" ++ cldrName c

/-- The rule that the object has for the category says a condition, and the number satisfies it. -/
def Says (rules : RuleObj) (d : Dec) (c : PluralCategory) : Prop := ∃ text condition samples,
  LastOf rules (c!"pluralRule-count-" ++ cldrName c) text ∧ RuleText 64 text ⟨condition, samples⟩ ∧ Holds d condition

/-- The first category in the order of the tests whose rule the number satisfies, and OTHER if there is none. -/
def FirstCategory (rules : RuleObj) (d : Dec) (c : PluralCategory) : Prop :=
  (c ≠ .OTHER ∧ Says rules d c ∧ ∀ c', Earlier c' c → ¬ Says rules d c') ∨ (c = .OTHER ∧ ∀ c', c' ≠ .OTHER → ¬ Says rules d c')

/-- Every rule has a standard key, its text says a condition, and the relations of all but the OTHER rule are of this kind. -/
def Supported (Q : Relation → Prop) (rules : RuleObj) : Prop := ∀ name text, LastOf rules name text →
  ∃ c condition samples, name = c!"pluralRule-count-" ++ cldrName c ∧ RuleText 64 text ⟨condition, samples⟩ ∧
    (c ≠ .OTHER → AllRelations Q condition)

/-! ## C45 -/

/-- C45: the order of the files does not matter, neither for the generated text nor for whether the generator panics. -/
theorem C45_file_order (parseId : Str → Option LangId) (rs rs' : List Resource) (h : rs.Perm rs') :
    generateRs parseId rs = generateRs parseId rs' := by
  unfold generateRs generateTokens
  rw [genLoop_perm parseId h]

/-- Two files in both orders, with an output. -/
def exampleFiles : List Resource :=
  [⟨c!"37", some [(c!"pl", [(c!"pluralRule-count-one", c!"i = 1"), (c!"pluralRule-count-other", c!"")]), (c!"en", [(c!"pluralRule-count-one", c!"i = 1 and v = 0")])], none⟩,
   ⟨c!"37", none, some [(c!"root", [(c!"x", c!"?")]), (c!"en", [])]⟩]

example : ∃ text, generateRs LangId.parse exampleFiles = some text ∧ generateRs LangId.parse exampleFiles.reverse = some text ∧
    exampleFiles.Perm exampleFiles.reverse ∧ exampleFiles ≠ exampleFiles.reverse := by
  have h : (generateRs LangId.parse exampleFiles).isSome = true := by decide +kernel
  obtain ⟨text, ht⟩ := Option.isSome_iff_exists.1 h
  have hp := (List.reverse_perm exampleFiles).symm
  exact ⟨text, ht, C45_file_order _ _ _ hp ▸ ht, hp, by decide +kernel⟩

/-! ## C46 -/

theorem genTypeRs_same (parseId : Str → Option LangId) (obj obj' : TypeObj) (h : SameType obj obj') :
    genTypeRs parseId obj = genTypeRs parseId obj' := by
  refine genTypeRs_ext parseId fun key w => ⟨?_, ?_⟩
  · rintro ⟨r, h1, rfl⟩
    obtain ⟨r', h2, h3⟩ := h.1 key r h1
    exact ⟨r', h2, (Maps.btree_ext h3).symm⟩
  · rintro ⟨r', h1, rfl⟩
    obtain ⟨r, h2, h3⟩ := h.2 key r' h1
    exact ⟨r, h2, Maps.btree_ext h3⟩

theorem addType_same (parseId : Str → Option LangId) (old : Option (List (List Tok))) (x y : Option TypeObj)
    (h : BothOrNone SameType x y) : addType parseId old x = addType parseId old y := by
  cases x with
  | none => cases y with
    | none => rfl
    | some b => exact h.elim
  | some a => cases y with
    | none => exact h.elim
    | some b =>
      simp only [addType]
      rw [genTypeRs_same parseId a b h]

/-- C46: files whose objects say the same generate the same text. -/
theorem C46_same_objects (parseId : Str → Option LangId) (rs rs' : List Resource) (h : List.Forall₂ (FileRelated SameType) rs rs') :
    generateRs parseId rs = generateRs parseId rs' := by
  have hl : ∀ s, genLoop parseId s rs = genLoop parseId s rs' := by
    induction h with
    | nil => intro s; rfl
    | @cons f g rs rs' h1 _ ih =>
      intro s
      have : genStep parseId s f = genStep parseId s g := by
        rw [genStep_eq, genStep_eq, h1.1, addType_same parseId _ _ _ h1.2.1, addType_same parseId _ _ _ h1.2.2]
      rw [genLoop_cons, genLoop_cons, this]
      congr 1; funext s'; exact ih s'
  unfold generateRs generateTokens
  rw [hl]

/-- A key twice, of which the last counts. -/
example : generateRs LangId.parse [⟨c!"37", some [(c!"en", [(c!"a-b-one", c!"i = 1")])], none⟩] =
    generateRs LangId.parse [⟨c!"37", some [(c!"en", []), (c!"en", [(c!"a-b-one", c!"i = 1")])], none⟩] := by
  have h1 : LastOf [(c!"en", [(c!"a-b-one", c!"i = 1")])] c!"en" [(c!"a-b-one", c!"i = 1")] := ⟨[], [], rfl, by simp⟩
  have h2 : LastOf [(c!"en", []), (c!"en", [(c!"a-b-one", c!"i = 1")])] c!"en" [(c!"a-b-one", c!"i = 1")] := ⟨[(c!"en", [])], [], rfl, by simp⟩
  have key : ∀ (m : TypeObj) (k : Str) (r : RuleObj), (∀ p ∈ m, p.1 = c!"en") → LastOf m k r → k = c!"en" := by
    rintro m k r hm ⟨b, a, rfl, -⟩
    exact hm (k, r) (by simp)
  refine C46_same_objects _ _ _ (.cons ⟨rfl, ⟨fun k r h => ?_, fun k r h => ?_⟩, trivial⟩ .nil)
  · obtain rfl := key _ k r (by simp) h
    exact ⟨_, h2, by rw [Maps.lastOf_unique h h1]; exact fun _ _ => Iff.rfl⟩
  · obtain rfl := key _ k r (by simp) h
    exact ⟨_, h1, by rw [Maps.lastOf_unique h h2]; exact fun _ _ => Iff.rfl⟩

theorem sameRules_perm {r r' : RuleObj} (h : r.Perm r') (hn : (r.map (·.1)).Nodup) : SameRules r r' := by
  intro name text
  rw [Maps.lastOf_nodup hn, Maps.lastOf_nodup ((h.map _).nodup_iff.1 hn), h.mem_iff]

theorem sameType_reordered {obj obj' : TypeObj} (h : Reordered obj obj') : SameType obj obj' := by
  obtain ⟨hn, mid, hp, hf⟩ := h
  have hnm : (mid.map (·.1)).Nodup := (hp.map _).nodup_iff.1 hn
  have hkeys : mid.map (·.1) = obj'.map (·.1) := by
    clear hp hnm hn
    induction hf with
    | nil => rfl
    | cons h1 _ ih => simp [h1.1, ih]
  have hn' : (obj'.map (·.1)).Nodup := hkeys ▸ hnm
  have hl : ∀ p ∈ mid, ∃ q ∈ obj', p.1 = q.1 ∧ SameRules p.2 q.2 := by
    clear hp hnm hn hkeys hn'
    induction hf with
    | nil => simp
    | cons h1 _ ih =>
      intro p hp
      rcases List.mem_cons.1 hp with rfl | hp
      · exact ⟨_, by simp, h1.1, sameRules_perm h1.2.1 h1.2.2⟩
      · obtain ⟨q, hq, h⟩ := ih p hp; exact ⟨q, by simp [hq], h⟩
  have hr : ∀ q ∈ obj', ∃ p ∈ mid, p.1 = q.1 ∧ SameRules p.2 q.2 := by
    clear hp hnm hn hkeys hn' hl
    induction hf with
    | nil => simp
    | cons h1 _ ih =>
      intro p hp
      rcases List.mem_cons.1 hp with rfl | hp
      · exact ⟨_, by simp, h1.1, sameRules_perm h1.2.1 h1.2.2⟩
      · obtain ⟨q, hq, h⟩ := ih p hp; exact ⟨q, by simp [hq], h⟩
  constructor
  · intro key rules h1
    rw [Maps.lastOf_nodup hn, hp.mem_iff] at h1
    obtain ⟨⟨k, r⟩, hq, rfl, h3⟩ := hl _ h1
    exact ⟨r, (Maps.lastOf_nodup hn' _ _).2 hq, h3⟩
  · intro key rules h1
    rw [Maps.lastOf_nodup hn'] at h1
    obtain ⟨⟨k, r⟩, hq, rfl, h3⟩ := hr _ h1
    exact ⟨r, (Maps.lastOf_nodup hn _ _).2 (hp.mem_iff.2 hq), h3⟩

theorem bothOrNone_imp {R S : α → α → Prop} (h : ∀ a b, R a b → S a b) {x y : Option α} (hxy : BothOrNone R x y) : BothOrNone S x y := by
  cases x <;> cases y <;> first | exact h _ _ hxy | exact hxy

/-- C46: the order of the locales of a file, and of the rules of a locale, does not matter. -/
theorem C46_key_order (parseId : Str → Option LangId) (rs rs' : List Resource) (h : List.Forall₂ (FileRelated Reordered) rs rs') :
    generateRs parseId rs = generateRs parseId rs' :=
  C46_same_objects parseId rs rs' (h.imp fun _ _ ⟨h1, h2, h3⟩ =>
    ⟨h1, bothOrNone_imp (fun _ _ => sameType_reordered) h2, bothOrNone_imp (fun _ _ => sameType_reordered) h3⟩)

/-- Locales and rules in another order. -/
example : Reordered [(c!"b", [(c!"x", c!"1"), (c!"y", c!"2")]), (c!"a", [])] [(c!"a", []), (c!"b", [(c!"y", c!"2"), (c!"x", c!"1")])] :=
  ⟨by decide, _, .swap .., .cons (by decide) (.cons ⟨rfl, .swap .., by decide⟩ .nil)⟩

/-- With a key twice the order of the members does matter. -/
example : ¬ SameRules [(c!"x", c!"1"), (c!"x", c!"2")] [(c!"x", c!"2"), (c!"x", c!"1")] := by
  intro h
  have h1 : LastOf [(c!"x", c!"1"), (c!"x", c!"2")] c!"x" c!"2" := ⟨[(c!"x", c!"1")], [], rfl, by simp⟩
  have h2 : LastOf [(c!"x", c!"2"), (c!"x", c!"1")] c!"x" c!"1" := ⟨[(c!"x", c!"2")], [], rfl, by simp⟩
  exact absurd (Maps.lastOf_unique ((h _ _).1 h1) h2) (by decide)

/-! ## C47 -/

theorem categoryOfName_iff (part : Str) : categoryOfName part ≠ .OTHER ↔ part ∈ categoryNames := by
  unfold categoryOfName categoryNames
  simp only [List.mem_cons, List.not_mem_nil, or_false]
  split_ifs <;> simp_all

theorem rulesAccepted_iff (rules : RuleObj) : genLocaleRules (btree rules) ≠ none ↔ RulesAccepted rules := by
  rw [genLocaleRules_isSome]
  unfold RulesAccepted
  refine forall_congr' fun name => forall_congr' fun text => imp_congr_right fun _ => ?_
  rw [genRule_isSome]
  simp only [categoryOfName_iff, parsePluralCondition_ok]
  refine exists_congr fun part => exists_congr fun c => and_congr_right fun _ => and_congr_right fun _ => imp_congr_right fun _ => ?_
  rw [Ne, C40_panics_iff]
  constructor
  · intro h a ha r hr hw
    by_contra hc
    exact h ⟨a, ha, r, hr, hw, fun lo hi hm => hc ⟨lo, hi, hm⟩⟩
  · rintro h ⟨a, ha, r, hr, hw, hn⟩
    obtain ⟨lo, hi, hm⟩ := h a ha r hr hw
    exact hn lo hi hm

theorem typeAccepted_iff (parseId : Str → Option LangId) (obj : TypeObj) : genTypeRs parseId obj ≠ none ↔ TypeAccepted parseId obj := by
  rw [genTypeRs_isSome]
  unfold TypeAccepted
  refine forall_congr' fun key => forall_congr' fun rules => imp_congr_right fun _ => imp_congr_right fun _ => ?_
  rw [rulesAccepted_iff, Option.ne_none_iff_exists']

/-- C47: when the generator succeeds. -/
theorem C47_succeeds_iff (parseId : Str → Option LangId) (rs : List Resource) : (∃ text, generateRs parseId rs = some text) ↔
    rs ≠ [] ∧ (∃ v, VersionText v ∧ ∀ r ∈ rs, r.cldrVersion = v) ∧
    (rs.filterMap (·.cardinal)).length ≤ 1 ∧ (rs.filterMap (·.ordinal)).length ≤ 1 ∧
    (∃ r ∈ rs, r.cardinal ≠ none ∨ r.ordinal ≠ none) ∧
    ∀ r ∈ rs, ∀ obj, r.cardinal = some obj ∨ r.ordinal = some obj → TypeAccepted parseId obj := by
  have h0 : (∃ text, generateRs parseId rs = some text) ↔ generateTokens parseId rs ≠ none := by
    rw [← Option.ne_none_iff_exists', generateRs, Ne, Option.map_eq_none_iff]
  have hgiven : (rs.filterMap (·.cardinal) ≠ [] ∨ rs.filterMap (·.ordinal) ≠ []) ↔ ∃ r ∈ rs, r.cardinal ≠ none ∨ r.ordinal ≠ none := by
    simp only [Ne, List.filterMap_eq_nil_iff, not_forall]
    constructor
    · rintro (⟨r, hr, h⟩ | ⟨r, hr, h⟩)
      · exact ⟨r, hr, .inl h⟩
      · exact ⟨r, hr, .inr h⟩
    · rintro ⟨r, hr, h | h⟩
      · exact .inl ⟨r, hr, h⟩
      · exact .inr ⟨r, hr, h⟩
  rw [h0, generateTokens_isSome, hgiven]
  simp only [Maps.parseSigned_iff]
  constructor
  · rintro ⟨v, h1, h2, h3, h4⟩
    exact ⟨h2, ⟨v, h3, h1.versions⟩, h1.cardinal.1, h1.ordinal.1, h4, fun r hr obj ho => (typeAccepted_iff parseId obj).1 (h1.types r hr obj ho)⟩
  · rintro ⟨h1, ⟨v, h2, h3⟩, h4, h5, h6, h7⟩
    exact ⟨v, ⟨.inl rfl, h3, fun r hr obj ho => (typeAccepted_iff parseId obj).2 (h7 r hr obj ho), ⟨h4, by simp⟩, ⟨h5, by simp⟩⟩, h1, h2, h6⟩

/-- Files on which the generator succeeds, and the ways to panic: two versions, a version with a point, cardinals twice, no
type, a key that is no identifier, a rule name with two parts, a text that is no condition, within without a range. -/
example :
    let one (rules : RuleObj) : Option TypeObj := some [(c!"en", rules)]
    let ok (rs : List Resource) : Bool := (generateRs LangId.parse rs).isSome
    ok exampleFiles = true ∧ ok [] = false ∧
    ok [⟨c!"37", one [], none⟩, ⟨c!"36", none, one []⟩] = false ∧ ok [⟨c!"35.1", one [], none⟩] = false ∧
    ok [⟨c!"37", one [], none⟩, ⟨c!"37", one [], none⟩] = false ∧ ok [⟨c!"37", none, none⟩] = false ∧
    ok [⟨c!"37", some [(c!"!", [])], none⟩] = false ∧ ok [⟨c!"37", one [(c!"count-one", c!"i = 1")], none⟩] = false ∧
    ok [⟨c!"37", one [(c!"a-b-one", c!"i ~ 1")], none⟩] = false ∧
    ok [⟨c!"37", one [(c!"a-b-one", c!"n within 1")], none⟩] = false ∧
    ok [⟨c!"37", one [(c!"a-b-other", c!"n within 1")], none⟩] = true := by decide +kernel

/-! ## C48 -/

/-- C48: the table has an entry for an identifier exactly if it is that of a key but `root`. -/
theorem C48_listed (parseId : Str → Option LangId) (obj : TypeObj) (l : List (LangId × List (PluralCategory × List Tok)))
    (h : genTypeEntries parseId obj = some l) (id : LangId) :
    id ∈ l.map (·.1) ↔ ∃ key rules, LastOf obj key rules ∧ key ≠ c!"root" ∧ parseId key = some id := by
  obtain ⟨h1, -, -⟩ := entries_spec parseId h
  have hsome : genTypeRs parseId obj ≠ none := by simp [genTypeRs, h]
  rw [genTypeRs_isSome] at hsome
  constructor
  · intro hm
    obtain ⟨⟨i, set⟩, hp, rfl⟩ := List.mem_map.1 hm
    obtain ⟨key, rules, h2, h3, h4, -⟩ := (h1 _ _).1 hp
    exact ⟨key, rules, h2, h3, h4⟩
  · rintro ⟨key, rules, h2, h3, h4⟩
    obtain ⟨set, hs⟩ := Option.ne_none_iff_exists'.1 (hsome key rules h2 h3).2
    exact List.mem_map.2 ⟨(id, set), (h1 _ _).2 ⟨key, rules, h2, h3, h4, hs⟩, rfl⟩

example : ∃ l, genTypeEntries LangId.parse [(c!"pt_pt", []), (c!"root", []), (c!"en", [])] = some l ∧
    l.map (·.1) = [c!"en", c!"pt-PT"].filterMap LangId.parse := ⟨_, rfl, by decide +kernel⟩

/-- C48: the table is in order, and strictly so for keys that are distinct identifiers. -/
theorem C48_sorted (parseId : Str → Option LangId) (obj : TypeObj) (l : List (LangId × List (PluralCategory × List Tok)))
    (h : genTypeEntries parseId obj = some l) :
    ((l.map (·.1)).Pairwise fun a b => Before a b ∨ a = b) ∧ (DistinctIds parseId obj → (l.map (·.1)).Pairwise Before) := by
  obtain ⟨-, h2, h3⟩ := entries_spec parseId h
  constructor
  · rw [List.pairwise_map]
    refine h2.imp fun {a b} hc => ?_
    rcases C03_before_order.2.2 a.1 b.1 with h | h | h
    · exact .inl h
    · exact .inr h
    · rw [← cmp_lt_iff] at h
      exact absurd ((LangId.cmp_lawful.gt_iff _ _).2 h) hc
  · intro hd
    rw [List.pairwise_map]
    exact (h3 hd).imp fun hc => (cmp_lt_iff _ _).1 hc

theorem plainIds_writable {obj : TypeObj} (h : PlainIds obj) {l : List (LangId × List (PluralCategory × List Tok))}
    (hl : genTypeEntries LangId.parse obj = some l) : ∀ p ∈ l, Writable p.1 := by
  rintro ⟨id, set⟩ hp
  obtain ⟨key, rules, h1, h2, h3, -⟩ := ((entries_spec _ hl).1 id set).1 hp
  obtain ⟨id', h4, h5, h6⟩ := h key rules h1 h2
  rw [h3] at h4; cases h4
  exact parse_writable h3 h5 h6

/-- The table that the generated code is, read from the tokens. -/
def readTable (streams : List (List Tok)) : Option (List (LangId × Closure)) := mapPanic readEntry streams

theorem readTable_spec {obj : TypeObj} {l : List (LangId × List (PluralCategory × List Tok))}
    (hl : genTypeEntries LangId.parse obj = some l) (h : PlainIds obj) {table : List (LangId × Closure)}
    (ht : readTable (l.map fun p => genMid p.1 p.2) = some table) :
    List.Forall₂ (fun (p : LangId × List (PluralCategory × List Tok)) (e : LangId × Closure) =>
      p.1 = e.1 ∧ parseBody (ruleTokens p.2) = some e.2) l table := by
  have hw := plainIds_writable h hl
  clear hl
  have hf := Prec.mapPanic_some ht
  clear ht
  induction l generalizing table with
  | nil => cases hf; exact .nil
  | cons p l ih =>
    rw [List.map_cons] at hf
    cases hf with
    | cons h1 hf =>
      refine .cons ?_ (ih (fun q hq => hw q (by simp [hq])) hf)
      rw [readEntry_spec _ (hw p (by simp))] at h1
      cases hb : parseBody (ruleTokens p.2) with
      | none => simp [hb] at h1
      | some f => simp only [hb, Option.map_some, Option.some.injEq] at h1; subst h1; exact ⟨rfl, rfl⟩

theorem table_ids {l : List (LangId × List (PluralCategory × List Tok))} {table : List (LangId × Closure)}
    (h : List.Forall₂ (fun (p : LangId × List (PluralCategory × List Tok)) (e : LangId × Closure) =>
      p.1 = e.1 ∧ parseBody (ruleTokens p.2) = some e.2) l table) : l.map (·.1) = table.map (·.1) := by
  induction h with
  | nil => rfl
  | cons h1 _ ih => simp [h1.1, ih]

/-- C48: the binary search of `PluralRules::create` finds an identifier in the generated table exactly if it is that of a
key but `root`. -/
theorem C48_found (obj : TypeObj) (streams : List (List Tok)) (h : genTypeRs LangId.parse obj = some streams)
    (hp : PlainIds obj) (hd : DistinctIds LangId.parse obj) (table : List (LangId × Closure))
    (ht : readTable streams = some table) (id : LangId) :
    (∃ i f, binarySearchByKey table id = .ok i ∧ table[i]? = some (id, f)) ↔
      ∃ key rules, LastOf obj key rules ∧ key ≠ c!"root" ∧ LangId.parse key = some id := by
  unfold genTypeRs at h
  cases hl : genTypeEntries LangId.parse obj with
  | none => simp [hl] at h
  | some l =>
    simp only [hl, Option.map_some, Option.some.injEq] at h
    subst h
    have hids := table_ids (readTable_spec hl hp ht)
    have hsort := (C48_sorted _ _ _ hl).2 hd
    rw [hids, List.pairwise_map] at hsort
    have hsearch := binarySearch_spec table (hsort.imp fun h => (cmp_lt_iff _ _).2 h) id
    rw [← C48_listed _ _ _ hl, hids]
    constructor
    · rintro ⟨i, f, -, h2⟩
      exact List.mem_map.2 ⟨_, List.mem_of_getElem? h2, rfl⟩
    · intro hm
      cases hb : binarySearchByKey table id with
      | ok i =>
        rw [hb] at hsearch
        obtain ⟨v, hv⟩ := hsearch
        exact ⟨i, v, rfl, hv⟩
      | error i =>
        rw [hb] at hsearch
        obtain ⟨e, he, hid⟩ := List.mem_map.1 hm
        exact absurd hid (hsearch e he)

/-- Three locales and root, in another order; the hypotheses hold and the table can be read. -/
def exampleObject : TypeObj := [(c!"pt-PT", [(c!"pluralRule-count-one", c!"i = 1 and v = 0")]), (c!"root", [(c!"x", c!"?")]),
  (c!"zh-Hant", []), (c!"pt", [(c!"pluralRule-count-one", c!"i = 0..1")])]

example : ((genTypeRs LangId.parse exampleObject).bind readTable).map (·.map (·.1)) =
    some ([c!"pt", c!"pt-PT", c!"zh-Hant"].filterMap LangId.parse) := by decide +kernel

theorem example_last {k : Str} {r : RuleObj} (h : LastOf exampleObject k r) : (k, r) ∈ exampleObject :=
  (Maps.lastOf_nodup (by decide +kernel) k r).1 h

example : PlainIds exampleObject ∧ DistinctIds LangId.parse exampleObject := by
  constructor
  · intro key rules h hr
    have := example_last h
    simp only [exampleObject, List.mem_cons, Prod.mk.injEq, List.not_mem_nil, or_false] at this
    rcases this with ⟨rfl, -⟩ | ⟨rfl, -⟩ | ⟨rfl, -⟩ | ⟨rfl, -⟩
    · exact ⟨_, rfl, by simp, rfl⟩
    · exact absurd rfl hr
    · exact ⟨_, rfl, by simp, rfl⟩
    · exact ⟨_, rfl, by simp, rfl⟩
  · intro k k' r r' id h h' _ _ hi hi'
    have h1 : k ∈ exampleObject.map (·.1) := List.mem_map.2 ⟨_, example_last h, rfl⟩
    have h2 : k' ∈ exampleObject.map (·.1) := List.mem_map.2 ⟨_, example_last h', rfl⟩
    have hall : ∀ a ∈ exampleObject.map (·.1), ∀ b ∈ exampleObject.map (·.1), LangId.parse a = LangId.parse b → a = b := by
      decide +kernel
    exact hall k h1 k' h2 (hi.trans hi'.symm)

/-! ## C49 -/

theorem categoryOfName_cldrName (part : Str) (c : PluralCategory) (hc : c ≠ .OTHER) :
    categoryOfName part = c ↔ part = cldrName c := by
  constructor
  · rintro rfl
    unfold categoryOfName at *
    split_ifs at * with h1 h2 h3 h4 h5
    · exact h1
    · exact h2
    · exact h3
    · exact h4
    · exact h5
    · exact absurd rfl hc
  · rintro rfl; cases c <;> first | exact absurd rfl hc | decide +kernel

/-- The test comes from the rule. -/
def ArmOf (p : Str × Str) (a : RExpr × PluralCategory) : Prop :=
  a.2 ≠ .OTHER ∧ ∃ cond, ThirdPart p.1 (cldrName a.2) ∧ ConditionOf 64 p.2 cond ∧ Code cond a.1

theorem armOf_unique {p : Str × Str} {a b : RExpr × PluralCategory} (h : ArmOf p a) (h' : ArmOf p b) : a = b := by
  obtain ⟨h1, c, h2, h3, ts, h4, h5⟩ := h
  obtain ⟨h1', c', h2', h3', ts', h4', h5'⟩ := h'
  cases C89_one 64 _ _ _ h3 h3'
  rw [h4] at h4'; cases h4'
  rw [h5] at h5'
  have h6 := thirdPart_unique h2 h2'
  obtain ⟨e, x⟩ := a
  obtain ⟨e', x'⟩ := b
  have : x = x' := by
    have e1 := (categoryOfName_cldrName (cldrName x) x h1).2 rfl
    have e2 := (categoryOfName_cldrName (cldrName x') x' h1').2 rfl
    simp only at h6; rw [← e1, ← e2, h6]
  cases h5'; subst this; rfl

/-- The rules of a locale, in key order and without those for OTHER, and the tests of the function. -/
theorem function_of_rules (rules : RuleObj) (set : List (PluralCategory × List Tok)) (hg : genLocaleRules (btree rules) = some set)
    (hl : ∀ name text part c, LastOf rules name text → ThirdPart name part → part ∈ categoryNames →
      ConditionOf 64 text c → AllRelations Listed c) :
    ∃ src arms, src.Sublist (btree rules) ∧ List.Forall₂ ArmOf src arms ∧
      (∀ p ∈ btree rules, ∀ part, ThirdPart p.1 part → part ∈ categoryNames → p ∈ src) ∧
      parseBody (ruleTokens set) = some ⟨arms, .OTHER⟩ := by
  unfold genLocaleRules at hg
  cases hm : mapPanic genRule (btree rules) with
  | none => simp [hm] at hg
  | some opts =>
    simp only [hm, Option.map_some, Option.some.injEq] at hg
    subst hg
    obtain ⟨src, h1, h2, h3⟩ := filterMap_source hm
    have hsub : ∀ p ∈ src, LastOf rules p.1 p.2 := fun p hp => ((Maps.btree_spec rules).2 _ _).1 (h1.subset hp)
    have hskip : ∀ p ∈ btree rules, ∀ part, ThirdPart p.1 part → part ∈ categoryNames → p ∈ src := by
      intro p hp part ht hc
      refine (h3 p hp).resolve_right fun hn => ?_
      obtain ⟨part', ht', ho⟩ := genRule_skip p hn
      cases thirdPart_unique ht ht'
      exact (categoryOfName_iff part).2 hc ho
    clear h3 hm
    generalize opts.filterMap id = set at h2
    have key : ∃ arms, List.Forall₂ ArmOf src arms ∧ Reads set arms ∧ ∀ q ∈ set, q.1 ≠ .OTHER := by
      clear hskip h1
      induction h2 with
      | nil => exact ⟨[], .nil, .nil, by simp⟩
      | @cons p q src set g1 _ ih =>
        obtain ⟨arms, i1, i2, i3⟩ := ih fun p hp => hsub p (by simp [hp])
        obtain ⟨part, cond, t1, t2, t3, t4, t5⟩ := genRule_some p q g1
        have hcat : part ∈ categoryNames := (categoryOfName_iff part).1 (t2 ▸ t3)
        have hlist := hl p.1 p.2 part cond (hsub p (by simp)) t1 hcat (parsePluralCondition_ok.1 t4)
        obtain ⟨e, -, he⟩ := Prec.condition_tokens cond q.2 t5
          ⟨hlist.1, fun a ha => ⟨(hlist.2 a ha).1, fun r hr _ => ((hlist.2 a ha).2 r hr).1⟩⟩
        have hcode : Code cond e := by
          obtain ⟨e', ⟨ts, c1, c2⟩, -⟩ := code_of_condition cond hlist
          rw [t5] at c1; cases c1
          have := he (fuelFor q.2) [] (by unfold fuelFor; omega) Prec.stops_nil (by simp) (by simp)
          rw [List.append_nil] at this
          exact ⟨q.2, t5, by simp [parseExpr, this]⟩
        have hpart := (categoryOfName_cldrName part q.1 t3).1 t2
        subst hpart
        refine ⟨(e, q.1) :: arms, .cons ⟨t3, cond, t1, parsePluralCondition_ok.1 t4, hcode⟩ i1, .cons ⟨rfl, he⟩ i2, ?_⟩
        intro q' hq'
        rcases List.mem_cons.1 hq' with rfl | hq'
        · exact t3
        · exact i3 q' hq'
    obtain ⟨arms, k1, k2, k3⟩ := key
    exact ⟨src, arms, h1, k1, hskip, parseBody_spec _ _ k2 k3⟩

theorem evalArms_other (po : PluralOperands) (arms : List (RExpr × PluralCategory)) (h : ∀ a ∈ arms, a.2 ≠ .OTHER) :
    evalArms po arms .OTHER = some .OTHER ↔ ∀ a ∈ arms, a.1.eval po = some (.bool false) := by
  induction arms with
  | nil => simp [evalArms]
  | cons a arms ih =>
    obtain ⟨e, c⟩ := a
    have hc : c ≠ .OTHER := h (e, c) (by simp)
    have ih := ih fun a ha => h a (by simp [ha])
    simp only [evalArms, List.mem_cons, forall_eq_or_imp]
    split
    · rename_i he; simp [he, hc]
    · rename_i he; simp [he, ih]
    · rename_i h1 h2
      constructor
      · simp
      · rintro ⟨h3, -⟩; exact absurd h3 h2

theorem mem_arms {src : List (Str × Str)} {arms : List (RExpr × PluralCategory)} (h : List.Forall₂ ArmOf src arms) :
    (∀ a ∈ arms, ∃ p ∈ src, ArmOf p a) ∧ ∀ p ∈ src, ∃ a ∈ arms, ArmOf p a := by
  induction h with
  | nil => simp
  | cons h1 _ ih =>
    constructor
    · intro a ha
      rcases List.mem_cons.1 ha with rfl | ha
      · exact ⟨_, by simp, h1⟩
      · obtain ⟨p, hp, h⟩ := ih.1 a ha; exact ⟨p, by simp [hp], h⟩
    · intro a ha
      rcases List.mem_cons.1 ha with rfl | ha
      · exact ⟨_, by simp, h1⟩
      · obtain ⟨p, hp, h⟩ := ih.2 a ha; exact ⟨p, by simp [hp], h⟩

theorem arms_iff {rules : RuleObj} {src : List (Str × Str)} {arms : List (RExpr × PluralCategory)} (hs : src.Sublist (btree rules))
    (h : List.Forall₂ ArmOf src arms)
    (hr : ∀ p ∈ btree rules, ∀ part, ThirdPart p.1 part → part ∈ categoryNames → p ∈ src) (a : RExpr × PluralCategory) :
    a ∈ arms ↔ ∃ name text, LastOf rules name text ∧ ArmOf (name, text) a := by
  constructor
  · intro ha
    obtain ⟨⟨name, text⟩, hp, h1⟩ := (mem_arms h).1 a ha
    exact ⟨name, text, ((Maps.btree_spec rules).2 _ _).1 (hs.subset hp), h1⟩
  · rintro ⟨name, text, h1, h2⟩
    have hp : (name, text) ∈ src := by
      obtain ⟨h3, cond, h4, -⟩ := h2
      refine hr _ (((Maps.btree_spec rules).2 _ _).2 h1) _ h4 ?_
      obtain ⟨e, c⟩ := a
      simp only at h3 ⊢
      cases c <;> first | exact absurd rfl h3 | decide +kernel
    obtain ⟨b, hb, h5⟩ := (mem_arms h).2 _ hp
    rw [armOf_unique h2 h5]; exact hb

/-- C49: the tests of a generated function are those of the rules for the categories but OTHER and no others, and the
function answers OTHER exactly if all of them are false.  The conditions of these rules have no empty lists, so that the code
is an expression (C42). -/
theorem C49_other_default (id : LangId) (hid : Writable id) (rules : RuleObj) (set : List (PluralCategory × List Tok))
    (hg : genLocaleRules (btree rules) = some set)
    (hl : ∀ name text part c, LastOf rules name text → ThirdPart name part → part ∈ categoryNames →
      ConditionOf 64 text c → AllRelations Listed c) :
    ∃ f, readEntry (genMid id set) = some (id, f) ∧
      (∀ e c, (e, c) ∈ f.arms ↔ c ≠ .OTHER ∧ ∃ name text cond, LastOf rules name text ∧ ThirdPart name (cldrName c) ∧
        ConditionOf 64 text cond ∧ Code cond e) ∧
      ∀ po, f.call po = some .OTHER ↔ ∀ a ∈ f.arms, a.1.eval po = some (.bool false) := by
  obtain ⟨src, arms, h1, h2, h3, h4⟩ := function_of_rules rules set hg hl
  refine ⟨⟨arms, .OTHER⟩, by rw [readEntry_spec id hid, h4]; rfl, fun e c => ?_, fun po => ?_⟩
  · rw [arms_iff h1 h2 h3]
    constructor
    · rintro ⟨name, text, g1, g2, cond, g3, g4, g5⟩; exact ⟨g2, name, text, cond, g1, g3, g4, g5⟩
    · rintro ⟨g2, name, text, cond, g1, g3, g4, g5⟩; exact ⟨name, text, g1, g2, cond, g3, g4, g5⟩
  · refine evalArms_other po arms fun a ha => ?_
    obtain ⟨p, -, h⟩ := (mem_arms h2).1 a ha
    exact h.1

/-- C49: a locale without rules, or with rules only for OTHER or unknown names, answers OTHER always. -/
theorem C49_no_rules (id : LangId) (hid : Writable id) (rules : RuleObj) (set : List (PluralCategory × List Tok))
    (hg : genLocaleRules (btree rules) = some set)
    (hn : ∀ name text part, LastOf rules name text → ThirdPart name part → part ∉ categoryNames) :
    ∃ f, readEntry (genMid id set) = some (id, f) ∧ ∀ po, f.call po = some .OTHER := by
  obtain ⟨f, h1, h2, h3⟩ := C49_other_default id hid rules set hg fun name text part c h4 h5 h6 => absurd h6 (hn name text part h4 h5)
  refine ⟨f, h1, fun po => (h3 po).2 fun a ha => ?_⟩
  obtain ⟨hc, name, text, cond, g1, g2, -⟩ := (h2 a.1 a.2).1 ha
  refine absurd ?_ (hn name text _ g1 g2)
  obtain ⟨e, c⟩ := a
  simp only at hc ⊢
  cases c <;> first | exact absurd rfl hc | decide +kernel

/-- Rules for ONE, OTHER and an unknown name: one test. -/
def exampleRules : RuleObj := [(c!"pluralRule-count-other", c!" @integer 2~17"), (c!"pluralRule-count-one", c!"i = 1 and v = 0 @integer 1"),
  (c!"pluralRule-count-lots", c!"n > 5")]
def exampleRules' : RuleObj := exampleRules.dropLast ++ [(c!"pluralRule-count-lots", c!"n = 5")]

example : genLocaleRules (btree exampleRules) = none ∧
    ((genLocaleRules (btree exampleRules')).map (·.map (·.1))) = some [.ONE] ∧
    genLocaleRules (btree []) = some [] ∧
    ((genLocaleRules (btree exampleRules')).bind fun s => (parseBody (ruleTokens s)).map (·.arms.length)) = some 1 := by decide +kernel

theorem exampleId_writable : Writable ⟨some c!"zh", some c!"Hant", none, none⟩ :=
  ⟨⟨_, rfl, by decide, by decide⟩, (fun s h => by cases h; exact ⟨by decide, by decide⟩), (fun s h => by cases h), rfl⟩

/-- Where C49 applies: those rules, and rules of unknown names only. -/
example : (∀ name text part c, LastOf exampleRules' name text → ThirdPart name part → part ∈ categoryNames →
      ConditionOf 64 text c → AllRelations Listed c) ∧
    (∀ name text part, LastOf [(c!"pluralRule-count-lots", c!"n = 5")] name text → ThirdPart name part → part ∉ categoryNames) := by
  constructor
  · intro name text part c h1 h2 h3 h4
    have h1 := (Maps.lastOf_nodup (by decide +kernel) name text).1 h1
    simp only [exampleRules', exampleRules, List.dropLast, List.cons_append, List.nil_append, List.mem_cons, Prod.mk.injEq, List.not_mem_nil, or_false] at h1
    rcases h1 with ⟨rfl, rfl⟩ | ⟨rfl, rfl⟩ | ⟨rfl, rfl⟩
    · rw [Gen.thirdPart_unique h2 (p' := c!"other") ⟨c!"pluralRule", c!"count", [], by decide, by decide, by decide, rfl, .inl rfl⟩] at h3
      exact absurd h3 (by decide)
    · have h5 : parsePluralCondition 64 c!"i = 1 and v = 0 @integer 1" = .ok [[⟨⟨.I, none⟩, .EQ, [.value 1]⟩, ⟨⟨.V, none⟩, .EQ, [.value 0]⟩]] := by
        with_unfolding_all rfl
      rw [parsePluralCondition_ok.2 h4] at h5
      cases h5
      simp [AllRelations, Listed, IsWithin]
    · rw [Gen.thirdPart_unique h2 (p' := c!"lots") ⟨c!"pluralRule", c!"count", [], by decide, by decide, by decide, rfl, .inl rfl⟩] at h3
      exact absurd h3 (by decide)
  · intro name text part h1 h2
    have h1 := (Maps.lastOf_nodup (by decide +kernel) name text).1 h1
    simp only [List.mem_cons, Prod.mk.injEq, List.not_mem_nil, or_false] at h1
    obtain ⟨rfl, rfl⟩ := h1
    rw [Gen.thirdPart_unique h2 (p' := c!"lots") ⟨c!"pluralRule", c!"count", [], by decide, by decide, by decide, rfl, .inl rfl⟩]
    decide

/-! ## C50 -/

theorem thirdPart_standard (c : PluralCategory) : ThirdPart (c!"pluralRule-count-" ++ cldrName c) (cldrName c) :=
  ⟨c!"pluralRule", c!"count", [], by decide, by decide, by cases c <;> decide, by cases c <;> rfl, .inl rfl⟩

theorem key_order (a b : PluralCategory) (ha : a ≠ .OTHER) (hb : b ≠ .OTHER)
    (h : LangId.cmpStr (c!"pluralRule-count-" ++ cldrName a) (c!"pluralRule-count-" ++ cldrName b) = .lt) : Earlier a b := by
  unfold Earlier
  revert h
  cases a <;> cases b <;> first | exact absurd rfl ha | exact absurd rfl hb | decide +kernel

theorem cldrName_inj {a b : PluralCategory} (h : cldrName a = cldrName b) : a = b := by
  revert h; cases a <;> cases b <;> decide

theorem arms_order {rules : RuleObj} {src : List (Str × Str)} {arms : List (RExpr × PluralCategory)} (hs : src.Sublist (btree rules))
    (h : List.Forall₂ ArmOf src arms) (hk : StandardKeys rules) : arms.Pairwise fun a b => Earlier a.2 b.2 := by
  have hsort : src.Pairwise fun a b => LangId.cmpStr a.1 b.1 = .lt := List.Pairwise.sublist hs (Maps.btree_spec rules).1
  have hkeys : ∀ p ∈ src, ∃ c, p.1 = c!"pluralRule-count-" ++ cldrName c :=
    fun p hp => hk p.1 p.2 (((Maps.btree_spec rules).2 _ _).1 (hs.subset hp))
  have hname : ∀ (p : Str × Str) (a : RExpr × PluralCategory), ArmOf p a → (∃ c, p.1 = c!"pluralRule-count-" ++ cldrName c) →
      p.1 = c!"pluralRule-count-" ++ cldrName a.2 := by
    rintro p a ⟨-, cond, h1, -⟩ ⟨c, hc⟩
    rw [hc] at h1 ⊢
    rw [cldrName_inj (thirdPart_unique h1 (thirdPart_standard c))]
  clear hs
  induction h with
  | nil => exact .nil
  | @cons p a src arms h1 h2 ih =>
    obtain ⟨s1, s2⟩ := List.pairwise_cons.1 hsort
    refine List.pairwise_cons.2 ⟨fun b hb => ?_, ih s2 fun p hp => hkeys p (by simp [hp])⟩
    obtain ⟨q, hq, hqb⟩ := (mem_arms h2).1 b hb
    have e1 := hname p a h1 (hkeys p (by simp))
    have e2 := hname q b hqb (hkeys q (by simp [hq]))
    have := s1 q hq
    rw [e1, e2] at this
    exact key_order _ _ h1.1 hqb.1 this

theorem earlier_irrefl (a : PluralCategory) : ¬ Earlier a a := by unfold Earlier; cases a <;> decide

theorem earlier_asymm (a b : PluralCategory) : Earlier a b → ¬ Earlier b a := by unfold Earlier; cases a <;> cases b <;> decide

/-- C50: whatever the order in the file, the tests are in the order few, many, one, two, zero, at most one for each. -/
theorem C50_test_order (id : LangId) (hid : Writable id) (rules : RuleObj) (set : List (PluralCategory × List Tok))
    (hg : genLocaleRules (btree rules) = some set) (hk : StandardKeys rules)
    (hl : ∀ name text part c, LastOf rules name text → ThirdPart name part → part ∈ categoryNames →
      ConditionOf 64 text c → AllRelations Listed c) :
    ∃ f, readEntry (genMid id set) = some (id, f) ∧ (f.arms.Pairwise fun a b => Earlier a.2 b.2) ∧
      ∀ po c, c ≠ .OTHER → (f.call po = some c ↔ ∃ e, (e, c) ∈ f.arms ∧ e.eval po = some (.bool true) ∧
        ∀ e' c', (e', c') ∈ f.arms → Earlier c' c → e'.eval po = some (.bool false)) := by
  obtain ⟨src, arms, h1, h2, h3, h4⟩ := function_of_rules rules set hg hl
  have hord := arms_order h1 h2 hk
  refine ⟨⟨arms, .OTHER⟩, by rw [readEntry_spec id hid, h4]; rfl, hord, fun po c hc => ?_⟩
  simp only [Closure.call]
  clear h1 h2 h3 h4
  have hirr := earlier_irrefl
  have hasym := earlier_asymm
  induction arms with
  | nil => simp [evalArms, Ne.symm hc]
  | cons a arms ih =>
    obtain ⟨e, c0⟩ := a
    obtain ⟨s1, s2⟩ := List.pairwise_cons.1 hord
    have ih := ih s2
    simp only [evalArms]
    cases he : e.eval po with
    | none =>
      simp only [reduceCtorEq, false_iff]
      rintro ⟨e1, hm, ht, hf⟩
      rcases List.mem_cons.1 hm with heq | hm
      · cases heq; rw [he] at ht; cases ht
      · have := hf e c0 (by simp) (s1 _ hm); rw [he] at this; cases this
    | some v =>
      cases v with
      | int n =>
        simp only [reduceCtorEq, false_iff]
        rintro ⟨e1, hm, ht, hf⟩
        rcases List.mem_cons.1 hm with heq | hm
        · cases heq; rw [he] at ht; cases ht
        · have := hf e c0 (by simp) (s1 _ hm); rw [he] at this; cases this
      | f64 x =>
        simp only [reduceCtorEq, false_iff]
        rintro ⟨e1, hm, ht, hf⟩
        rcases List.mem_cons.1 hm with heq | hm
        · cases heq; rw [he] at ht; cases ht
        · have := hf e c0 (by simp) (s1 _ hm); rw [he] at this; cases this
      | bool b =>
        cases b with
        | true =>
          simp only [Option.some.injEq]
          constructor
          · rintro rfl
            refine ⟨e, by simp, he, fun e' c' hm hlt => ?_⟩
            rcases List.mem_cons.1 hm with heq | hm
            · cases heq; exact absurd hlt (hirr _)
            · exact absurd hlt (hasym _ _ (s1 _ hm))
          · rintro ⟨e1, hm, ht, hf⟩
            rcases List.mem_cons.1 hm with heq | hm
            · cases heq; rfl
            · have := hf e c0 (by simp) (s1 _ hm); rw [he] at this; simp at this
        | false =>
          simp only [ih]
          constructor
          · rintro ⟨e1, hm, ht, hf⟩
            refine ⟨e1, by simp [hm], ht, fun e' c' hm' hlt => ?_⟩
            rcases List.mem_cons.1 hm' with heq | hm'
            · cases heq; exact he
            · exact hf e' c' hm' hlt
          · rintro ⟨e1, hm, ht, hf⟩
            rcases List.mem_cons.1 hm with heq | hm
            · cases heq; rw [he] at ht; simp at ht
            · exact ⟨e1, hm, ht, fun e' c' hm' hlt => hf e' c' (by simp [hm']) hlt⟩

/-- Rules in reverse order of the tests, two of which hold for 0: the function answers the one that is tested first. -/
def orderRules : RuleObj := [(c!"pluralRule-count-zero", c!"i = 0"), (c!"pluralRule-count-two", c!"i = 2"),
  (c!"pluralRule-count-one", c!"i = 1"), (c!"pluralRule-count-many", c!"i = 0..9"), (c!"pluralRule-count-few", c!"i = 3")]

example : ((genLocaleRules (btree orderRules)).bind fun s => (parseBody (ruleTokens s)).map fun f =>
    (f.arms.map (·.2), f.call (PluralOperands.fromUnsigned 0), f.call (PluralOperands.fromUnsigned 3))) =
    some ([.FEW, .MANY, .ONE, .TWO, .ZERO], some .MANY, some .FEW) := by decide +kernel

/-! ## C51 -/

/-- C51: the raw integer of a subtag fits in as many bytes, and decodes to the subtag. -/
theorem C51_subtag (n : Nat) (s : Str) (hl : s.length ≤ n) (hs : ∀ c ∈ s, 0 < c.toNat ∧ c.toNat < 128) :
    LangId.rawOf s < 2 ^ (8 * n) ∧ LangId.ofRaw n (LangId.rawOf s) = s := by
  refine ⟨?_, ofRaw_rawOf n s ⟨hl, hs⟩⟩
  rw [pow_mul]
  exact rawOf_lt n s ⟨hl, hs⟩

example : LangId.rawOf c!"valencia" < 2 ^ 64 ∧ LangId.ofRaw 8 (LangId.rawOf c!"valencia") = c!"valencia" :=
  C51_subtag 8 _ (by decide) (by decide)

/-- C51: different subtags have different raw integers. -/
theorem C51_injective (s s' : Str) (hs : ∀ c ∈ s, 0 < c.toNat ∧ c.toNat < 128) (hs' : ∀ c ∈ s', 0 < c.toNat ∧ c.toNat < 128)
    (h : LangId.rawOf s = LangId.rawOf s') : s = s' := by
  rw [← ofRaw_rawOf (max s.length s'.length) s ⟨by simp, hs⟩, h, ofRaw_rawOf _ s' ⟨by simp, hs'⟩]

example (s : Str) (hs : ∀ c ∈ s, 0 < c.toNat ∧ c.toNat < 128) (h : LangId.rawOf s = LangId.rawOf c!"Latn") : s = c!"Latn" :=
  C51_injective s _ hs (by decide) h

/-- C51: the generated entry of a key is one for the identifier of the key, if that has a language and no variants. -/
theorem C51_entry (key : Str) (id : LangId) (h : LangId.parse key = some id) (hl : id.language ≠ none) (hv : id.variants = none)
    (rest : List Tok) : readLangid (genLangid id ++ rest) = some (id, rest) :=
  readLangid_spec id (parse_writable h hl hv) rest

/-- The longest subtags; and the two cases that are excluded are written wrong: `und` has no code, variants are lost. -/
example : LangId.rawOf c!"abcdefgh" = 0x6867666564636261 := by decide +kernel
example : ∃ id, LangId.parse c!"zh-hant-TW" = some id ∧ id.language ≠ none ∧ id.variants = none := ⟨_, rfl, by simp, rfl⟩
example : ∃ id, LangId.parse c!"und" = some id ∧ readLangid (genLangid id) = none := ⟨_, rfl, by decide +kernel⟩
example : ∃ id id', LangId.parse c!"ca-valencia" = some id ∧ readLangid (genLangid id) = some (id', []) ∧ id' ≠ id :=
  ⟨_, ⟨some c!"ca", none, none, none⟩, rfl, by decide +kernel, by decide +kernel⟩

/-! ## C52 -/

theorem cldrName_mem {c : PluralCategory} : cldrName c ∈ categoryNames ↔ c ≠ .OTHER := by cases c <;> decide +kernel

theorem supported_function {Q : Relation → Prop} (rules : RuleObj) (hs : Supported Q rules) (po : PluralOperands) (d : Dec)
    (hQ : ∀ c, AllRelations Q c → ∃ e b, Code c e ∧ e.eval po = some (.bool b) ∧ (b = true ↔ Holds d c))
    (hlist : ∀ r, Q r → Listed r) :
    ∃ set f, genLocaleRules (btree rules) = some set ∧ parseBody (ruleTokens set) = some f ∧
      ∃ c, f.call po = some c ∧ FirstCategory rules d c := by
  have hparse : ∀ {text condition samples}, RuleText 64 text ⟨condition, samples⟩ → ConditionOf 64 text condition :=
    fun h => parsePluralCondition_ok.1 (C31_agree 64 _ _ (C29_complete 64 _ _ h))
  have hlisted : ∀ {c}, AllRelations Q c → AllRelations Listed c :=
    fun h => ⟨h.1, fun a ha => ⟨(h.2 a ha).1, fun r hr => hlist r ((h.2 a ha).2 r hr)⟩⟩
  -- the rule of a standard key
  have hrule : ∀ name text part condition, LastOf rules name text → ThirdPart name part → part ∈ categoryNames →
      ConditionOf 64 text condition →
      ∃ c samples, c ≠ .OTHER ∧ part = cldrName c ∧ name = c!"pluralRule-count-" ++ cldrName c ∧
        RuleText 64 text ⟨condition, samples⟩ ∧ AllRelations Q condition := by
    intro name text part condition h1 h2 h3 h4
    obtain ⟨c, condition', samples, rfl, h6, h7⟩ := hs name text h1
    have := thirdPart_unique h2 (thirdPart_standard c)
    subst this
    have hc := cldrName_mem.1 h3
    cases C89_one 64 _ _ _ (hparse h6) h4
    exact ⟨c, samples, hc, rfl, rfl, h6, h7 hc⟩
  have hacc : RulesAccepted rules := by
    intro name text h1
    obtain ⟨c, condition, samples, rfl, h2, h3⟩ := hs name text h1
    refine ⟨cldrName c, condition, thirdPart_standard c, hparse h2, fun h4 a ha r hr hw => ?_⟩
    exact (((hlisted (h3 (cldrName_mem.1 h4))).2 a ha).2 r hr).2 hw
  obtain ⟨set, hset⟩ := Option.ne_none_iff_exists'.1 ((rulesAccepted_iff rules).2 hacc)
  obtain ⟨src, arms, f1, f2, f3, f4⟩ := function_of_rules rules set hset fun name text part c h1 h2 h3 h4 => by
    obtain ⟨-, -, -, -, -, -, h⟩ := hrule name text part c h1 h2 h3 h4
    exact hlisted h
  have hord := arms_order f1 f2 fun name text h => by
    obtain ⟨c, -, -, h, -⟩ := hs name text h; exact ⟨c, h⟩
  have hev : ∀ a ∈ arms, a.2 ≠ .OTHER ∧ ∃ b, a.1.eval po = some (.bool b) ∧ (b = true ↔ Says rules d a.2) := by
    intro a ha
    obtain ⟨name, text, h1, h2, cond, h3, h4, h5⟩ := (arms_iff f1 f2 f3 a).1 ha
    refine ⟨h2, ?_⟩
    obtain ⟨c, samples, -, g1, g2, g3, g4⟩ := hrule name text _ cond h1 h3 (cldrName_mem.2 h2) h4
    have := cldrName_inj g1
    subst this
    obtain ⟨e, b, k1, k2, k3⟩ := hQ cond g4
    have he : e = a.1 := by
      obtain ⟨ts, k1, k1'⟩ := k1
      obtain ⟨ts', h5, h5'⟩ := h5
      rw [k1] at h5; cases h5
      rw [k1'] at h5'; exact Option.some.inj h5'
    subst he
    refine ⟨b, k2, k3.trans ⟨fun h => ⟨text, cond, samples, g2 ▸ h1, g3, h⟩, ?_⟩⟩
    rintro ⟨text', cond', samples', l1, l2, l3⟩
    rw [← g2] at l1
    cases Maps.lastOf_unique l1 h1
    cases C37_deterministic 64 _ _ _ l2 g3
    exact l3
  have hall : ∀ c, c ≠ .OTHER → Says rules d c → ∃ a ∈ arms, a.2 = c := by
    rintro c hc ⟨text, cond, samples, l1, l2, l3⟩
    obtain ⟨c', cond', samples', e, h2, h3⟩ := hs _ text l1
    have := cldrName_inj (List.append_cancel_left e)
    subst this
    cases C37_deterministic 64 _ _ _ l2 h2
    obtain ⟨e, b, k1, -, -⟩ := hQ cond (h3 hc)
    exact ⟨(e, c), (arms_iff f1 f2 f3 (e, c)).2 ⟨_, text, l1, hc, cond, thirdPart_standard c, hparse l2, k1⟩, rfl⟩
  refine ⟨set, ⟨arms, .OTHER⟩, hset, f4, ?_⟩
  simp only [Closure.call]
  have key : ∃ c, evalArms po arms .OTHER = some c ∧
      ((c ≠ .OTHER ∧ Says rules d c ∧ ∀ a ∈ arms, Earlier a.2 c → ¬ Says rules d a.2) ∨
        (c = .OTHER ∧ ∀ a ∈ arms, ¬ Says rules d a.2)) := by
    clear hall f1 f2 f3 f4
    induction arms with
    | nil => exact ⟨.OTHER, rfl, .inr ⟨rfl, by simp⟩⟩
    | cons a arms ih =>
      obtain ⟨s1, s2⟩ := List.pairwise_cons.1 hord
      obtain ⟨hc, b, hb, hbs⟩ := hev a (by simp)
      obtain ⟨e, c0⟩ := a
      simp only at hb hbs hc s1
      cases b with
      | true =>
        refine ⟨c0, by simp [evalArms, hb], .inl ⟨hc, hbs.1 rfl, fun a' ha' hlt => ?_⟩⟩
        rcases List.mem_cons.1 ha' with rfl | ha'
        · exact absurd hlt (earlier_irrefl _)
        · exact absurd hlt (earlier_asymm _ _ (s1 _ ha'))
      | false =>
        have hns : ¬ Says rules d c0 := fun h => by simpa using hbs.2 h
        obtain ⟨c, g1, g2⟩ := ih s2 fun a' ha' => hev a' (by simp [ha'])
        refine ⟨c, by simp [evalArms, hb, g1], g2.imp ?_ ?_⟩
        · rintro ⟨g3, g4, g5⟩
          refine ⟨g3, g4, fun a' ha' hlt => ?_⟩
          rcases List.mem_cons.1 ha' with rfl | ha'
          · exact hns
          · exact g5 a' ha' hlt
        · rintro ⟨g3, g4⟩
          refine ⟨g3, fun a' ha' => ?_⟩
          rcases List.mem_cons.1 ha' with rfl | ha'
          · exact hns
          · exact g4 a' ha'
  obtain ⟨c, k1, k2⟩ := key
  refine ⟨c, k1, k2.imp ?_ ?_⟩
  · rintro ⟨g3, g4, g5⟩
    refine ⟨g3, g4, fun c' hlt hsays => ?_⟩
    have hc' : c' ≠ .OTHER := by
      rintro rfl
      revert hlt; unfold Earlier; cases c <;> decide
    obtain ⟨a, ha, rfl⟩ := hall c' hc' hsays
    exact g5 a ha hlt hsays
  · rintro ⟨g3, g4⟩
    refine ⟨g3, fun c' hc' hsays => ?_⟩
    obtain ⟨a, ha, rfl⟩ := hall c' hc' hsays
    exact g4 a ha hsays

theorem rightForAll_listed (r : Relation) (h : RightForAll r) : Listed r := ⟨h.2.1, fun hw => absurd hw h.1⟩
theorem rightForIntegers_listed (r : Relation) (h : RightForIntegers r) : Listed r := ⟨h.2.1, fun hw => absurd hw h.1⟩

/-- There is exactly one such category. -/
theorem firstCategory_unique (rules : RuleObj) (d : Dec) (c c' : PluralCategory) (h : FirstCategory rules d c)
    (h' : FirstCategory rules d c') : c = c' := by
  have htri : ∀ a b : PluralCategory, a ≠ .OTHER → b ≠ .OTHER → a = b ∨ Earlier a b ∨ Earlier b a := by
    intro a b; unfold Earlier; cases a <;> cases b <;> decide
  rcases h with ⟨h1, h2, h3⟩ | ⟨h1, h2⟩ <;> rcases h' with ⟨h1', h2', h3'⟩ | ⟨h1', h2'⟩
  · rcases htri c c' h1 h1' with h | h | h
    · exact h
    · exact absurd h2 (h3' c h)
    · exact absurd h2' (h3 c' h)
  · exact absurd h2 (h2' c h1)
  · exact absurd h2' (h2 c' h1')
  · rw [h1, h1']

/-- The relations are right for the numbers in question. -/
structure RightFor (Q : Relation → Prop) (K : PluralOperands → Dec → Prop) : Prop where
  code : ∀ po d, K po d → ∀ c, AllRelations Q c → ∃ e b, Code c e ∧ e.eval po = some (.bool b) ∧ (b = true ↔ Holds d c)
  listed : ∀ r, Q r → Listed r
  some_number : ∃ po d, K po d

theorem locale_function {Q : Relation → Prop} {K : PluralOperands → Dec → Prop} (hQ : RightFor Q K) (rules : RuleObj)
    (hs : Supported Q rules) : ∃ set f, genLocaleRules (btree rules) = some set ∧ parseBody (ruleTokens set) = some f ∧
      ∀ po d, K po d → ∀ c, f.call po = some c ↔ FirstCategory rules d c := by
  obtain ⟨po, d, hk⟩ := hQ.some_number
  obtain ⟨set, f, h1, h2, -⟩ := supported_function rules hs po d (hQ.code po d hk) hQ.listed
  refine ⟨set, f, h1, h2, fun po d hk c => ?_⟩
  obtain ⟨set', f', h1', h2', c', h3, h4⟩ := supported_function rules hs po d (hQ.code po d hk) hQ.listed
  rw [h1] at h1'; cases h1'
  rw [h2] at h2'; cases h2'
  rw [h3]
  constructor
  · intro h; cases h; exact h4
  · intro h; rw [firstCategory_unique rules d c c' h h4]

theorem some_operands (d : Dec) (x : Flt) (hx : x = Flt.ofRat b64 false (allDigits d) (10 ^ d.v)) :
    OperandsOf ⟨x, d.i, d.v, d.w, d.f, d.t⟩ d := ⟨rfl, rfl, rfl, rfl, rfl, (Sem.ieee_value_iff _ _).2 hx⟩

theorem zero_fits : Fits ⟨0, []⟩ := .inl ⟨by decide, by decide⟩

theorem rightFor_all : RightFor RightForAll fun po d => OperandsOf po d ∧ Fits d :=
  ⟨fun po d h c hc => C39_right_for_all c hc po d h.1 h.2, rightForAll_listed, _, ⟨0, []⟩, some_operands _ _ rfl, zero_fits⟩

theorem rightFor_integers : RightFor RightForIntegers fun po d => OperandsOf po d ∧ Fits d ∧ d.f = 0 :=
  ⟨fun po d h c hc => C39_right_for_integers c hc po d h.1 h.2.1 h.2.2, rightForIntegers_listed, _, ⟨0, []⟩,
    some_operands _ _ rfl, zero_fits, rfl⟩

/-- C52: from the texts of the rules of a locale to the category of a number, for conditions that are right for all decimals:
the generator succeeds, the entry can be read back, and the function gives for the operands of a number the first category,
in the order few, many, one, two, zero, whose rule the number satisfies, and OTHER if it satisfies none. -/
theorem C52_locale (rules : RuleObj) (hs : Supported RightForAll rules) (id : LangId) (hid : Writable id) :
    ∃ set f, genLocaleRules (btree rules) = some set ∧ readEntry (genMid id set) = some (id, f) ∧
      ∀ po d, OperandsOf po d → Fits d → ∀ c, f.call po = some c ↔ FirstCategory rules d c := by
  obtain ⟨set, f, h1, h2, h3⟩ := locale_function rightFor_all rules hs
  exact ⟨set, f, h1, by rw [readEntry_spec id hid, h2]; rfl, fun po d ho hd => h3 po d ⟨ho, hd⟩⟩

/-- C52: the same for integers, where `n` may have a modulus with a list of values. -/
theorem C52_locale_integers (rules : RuleObj) (hs : Supported RightForIntegers rules) (id : LangId) (hid : Writable id) :
    ∃ set f, genLocaleRules (btree rules) = some set ∧ readEntry (genMid id set) = some (id, f) ∧
      ∀ po d, OperandsOf po d → Fits d → d.f = 0 → ∀ c, f.call po = some c ↔ FirstCategory rules d c := by
  obtain ⟨set, f, h1, h2, h3⟩ := locale_function rightFor_integers rules hs
  exact ⟨set, f, h1, by rw [readEntry_spec id hid, h2]; rfl, fun po d ho hd hi => h3 po d ⟨ho, hd, hi⟩⟩

theorem table_function {Q : Relation → Prop} {K : PluralOperands → Dec → Prop} (hQ : RightFor Q K) (obj : TypeObj)
    (hp : PlainIds obj) (hd : DistinctIds LangId.parse obj)
    (hs : ∀ key rules, LastOf obj key rules → key ≠ c!"root" → Supported Q rules) :
    ∃ streams table, genTypeRs LangId.parse obj = some streams ∧ readTable streams = some table ∧
      ∀ key rules id, LastOf obj key rules → key ≠ c!"root" → LangId.parse key = some id →
        ∃ i f, binarySearchByKey table id = .ok i ∧ table[i]? = some (id, f) ∧
          ∀ po d, K po d → ∀ c, f.call po = some c ↔ FirstCategory rules d c := by
  have hgen : genTypeRs LangId.parse obj ≠ none := by
    rw [genTypeRs_isSome]
    intro key rules h1 h2
    obtain ⟨id, h3, -⟩ := hp key rules h1 h2
    obtain ⟨set, -, h4, -⟩ := locale_function hQ rules (hs key rules h1 h2)
    exact ⟨by simp [h3], by simp [h4]⟩
  obtain ⟨streams, hst⟩ := Option.ne_none_iff_exists'.1 hgen
  have hst' := hst
  unfold genTypeRs at hst
  cases hl : genTypeEntries LangId.parse obj with
  | none => simp [hl] at hst
  | some l =>
    simp only [hl, Option.map_some, Option.some.injEq] at hst
    have hspec := (entries_spec LangId.parse hl).1
    have hw := plainIds_writable hp hl
    have hread : readTable streams ≠ none := by
      rw [← hst, readTable, mapPanic_isSome]
      intro ts hts
      obtain ⟨⟨id, set⟩, hm, rfl⟩ := List.mem_map.1 hts
      obtain ⟨key, rules, h1, h2, h3, h4⟩ := (hspec id set).1 hm
      obtain ⟨set', f, g1, g2, -⟩ := locale_function hQ rules (hs key rules h1 h2)
      rw [h4] at g1; cases g1
      rw [readEntry_spec id (hw _ hm), g2]; simp
    obtain ⟨table, htab⟩ := Option.ne_none_iff_exists'.1 hread
    refine ⟨streams, table, hst', htab, fun key rules id h1 h2 h3 => ?_⟩
    obtain ⟨i, f, b1, b2⟩ := (C48_found obj streams hst' hp hd table htab id).2 ⟨key, rules, h1, h2, h3⟩
    refine ⟨i, f, b1, b2, ?_⟩
    rw [← hst] at htab
    have hf := readTable_spec hl hp htab
    have : ∃ set, (id, set) ∈ l ∧ parseBody (ruleTokens set) = some f := by
      have hm := List.mem_of_getElem? b2
      clear b1 b2 htab hst hspec hw hread hl
      induction hf with
      | nil => simp at hm
      | @cons a b l t g1 _ ih =>
        rcases List.mem_cons.1 hm with heq | hm
        · subst heq
          obtain ⟨i, set⟩ := a
          obtain ⟨rfl, g2⟩ := g1
          exact ⟨set, by simp, g2⟩
        · obtain ⟨set, k1, k2⟩ := ih hm
          exact ⟨set, by simp [k1], k2⟩
    obtain ⟨set, hm, hbody⟩ := this
    obtain ⟨key', rules', g1, g2, g3, g4⟩ := (hspec id set).1 hm
    have := hd key key' rules rules' id h1 g1 h2 g2 h3 g3
    subst this
    cases Maps.lastOf_unique h1 g1
    obtain ⟨set', f', k1, k2, k3⟩ := locale_function hQ rules (hs key rules h1 h2)
    rw [g4] at k1; cases k1
    rw [hbody] at k2; cases k2
    exact k3

/-- C52: from a whole JSON object to the answer of `select`: the generator succeeds, the table can be read back, the binary
search finds the locale of each key, and its function gives the category. -/
theorem C52_table (obj : TypeObj) (hp : PlainIds obj) (hd : DistinctIds LangId.parse obj)
    (hs : ∀ key rules, LastOf obj key rules → key ≠ c!"root" → Supported RightForAll rules) :
    ∃ streams table, genTypeRs LangId.parse obj = some streams ∧ readTable streams = some table ∧
      ∀ key rules id, LastOf obj key rules → key ≠ c!"root" → LangId.parse key = some id →
        ∃ i f, binarySearchByKey table id = .ok i ∧ table[i]? = some (id, f) ∧
          ∀ po d, OperandsOf po d → Fits d → ∀ c, f.call po = some c ↔ FirstCategory rules d c := by
  obtain ⟨streams, table, h1, h2, h3⟩ := table_function rightFor_all obj hp hd hs
  refine ⟨streams, table, h1, h2, fun key rules id g1 g2 g3 => ?_⟩
  obtain ⟨i, f, k1, k2, k3⟩ := h3 key rules id g1 g2 g3
  exact ⟨i, f, k1, k2, fun po d ho hd => k3 po d ⟨ho, hd⟩⟩

/-- C52: the same for integers. -/
theorem C52_table_integers (obj : TypeObj) (hp : PlainIds obj) (hd : DistinctIds LangId.parse obj)
    (hs : ∀ key rules, LastOf obj key rules → key ≠ c!"root" → Supported RightForIntegers rules) :
    ∃ streams table, genTypeRs LangId.parse obj = some streams ∧ readTable streams = some table ∧
      ∀ key rules id, LastOf obj key rules → key ≠ c!"root" → LangId.parse key = some id →
        ∃ i f, binarySearchByKey table id = .ok i ∧ table[i]? = some (id, f) ∧
          ∀ po d, OperandsOf po d → Fits d → d.f = 0 → ∀ c, f.call po = some c ↔ FirstCategory rules d c := by
  obtain ⟨streams, table, h1, h2, h3⟩ := table_function rightFor_integers obj hp hd hs
  refine ⟨streams, table, h1, h2, fun key rules id g1 g2 g3 => ?_⟩
  obtain ⟨i, f, k1, k2, k3⟩ := h3 key rules id g1 g2 g3
  exact ⟨i, f, k1, k2, fun po d ho hd hi => k3 po d ⟨ho, hd, hi⟩⟩

/-- Rules that are supported: two tests, samples, white space, and an OTHER rule with nothing but samples. -/
def supportedRules : RuleObj := [(c!"pluralRule-count-other", c!" @integer 3, 4"), (c!"pluralRule-count-one", c!"i = 1 and  v=0 @integer 1"),
  (c!"pluralRule-count-few", c!"n % 100 != 2,5 or n mod 10 in 7")]

theorem supportedRules_ok : Supported RightForIntegers supportedRules := by
  intro name text h
  have h := (Maps.lastOf_nodup (by decide +kernel) name text).1 h
  simp only [supportedRules, List.mem_cons, Prod.mk.injEq, List.not_mem_nil, or_false] at h
  rcases h with ⟨rfl, rfl⟩ | ⟨rfl, rfl⟩ | ⟨rfl, rfl⟩
  · exact ⟨.OTHER, [], none, rfl, C27_sound 64 _ _ rfl, fun h => absurd rfl h⟩
  · refine ⟨.ONE, [[⟨⟨.I, none⟩, .EQ, [.value 1]⟩, ⟨⟨.V, none⟩, .EQ, [.value 0]⟩]], some ⟨some ⟨[⟨⟨1, none⟩, none⟩], false⟩, none⟩,
      rfl, C27_sound 64 _ _ rfl, fun _ => ⟨by simp, ?_⟩⟩
    simp [RightForIntegers, IsWithin]
  · refine ⟨.FEW, [[⟨⟨.N, some 100⟩, .NotEQ, [.value 2, .value 5]⟩], [⟨⟨.N, some 10⟩, .In, [.value 7]⟩]], none,
      rfl, C27_sound 64 _ _ rfl, fun _ => ⟨by simp, ?_⟩⟩
    simp [RightForIntegers, IsWithin]

example : ∃ set f, genLocaleRules (btree supportedRules) = some set ∧
    readEntry (genMid ⟨some c!"zh", some c!"Hant", none, none⟩ set) = some (⟨some c!"zh", some c!"Hant", none, none⟩, f) ∧
    ∀ po d, OperandsOf po d → Fits d → d.f = 0 → ∀ c, f.call po = some c ↔ FirstCategory supportedRules d c :=
  C52_locale_integers _ supportedRules_ok _ exampleId_writable

/-- Rules that are supported for all numbers. -/
def supportedForAll : RuleObj := [(c!"pluralRule-count-other", c!" @integer 3, 4"), (c!"pluralRule-count-one", c!"i = 1 and  v=0 @integer 1"),
  (c!"pluralRule-count-few", c!"n = 0..4 or n != 5,7 and f % 10 in 7..9")]

theorem supportedForAll_ok : Supported RightForAll supportedForAll := by
  intro name text h
  have h := (Maps.lastOf_nodup (by decide +kernel) name text).1 h
  simp only [supportedForAll, List.mem_cons, Prod.mk.injEq, List.not_mem_nil, or_false] at h
  rcases h with ⟨rfl, rfl⟩ | ⟨rfl, rfl⟩ | ⟨rfl, rfl⟩
  · exact ⟨.OTHER, [], none, rfl, C27_sound 64 _ _ rfl, fun h => absurd rfl h⟩
  · refine ⟨.ONE, [[⟨⟨.I, none⟩, .EQ, [.value 1]⟩, ⟨⟨.V, none⟩, .EQ, [.value 0]⟩]], some ⟨some ⟨[⟨⟨1, none⟩, none⟩], false⟩, none⟩,
      rfl, C27_sound 64 _ _ rfl, fun _ => ⟨by simp, ?_⟩⟩
    simp [RightForAll, IsWithin]
  · refine ⟨.FEW, [[⟨⟨.N, none⟩, .EQ, [.range 0 4]⟩], [⟨⟨.N, none⟩, .NotEQ, [.value 5, .value 7]⟩, ⟨⟨.F, some 10⟩, .In, [.range 7 9]⟩]], none,
      rfl, C27_sound 64 _ _ rfl, fun _ => ⟨by simp, ?_⟩⟩
    simp [RightForAll, IsWithin, Negative]

example : ∃ set f, genLocaleRules (btree supportedForAll) = some set ∧
    readEntry (genMid ⟨some c!"zh", some c!"Hant", none, none⟩ set) = some (⟨some c!"zh", some c!"Hant", none, none⟩, f) ∧
    ∀ po d, OperandsOf po d → Fits d → ∀ c, f.call po = some c ↔ FirstCategory supportedForAll d c :=
  C52_locale _ supportedForAll_ok _ exampleId_writable

/-- An object with these rules and a `root`. -/
def supportedObject : TypeObj := [(c!"root", [(c!"?", [])]), (c!"zh_hant", supportedForAll)]

theorem supportedObject_last (k : Str) (r : RuleObj) (h : LastOf supportedObject k r) (hr : k ≠ c!"root") : k = c!"zh_hant" ∧ r = supportedForAll := by
  have := (Maps.lastOf_nodup (by decide +kernel) k r).1 h
  simp only [supportedObject, List.mem_cons, Prod.mk.injEq, List.not_mem_nil, or_false] at this
  rcases this with ⟨rfl, -⟩ | ⟨rfl, rfl⟩
  · exact absurd rfl hr
  · exact ⟨rfl, rfl⟩

theorem supportedObject_ok : PlainIds supportedObject ∧ DistinctIds LangId.parse supportedObject ∧
    ∀ key rules, LastOf supportedObject key rules → key ≠ c!"root" → Supported RightForAll rules := by
  refine ⟨fun k r h hr => ?_, fun k k' r r' id h h' hr hr' _ _ => ?_, fun k r h hr => ?_⟩
  · obtain ⟨rfl, -⟩ := supportedObject_last k r h hr
    exact ⟨_, rfl, by simp, rfl⟩
  · rw [(supportedObject_last k r h hr).1, (supportedObject_last k' r' h' hr').1]
  · rw [(supportedObject_last k r h hr).2]; exact supportedForAll_ok

example : ∃ streams table, genTypeRs LangId.parse supportedObject = some streams ∧ readTable streams = some table ∧
    ∃ i f, binarySearchByKey table ⟨some c!"zh", some c!"Hant", none, none⟩ = .ok i ∧
      table[i]? = some (⟨some c!"zh", some c!"Hant", none, none⟩, f) ∧
      ∀ po d, OperandsOf po d → Fits d → ∀ c, f.call po = some c ↔ FirstCategory supportedForAll d c := by
  obtain ⟨h1, h2, h3⟩ := supportedObject_ok
  obtain ⟨streams, table, k1, k2, k3⟩ := C52_table supportedObject h1 h2 h3
  exact ⟨streams, table, k1, k2, k3 c!"zh_hant" supportedForAll _ ⟨[_], [], rfl, by simp⟩ (by decide) (by decide +kernel)⟩

/-- The category of 1 by these rules is FEW, not ONE: both rules hold, and FEW is tested first. -/
example : FirstCategory supportedRules ⟨1, []⟩ .FEW := by
  refine .inl ⟨by decide, ⟨_, _, none, ⟨supportedRules.take 2, [], rfl, by simp⟩,
    C27_sound 64 c!"n % 100 != 2,5 or n mod 10 in 7" ⟨[[⟨⟨.N, some 100⟩, .NotEQ, [.value 2, .value 5]⟩], [⟨⟨.N, some 10⟩, .In, [.value 7]⟩]], none⟩ rfl,
    ?_⟩, fun c' h => ?_⟩
  · refine ⟨_, List.mem_cons_self, ?_⟩
    simp [RelationHolds, ItemIn, exprValue, qmod, Dec.operand, Dec.n, Dec.value, digitsNum]
    norm_num
  · exact absurd h (by unfold Earlier; cases c' <;> decide)

end Verif.Props
