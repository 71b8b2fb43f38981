import Verif.Props.Library
import Verif.Props.Exact

/-!
# C94: what a library computes, whatever the rules

C52, C60 and C93 say what a generated function computes for rules of the kinds that the generator gets right.  Here the rules are any
with which the library compiles: any keys, several for one category, texts that are no rules, and relations that the generator gets
wrong.
-/

namespace Verif.Props
open Verif Api Rust Uts35 Spec Verif.Parser Verif.Grammar Generate GenPr GenRs RulesRead FileRead Gen Maps Lib Sem Eval ResourceSpec Resource

/-- A rule that gets into the code: the third part of its key names a category but OTHER, and of equal keys it is the last; the
condition is the longest one that its text begins with (C89). -/
def TestedRule (rules : RuleObj) (name : Str) (c : PluralCategory) (condition : Condition) : Prop :=
  c ≠ .OTHER ∧ ThirdPart name (cldrName c) ∧ ∃ text, LastOf rules name text ∧ ConditionOf 64 text condition

/-- The category of the first rule, in the order of keys, that is true; else OTHER.  What it means for a condition to be true is given. -/
def FirstWith (isTrue : Condition → Prop) (rules : RuleObj) (c : PluralCategory) : Prop :=
  (∃ name condition, TestedRule rules name c condition ∧ isTrue condition ∧
    ∀ name' c' condition', TestedRule rules name' c' condition' → name' < name → ¬ isTrue condition') ∨
  (c = .OTHER ∧ ∀ name c' condition, TestedRule rules name c' condition → ¬ isTrue condition)

/-- The same with what is true on a number as the code reads it (C64). -/
def FirstTrue (rules : RuleObj) (d : Dec) (c : PluralCategory) : Prop := FirstWith (Actual.Holds d) rules c

/-- The numbers that the code of the rules compares with `n` as floats are exact floats. -/
def ExactRules (rules : RuleObj) : Prop := ∀ name c condition, TestedRule rules name c condition → ∀ a ∈ condition, ∀ r ∈ a, Actual.Exact r

/-! ## A modulus zero that is lost -/

/-- With another modulus where it is zero. -/
def fixZero (r : Relation) : Relation :=
  if r.expression.modulus = some 0 then { r with expression := { r.expression with modulus := some 1 } } else r

theorem fixZero_spec (r : Relation) (hr : Listed r) (hz : ¬ DividesByZero r) (d : Dec) :
    (fixZero r).expression.modulus ≠ some 0 ∧ Listed (fixZero r) ∧ (Actual.Exact r → Actual.Exact (fixZero r)) ∧
    Intended.relationTests (fixZero r) = Intended.relationTests r ∧ (Actual.RelationHolds d (fixZero r) ↔ Actual.RelationHolds d r) := by
  by_cases hm : r.expression.modulus = some 0
  · obtain ⟨⟨o, m⟩, op, l⟩ := r
    simp only at hm
    subst hm
    simp only [DividesByZero, true_and, not_or, not_not, not_exists] at hz
    obtain ⟨rfl, hw, hv⟩ := hz
    have hfix : fixZero ⟨⟨.N, some 0⟩, op, l⟩ = ⟨⟨.N, some 1⟩, op, l⟩ := by simp [fixZero]
    rw [hfix]
    have hmap : ∀ b, (Intended.ordered l).map (Intended.itemTests ⟨.N, some 1⟩ b) =
        (Intended.ordered l).map (Intended.itemTests ⟨.N, some 0⟩ b) := by
      intro b
      refine List.map_congr_left fun x hx => ?_
      cases x with
      | value k =>
        have : RangeListItem.value k ∈ l := by
          simp only [Intended.ordered, List.mem_append, List.mem_filter] at hx
          rcases hx with hx | hx <;> exact hx.1
        exact absurd this (hv k)
      | range _ _ => rfl
    refine ⟨by simp, ⟨hr.1, fun h => absurd h hw⟩, fun h h1 h2 => absurd h2 (by simp), ?_, ?_⟩
    · cases op <;> simp [IsWithin] at hw <;> simp only [Intended.relationTests, hmap]
    · have hacc : ∀ x ∈ l, (Actual.Accepts d ⟨.N, some 1⟩ x ↔ Actual.Accepts d ⟨.N, some 0⟩ x) ∧
          (Actual.Rejects d ⟨.N, some 1⟩ x ↔ Actual.Rejects d ⟨.N, some 0⟩ x) := by
        intro x hx
        cases x with
        | value k => exact absurd hx (hv k)
        | range lo hi => simp [Actual.Accepts, Actual.Rejects]
      cases op <;> simp [IsWithin] at hw <;> simp only [Actual.RelationHolds]
      all_goals first
        | exact exists_congr fun x => and_congr_right fun hx => (hacc x hx).1
        | exact forall_congr' fun x => forall_congr' fun hx => (hacc x hx).2
  · have : fixZero r = r := by simp [fixZero, hm]
    rw [this]
    exact ⟨hm, hr, id, rfl, Iff.rfl⟩

theorem code_represents (c : Condition) (hc : AllRelations (fun r => Listed r ∧ ¬ DividesByZero r) c)
    (hx : ∀ a ∈ c, ∀ r ∈ a, Actual.Exact r) (po : PluralOperands) (d : Dec) (hrep : Represents True po d) :
    ∃ e b, Code c e ∧ e.eval po = some (.bool b) ∧ (b = true ↔ Actual.Holds d c) := by
  have hl : AllRelations Listed c := ⟨hc.1, fun a ha => ⟨(hc.2 a ha).1, fun r hr => ((hc.2 a ha).2 r hr).1⟩⟩
  obtain ⟨e, h1, h2⟩ := code_of_condition c hl
  have hspec : ∀ a ∈ c, ∀ r ∈ a, _ := fun a ha r hr => fixZero_spec r ((hc.2 a ha).2 r hr).1 ((hc.2 a ha).2 r hr).2 d
  have hcond : Intended.condition (c.map (·.map fixZero)) = Intended.condition c := by
    have hand : ∀ a ∈ c, Intended.andCondition (a.map fixZero) = Intended.andCondition a := by
      intro a ha
      unfold Intended.andCondition
      rw [List.map_map]
      exact congrArg (fun l => Intended.allOf (List.flatten l)) (List.map_congr_left fun r hr => (hspec a ha r hr).2.2.2.1)
    unfold Intended.condition
    rw [List.filterMap_map]
    exact congrArg _ (List.filterMap_congr fun a ha => hand a ha)
  obtain ⟨e', b, h3, h4, h5⟩ := condition_actual hrep (c.map (·.map fixZero)) (by simpa using hc.1) (by
    intro a' ha'
    obtain ⟨a, ha, rfl⟩ := List.mem_map.1 ha'
    refine ⟨by simpa using (hc.2 a ha).1, fun r' hr' => ?_⟩
    obtain ⟨r, hr, rfl⟩ := List.mem_map.1 hr'
    obtain ⟨g1, g2, g3, -⟩ := hspec a ha r hr
    exact ⟨g1, fun _ => trivial, g2, g3 (hx a ha r hr)⟩)
  rw [hcond, h2] at h3
  cases h3
  refine ⟨e, b, h1, h4, h5.trans ?_⟩
  simp only [Actual.Holds, List.mem_map, exists_exists_and_eq_and, forall_exists_index, and_imp, forall_apply_eq_imp_iff₂]
  exact exists_congr fun a => and_congr_right fun ha => forall_congr' fun r => forall_congr' fun hr => (hspec a ha r hr).2.2.2.2

theorem code_actual (c : Condition) (hc : AllRelations (fun r => Listed r ∧ ¬ DividesByZero r) c)
    (hx : ∀ a ∈ c, ∀ r ∈ a, Actual.Exact r) (po : PluralOperands) (d : Dec) (ho : OperandsOf po d) (hd : Fits d) :
    ∃ e b, Code c e ∧ e.eval po = some (.bool b) ∧ (b = true ↔ Actual.Holds d c) :=
  code_represents c hc hx po d (represents_of po d ho hd)

/-! ## C94 -/

theorem firstWith_unique (H : Condition → Prop) (rules : RuleObj) (c c' : PluralCategory) (h : FirstWith H rules c)
    (h' : FirstWith H rules c') : c = c' := by
  rcases h with ⟨name, cond, h1, h2, h3⟩ | ⟨rfl, h3⟩ <;> rcases h' with ⟨name', cond', h1', h2', h3'⟩ | ⟨rfl, h3'⟩
  · have : name = name' := by
      cases hcmp : LangId.cmpStr name name' with
      | lt => exact absurd h2 (h3' _ _ _ h1 ((cmpStr_lt_iff _ _).1 hcmp))
      | eq => exact (LangId.cmpStr_lawful.eq_iff _ _).1 hcmp
      | gt => exact absurd h2' (h3 _ _ _ h1' ((cmpStr_lt_iff _ _).1 ((LangId.cmpStr_lawful.gt_iff _ _).1 hcmp)))
    subst this
    exact cldrName_inj (thirdPart_unique h1.2.1 h1'.2.1)
  · exact absurd h2 (h3' _ _ _ h1)
  · exact absurd h2' (h3 _ _ _ h1')
  · rfl

/-- The function of a locale whose code compiles. -/
theorem any_function (rules : RuleObj) (set : List (PluralCategory × List Tok)) (hg : genLocaleRules (btree rules) = some set)
    (f : Closure) (hf : parseBody (ruleTokens set) = some f) (hacc : accepted f = true) (po : PluralOperands) (H : Condition → Prop)
    (hH : ∀ name c cond, TestedRule rules name c cond → AllRelations (fun r => Listed r ∧ ¬ DividesByZero r) cond →
      ∃ e b, Code cond e ∧ e.eval po = some (.bool b) ∧ (b = true ↔ H cond)) : ∃ c, f.call po = some c ∧ FirstWith H rules c := by
  have hc : RulesCompile rules := (locale_compiles rules set hg).1.1 ⟨f, hf, hacc⟩
  obtain ⟨src, arms, f1, f2, f3, f4⟩ := function_of_rules rules set hg fun name text part c h1 h2 h3 h4 =>
    have := hc name text part c h1 h2 h3 h4
    ⟨this.1, fun a ha => ⟨(this.2 a ha).1, fun r hr => ((this.2 a ha).2 r hr).1⟩⟩
  rw [hf] at f4; cases f4
  have hsorted : src.Pairwise fun a b => LangId.cmpStr a.1 b.1 = .lt := (btree_spec rules).1.sublist f1
  have htested : ∀ p ∈ src, ∀ a, ArmOf p a → ∃ cond b, TestedRule rules p.1 a.2 cond ∧ a.1.eval po = some (.bool b) ∧
      (b = true ↔ H cond) := by
    rintro ⟨name, text⟩ hp a ⟨h1, cond, h2, h3, h4⟩
    have hlast : LastOf rules name text := ((btree_spec rules).2 _ _).1 (f1.subset hp)
    have ht : TestedRule rules name a.2 cond := ⟨h1, h2, text, hlast, h3⟩
    obtain ⟨e, b, k1, k2, k3⟩ := hH _ _ cond ht (hc name text _ cond hlast h2 (cldrName_mem.2 h1) h3)
    have he : e = a.1 := by
      obtain ⟨ts, k1, k1'⟩ := k1
      obtain ⟨ts', h5, h5'⟩ := h4
      rw [k1] at h5; cases h5
      rw [k1'] at h5'; exact Option.some.inj h5'
    subst he
    exact ⟨cond, b, ht, k2, k3⟩
  have hall : ∀ name c cond, TestedRule rules name c cond → ∃ text, (name, text) ∈ src := by
    rintro name c cond ⟨h1, h2, text, h3, -⟩
    exact ⟨text, f3 (name, text) (((btree_spec rules).2 _ _).2 h3) _ h2 (cldrName_mem.2 h1)⟩
  have hone : ∀ name c cond c' cond', TestedRule rules name c cond → TestedRule rules name c' cond' → cond = cond' := by
    rintro name c cond c' cond' ⟨-, -, text, h1, h2⟩ ⟨-, -, text', h1', h2'⟩
    cases lastOf_unique h1 h1'
    exact C89_one 64 _ _ _ h2 h2'
  have key : ∃ c, evalArms po arms .OTHER = some c ∧
      ((∃ name cond, TestedRule rules name c cond ∧ H cond ∧
          ∀ p ∈ src, p.1 < name → ∀ c' cond', TestedRule rules p.1 c' cond' → ¬ H cond') ∨
        (c = .OTHER ∧ ∀ p ∈ src, ∀ c' cond', TestedRule rules p.1 c' cond' → ¬ H cond')) := by
    clear hall f1 f3 hacc hf
    induction f2 with
    | nil => exact ⟨.OTHER, rfl, .inr ⟨rfl, by simp⟩⟩
    | @cons p a src arms h1 _ ih =>
      obtain ⟨s1, s2⟩ := List.pairwise_cons.1 hsorted
      obtain ⟨cond, b, t1, t2, t3⟩ := htested p (by simp) a h1
      obtain ⟨e, c0⟩ := a
      simp only at t1 t2
      cases b with
      | true =>
        refine ⟨c0, by simp [evalArms, t2], .inl ⟨p.1, cond, t1, t3.1 rfl, fun q hq hlt => ?_⟩⟩
        rcases List.mem_cons.1 hq with rfl | hq
        · rw [← cmpStr_lt_iff, LangId.cmpStr_lawful.refl] at hlt; cases hlt
        · have := s1 q hq
          rw [← cmpStr_lt_iff, ← LangId.cmpStr_lawful.gt_iff, this] at hlt; cases hlt
      | false =>
        have hno : ∀ c' cond', TestedRule rules p.1 c' cond' → ¬ H cond' := fun c' cond' h hh => by
          cases hone _ _ _ _ _ h t1
          simpa using t3.2 hh
        obtain ⟨c, g1, g2⟩ := ih s2 fun q hq => htested q (by simp [hq])
        refine ⟨c, by simp [evalArms, t2, g1], g2.imp ?_ ?_⟩
        · rintro ⟨name, cond, k1, k2, k3⟩
          refine ⟨name, cond, k1, k2, fun q hq => ?_⟩
          rcases List.mem_cons.1 hq with rfl | hq
          · exact fun _ => hno
          · exact k3 q hq
        · rintro ⟨k1, k2⟩
          refine ⟨k1, fun q hq => ?_⟩
          rcases List.mem_cons.1 hq with rfl | hq
          · exact hno
          · exact k2 q hq
  obtain ⟨c, k1, k2⟩ := key
  refine ⟨c, k1, k2.imp ?_ ?_⟩
  · rintro ⟨name, cond, g1, g2, g3⟩
    refine ⟨name, cond, g1, g2, fun name' c' cond' h hlt => ?_⟩
    obtain ⟨text, hs⟩ := hall name' c' cond' h
    exact g3 _ hs hlt c' cond' h
  · rintro ⟨g1, g2⟩
    refine ⟨g1, fun name' c' cond' h => ?_⟩
    obtain ⟨text, hs⟩ := hall name' c' cond' h
    exact g2 _ hs c' cond' h

/-- C94: at most one category is the first. -/
theorem C94_one (rules : RuleObj) (d : Dec) (c c' : PluralCategory) (h : FirstTrue rules d c) (h' : FirstTrue rules d c') : c = c' :=
  firstWith_unique _ rules c c' h h'

/-- C94: in a library compiled with a generated and formatted file, whatever the rules, `create` gives the function of a key with the identifier,
and on the operands of a number this gives the category of the first rule, in the order of their keys, that is true as the code
reads it (C64), and OTHER if there is none. -/
theorem C94_library (texts : List Str) (rs : List Generate.Resource) (hr : List.Forall₂ ResourceText texts rs) (out : Str)
    (h : generateText LangId.parse texts = some out) (text : Str) (hf : Formatted out text) (lib : Library) (hb : build text = some lib) (t : PluralRuleType) (obj : TypeObj)
    (ho : rs.filterMap (dataOf t) = [obj]) (search : List (LangId × Closure) → LangId → Except Nat Nat) (hs : Searches search)
    (id : LangId) (pr : PluralRules) (hc : lib.create search id t = some (.ok pr)) :
    ∃ key rules id', LastOf obj key rules ∧ key ≠ c!"root" ∧ LangId.parse key = some id' ∧ id = { id' with variants := none } ∧
      (ExactRules rules → ∀ po d, OperandsOf po d → Fits d → ∀ c, pr.function.call po = some c ↔ FirstTrue rules d c) := by
  obtain ⟨obj', streams, h1, h2, h3, h4⟩ := (build_generated hr h hf lib).1 hb t
  rw [ho] at h1; cases h1
  obtain ⟨hsorted, -, hent⟩ := (type_compiles h2).2 _ h3
  have hsearch := hs (lib.table t) id hsorted
  unfold Library.create at hc
  cases hi : search (lib.table t) id with
  | error i => simp [hi] at hc
  | ok i =>
    rw [hi] at hsearch
    obtain ⟨f, hf⟩ := hsearch
    simp only [hi, hf, Option.some.injEq, Except.ok.injEq] at hc
    subst hc
    have hm := List.mem_of_getElem? hf
    obtain ⟨key, rules, id', set, k1, k2, k3, k4, k5, k6⟩ := hent _ hm
    refine ⟨key, rules, id', k1, k2, k3, k4, fun hx po d hpo hd c => ?_⟩
    obtain ⟨c', g1, g2⟩ := any_function rules set k5 f k6 (h4 _ hm) po (Actual.Holds d)
      fun name c cond ht hr => code_actual cond hr (hx _ _ _ ht) po d hpo hd
    simp only
    rw [g1]
    constructor
    · intro h; cases h; exact g2
    · intro h; rw [firstWith_unique _ rules c c' h g2]

/-- C94: the same from files to categories of decimal texts, for the program (rustfmt keeping what the file says and joining its
numbers). -/
theorem C94_program (sys : Main.System) (args : Main.Args) (files files' : Main.Files) (hu : args.ugly = false)
    (hrun : Main.run sys args files = (.ok, files')) (rs : List Generate.Resource)
    (hr : List.Forall₂ (fun p r => ∃ s, files p = some (Utf8.encode s) ∧ ResourceText s r) args.inputs rs)
    (hfmt : ∀ fmt, sys.rustfmt = some fmt → ∀ fs texts out, generateText LangId.parse texts = some out → fs args.output = some (Utf8.encode out) →
      ∃ text, fmt args.output fs args.output = some (Utf8.encode text) ∧ Formatted out text) :
    ∃ text, files' args.output = some (Utf8.encode text) ∧ ∀ lib, build text = some lib → ∀ t obj, rs.filterMap (dataOf t) = [obj] →
      ∀ search, Searches search → ∀ id pr, lib.create search id t = some (.ok pr) →
      ∃ key rules id', LastOf obj key rules ∧ key ≠ c!"root" ∧ LangId.parse key = some id' ∧ id = { id' with variants := none } ∧
        (ExactRules rules → ∀ sign, (sign = [] ∨ sign = ['-']) → ∀ ip fp, ip ≠ [] → allDigits (decOf ip fp) < 2 ^ 53 → fp.length ≤ 300 →
          ∃ c, select pr (PluralOperands.tryFromStr (sign ++ plainText ip fp)) = some (.ok c) ∧ FirstTrue rules (decOf ip fp) c) := by
  obtain ⟨texts, out, fmt, h1, h2, h3, rfl⟩ := C63_formatted sys args files files' hu hrun
  obtain ⟨text, h3, hf⟩ := hfmt fmt h3 (fun p => if p = args.output then some (Utf8.encode out) else files p) texts out h2 (by simp)
  refine ⟨text, h3, fun lib hb t obj ho search hs id pr hc => ?_⟩
  obtain ⟨key, rules, id', k1, k2, k3, k4, k5⟩ :=
    C94_library texts rs (inputs_texts h1 hr) out h2 text hf lib hb t obj ho search hs id pr hc
  have htot : ∀ po, pr.function.call po ≠ none := by
    have := C93_create texts rs (inputs_texts h1 hr) out h2 text hf lib hb t obj ho search hs id
    rw [hc] at this
    exact this.2.1
  refine ⟨key, rules, id', k1, k2, k3, k4, fun hx sign hsg ip fp hi hd hl => ?_⟩
  obtain ⟨po, hp, hpo⟩ := plain_operandsOf sign hsg ip fp hi hd
  obtain ⟨c, hcall⟩ := Option.ne_none_iff_exists'.1 (htot po)
  exact ⟨c, by rw [hp]; simp only [select, hcall], (k5 hx po _ hpo (.inl ⟨hd, hl⟩) c).1 hcall⟩

/-! ## Examples -/

/-- What the library built with these cardinal rules for English answers to the text. -/
def oddAnswer (rules number : Str) : Option PluralCategory :=
  (libraryOf (c!"\"en\":{" ++ rules ++ c!"}") []).bind fun lib => (LangId.parse c!"en").bind fun id =>
    (lib.create binarySearchByKey id .CARDINAL).bind fun r => r.toOption.bind fun pr =>
      (select pr (PluralOperands.tryFromStr number)).bind fun c => c.toOption

/-- Other keys than those of CLDR: `a-b-two` comes before `x--one-more`, which comes before `x-b-one`; and text after the condition
is not read. -/
example : oddAnswer c!"\"x-b-one\":\"i = 1\",\"x--one-more\":\"i = 1..5 or else\",\"a-b-two\":\"n % 10 = 2..4\"" c!"5" = some .ONE ∧
    oddAnswer c!"\"x-b-one\":\"i = 1\",\"x--one-more\":\"i = 1..5 or else\",\"a-b-two\":\"n % 10 = 2..4\"" c!"2" = some .TWO ∧
    oddAnswer c!"\"x-b-one\":\"i = 1\",\"x--one-more\":\"i = 1..5 or else\",\"a-b-two\":\"n % 10 = 2..4\"" c!"12" = some .OTHER := by
  decide +kernel

/-- The rules of this example are tested in the sense of `TestedRule`, with the condition that the text begins with. -/
example : TestedRule [(c!"x-b-one", c!"i = 1"), (c!"x--one-more", c!"i = 1..5 or else")] c!"x--one-more" .ONE [[⟨⟨.I, none⟩, .EQ, [.range 1 5]⟩]] :=
  ⟨by simp, ⟨c!"x", c!"", c!"-more", by decide, by decide, by decide, rfl, .inr ⟨_, rfl⟩⟩, c!"i = 1..5 or else", ⟨[_], [], rfl, by simp⟩,
    parsePluralCondition_ok.1 (by with_unfolding_all rfl)⟩

end Verif.Props
