import Verif.TargetWidth
import Verif.Props.Library
import Verif.Lemmas.Actual

/-!
# C97: the library on machines of any pointer width
-/

namespace Verif.Props
open Verif Api Rust Uts35 Spec Verif.Parser Verif.Grammar Generate GenPr GenRs RulesRead FileRead Gen Maps Lib Sem Eval ResourceSpec Resource

/-- The numbers that the code of a relation compares with `v` or `w` are numbers of the width; with a modulus, `within` is about `i`. -/
def UsizeFits (bits : Nat) (r : Relation) : Prop :=
  r.expression.operand = .V ∨ r.expression.operand = .W →
    (IsWithin r.operator → r.expression.modulus = none →
      ∀ lo hi, Actual.FirstRange r.rangeList lo hi → lo < 2 ^ bits ∧ hi < 2 ^ bits) ∧
    (¬ IsWithin r.operator → relNumbers (· < 2 ^ bits) r)

/-- The same for the rules of a locale that get into the code. -/
def RulesFit (bits : Nat) (rules : RuleObj) : Prop := ∀ name text part c, LastOf rules name text → ThirdPart name part →
  part ∈ categoryNames → ConditionOf 64 text c → ∀ a ∈ c, ∀ r ∈ a, UsizeFits bits r

/-! ## Literals -/

theorem literalsBelow_64 (e : RExpr) : literalsBelow (2 ^ 64) e = literalsFit e := by
  induction e <;> simp_all [literalsBelow, literalsFit]

theorem literalsBelow_mono {a b : Nat} (h : a ≤ b) (e : RExpr) (he : literalsBelow a e = true) : literalsBelow b e = true := by
  induction e <;> simp_all [literalsBelow] <;> omega

theorem fitOn_64 (e : RExpr) : literalsFitOn 64 e = literalsFit e := by
  induction e with
  | not a ih => simpa [literalsFitOn, literalsFit] using ih
  | and a b iha ihb => simp only [literalsFitOn, literalsFit, iha, ihb]
  | or a b iha ihb => simp only [literalsFitOn, literalsFit, iha, ihb]
  | _ => simp only [literalsFitOn, ite_self, literalsBelow_64]

theorem fit_of_fitOn {bits : Nat} (h : bits ≤ 64) (e : RExpr) (he : literalsFitOn bits e = true) : literalsFit e = true := by
  have h1 : ∀ x, 2 ^ (if hasUsize x = true then bits else 64) ≤ 2 ^ 64 := fun x =>
    Nat.pow_le_pow_right (by decide) (by split <;> omega)
  induction e with
  | not a ih => simp only [literalsFitOn, literalsFit] at *; exact ih he
  | and a b iha ihb => simp only [literalsFitOn, literalsFit, Bool.and_eq_true] at *; exact ⟨iha he.1, ihb he.2⟩
  | or a b iha ihb => simp only [literalsFitOn, literalsFit, Bool.and_eq_true] at *; exact ⟨iha he.1, ihb he.2⟩
  | _ =>
    rw [← literalsBelow_64]
    simp only [literalsFitOn] at he
    exact literalsBelow_mono (h1 _) _ he

/-- C97: with 64 bits this is the library of C93–C96. -/
theorem C97_64 (text : Str) : buildOn 64 text = build text := by
  have ha : ∀ f, acceptedOn 64 f = accepted f := fun f => by simp only [acceptedOn, accepted, fitOn_64]
  have hv : versionFitsOn 64 = versionFits := by funext i; cases i <;> rfl
  have hc : compileOn 64 = compile := by
    funext items
    unfold compileOn compile
    simp only [ha, hv]
    rfl
  unfold buildOn build
  rw [hc]

/-! ## Which files compile -/

theorem buildOn_iff {bits : Nat} (hb : bits ≤ 64) (text : Str) (lib : Library) :
    buildOn bits text = some lib ↔ build text = some lib ∧
      (∀ items, readFile (lex text) = some items → ∀ n, Item.version n ∈ items → n < 2 ^ bits) ∧
      ∀ t, ∀ e ∈ lib.table t, ∀ a ∈ e.2.arms, literalsFitOn bits a.1 = true := by
  have hpow : 2 ^ bits ≤ 2 ^ 64 := Nat.pow_le_pow_right (by decide) hb
  unfold buildOn build
  split
  · simp
  · cases readFile (lex text) with
    | none => simp
    | some items =>
      simp only [Option.bind_some, Option.some.injEq, forall_eq']
      unfold compileOn compile
      generalize tablesNamed c!"PRS_CARDINAL" items = C
      generalize tablesNamed c!"PRS_ORDINAL" items = O
      have hver : items.all (versionFitsOn bits) = true ↔ ∀ n, Item.version n ∈ items → n < 2 ^ bits := by
        rw [List.all_eq_true]
        constructor
        · intro h n hn; simpa [versionFitsOn] using h _ hn
        · intro h i hi
          cases i with
          | version n => simpa [versionFitsOn] using h n hi
          | _ => rfl
      have hver' : items.all (versionFitsOn bits) = true → items.all versionFits = true := by
        simp only [List.all_eq_true]
        intro h i hi
        have := h i hi
        cases i with
        | version n => simp only [versionFitsOn, versionFits, decide_eq_true_eq] at *; omega
        | _ => rfl
      have hacc : ∀ f, acceptedOn bits f = true ↔ accepted f = true ∧ ∀ a ∈ f.arms, literalsFitOn bits a.1 = true := by
        intro f
        simp only [acceptedOn, accepted, Bool.and_eq_true, List.all_eq_true]
        constructor
        · rintro ⟨h1, h2⟩
          exact ⟨⟨h1, fun a ha => ⟨fit_of_fitOn hb _ (h2 a ha).1, (h2 a ha).2⟩⟩, fun a ha => (h2 a ha).1⟩
        · rintro ⟨⟨h1, h2⟩, h3⟩
          exact ⟨h1, fun a ha => ⟨h3 a ha, (h2 a ha).2⟩⟩
      match C, O with
      | [c], [o] =>
        simp only [Option.ite_none_right_eq_some, Option.some.injEq, Bool.and_eq_true, List.all_eq_true (l := c ++ o), List.mem_append]
        constructor
        · rintro ⟨⟨h1, h2⟩, rfl⟩
          refine ⟨⟨⟨hver' h1, fun e he => ((hacc _).1 (h2 e he)).1⟩, rfl⟩, hver.1 h1, fun t e he => ?_⟩
          exact ((hacc _).1 (h2 e (by cases t; exacts [.inr he, .inl he]))).2
        · rintro ⟨⟨⟨h1, h2⟩, rfl⟩, h3, h4⟩
          refine ⟨⟨hver.2 h3, fun e he => (hacc _).2 ⟨h2 e he, ?_⟩⟩, rfl⟩
          rcases he with he | he
          · exact h4 .CARDINAL e he
          · exact h4 .ORDINAL e he
      | [], _ => simp
      | _ :: _ :: _, _ => simp
      | [_], [] => simp
      | [_], _ :: _ :: _ => simp

/-! ## The code of a relation -/

theorem items_pred {f : RExpr → Bool} (hand : ∀ a b, f (.and a b) = (f a && f b)) (hor : ∀ a b, f (.or a b) = (f a && f b))
    (r : Relation) (hw : ¬ IsWithin r.operator) : ∃ b, (∀ t ∈ Intended.relationTests r, f t = true) ↔
      ∀ x ∈ r.rangeList, ∀ t ∈ Intended.itemTests r.expression b x, f t = true := by
  obtain ⟨e, op, l⟩ := r
  have hne : ∀ b x, Intended.itemTests e b x ≠ [] := by
    intro b x
    obtain ⟨o, m⟩ := e
    cases x <;> cases m <;> cases b <;> simp [Intended.itemTests, Intended.rangeTests] <;> split <;> simp
  have pos : (∀ t ∈ (match (Intended.ordered l).map (Intended.itemTests e true) with
      | [] => []
      | [tests] => tests
      | several => (Intended.anyOf (several.filterMap Intended.allOf)).toList), f t = true) ↔
      ∀ x ∈ l, ∀ t ∈ Intended.itemTests e true x, f t = true := by
    have h1 : (∀ x ∈ l, ∀ t ∈ Intended.itemTests e true x, f t = true) ↔
        ∀ g ∈ (Intended.ordered l).map (Intended.itemTests e true), ∀ t ∈ g, f t = true := by
      simp only [List.mem_map, mem_ordered, forall_exists_index, and_imp, forall_apply_eq_imp_iff₂]
    have h2 : ∀ g ∈ (Intended.ordered l).map (Intended.itemTests e true), g ≠ [] := by
      simp only [List.mem_map, forall_exists_index, and_imp, forall_apply_eq_imp_iff₂]
      exact fun x _ => hne true x
    rw [h1]
    generalize (Intended.ordered l).map (Intended.itemTests e true) = T at h2
    match T, h2 with
    | [], _ => simp
    | [tests], _ => simp
    | x :: y :: T, h2 =>
      have hsome : ∀ g ∈ x :: y :: T, ∃ a, Intended.allOf g = some a := by
        intro g hg
        match g, h2 g hg with
        | a :: r, _ => exact ⟨_, rfl⟩
      obtain ⟨a, ha⟩ := hsome x (by simp)
      have hany : ∃ c, Intended.anyOf ((x :: y :: T).filterMap Intended.allOf) = some c := by
        rw [List.filterMap_cons, ha]; exact ⟨_, rfl⟩
      obtain ⟨c, hc⟩ := hany
      simp only [hc, Option.toList_some, List.mem_singleton, forall_eq]
      rw [anyOf_pred hor hc, List.all_eq_true]
      constructor
      · intro h g hg
        obtain ⟨a, ha⟩ := hsome g hg
        have := h a (List.mem_filterMap.2 ⟨g, hg, ha⟩)
        rwa [allOf_pred hand ha, List.all_eq_true] at this
      · intro h s hs
        obtain ⟨g, hg, hge⟩ := List.mem_filterMap.1 hs
        rw [allOf_pred hand hge, List.all_eq_true]
        exact h g hg
  have neg : (∀ t ∈ ((Intended.ordered l).map (Intended.itemTests e false)).flatten, f t = true) ↔
      ∀ x ∈ l, ∀ t ∈ Intended.itemTests e false x, f t = true := by
    simp only [List.mem_flatten, List.mem_map, mem_ordered, exists_exists_and_eq_and, forall_exists_index, and_imp]
    exact ⟨fun h x hx t ht => h t x hx ht, fun h t x hx ht => h x hx t ht⟩
  cases op with
  | Within => exact absurd (.inl rfl) hw
  | NotWithin => exact absurd (.inr rfl) hw
  | In => exact ⟨true, pos⟩
  | Is => exact ⟨true, pos⟩
  | EQ => exact ⟨true, pos⟩
  | NotIn => exact ⟨false, neg⟩
  | IsNot => exact ⟨false, neg⟩
  | NotEQ => exact ⟨false, neg⟩

theorem item_fits (bits : Nat) (e : Expression) (b : Bool) (x : RangeListItem) (hm : ∀ m, e.modulus = some m → m < 2 ^ 64)
    (hx : itemNumbers (· < 2 ^ 64) x) : (∀ t ∈ Intended.itemTests e b x, literalsFitOn bits t = true) ↔
      (e.operand = .V ∨ e.operand = .W → (∀ m, e.modulus = some m → m < 2 ^ bits) ∧ itemNumbers (· < 2 ^ bits) x) := by
  obtain ⟨o, m⟩ := e
  simp only at hm
  cases x <;> cases m <;> cases b <;> cases o <;>
    simp_all [Intended.itemTests, Intended.valueTest, Intended.rangeTests, Intended.leftSide, literalsFitOn, literalsBelow, hasUsize, itemNumbers] <;>
    tauto

theorem relation_fits (bits : Nat) (r : Relation) (hl : Listed r) (hr : relNumbers (· < 2 ^ 64) r) :
    (∀ t ∈ Intended.relationTests r, literalsFitOn bits t = true) ↔ UsizeFits bits r := by
  by_cases hw : IsWithin r.operator
  · obtain ⟨⟨o, m⟩, op, l⟩ := r
    simp only [Listed, relNumbers] at *
    obtain ⟨lo, hi, hfr⟩ := exists_firstRange l (hl.2 hw)
    have hfr' := hfr
    obtain ⟨v, rest, rfl, hv⟩ := hfr'
    obtain ⟨h1, h2⟩ : lo < 2 ^ 64 ∧ hi < 2 ^ 64 := hr.2 (.range lo hi) (by simp)
    have hrel : ∃ c, Intended.relationTests ⟨⟨o, m⟩, op, v ++ .range lo hi :: rest⟩ = Intended.withinTests ⟨o, m⟩ c (.range lo hi :: rest) := by
      rcases hw with rfl | rfl
      · exact ⟨_, withinTests_values _ _ v _ hv⟩
      · exact ⟨_, withinTests_values _ _ v _ hv⟩
    obtain ⟨c, hrel⟩ := hrel
    rw [hrel]
    have hU : UsizeFits bits ⟨⟨o, m⟩, op, v ++ .range lo hi :: rest⟩ ↔ (o = .V ∨ o = .W → m = none → lo < 2 ^ bits ∧ hi < 2 ^ bits) := by
      simp only [UsizeFits, hw, true_implies, not_true_eq_false, false_implies, and_true]
      refine imp_congr_right fun _ => imp_congr_right fun _ => ⟨fun h => h lo hi hfr, fun h lo' hi' hf => ?_⟩
      obtain ⟨rfl, rfl⟩ := firstRange_unique hfr hf
      exact h
    rw [hU]
    cases m with
    | none =>
      cases o <;> simp_all [Intended.withinTests, literalsFitOn, literalsBelow, hasUsize]
    | some m =>
      have := hr.1 m rfl
      cases o <;> simp_all [Intended.withinTests, literalsFitOn, literalsBelow, hasUsize]
  · obtain ⟨b, hb⟩ := items_pred (f := literalsFitOn bits) (fun _ _ => rfl) (fun _ _ => rfl) r hw
    rw [hb]
    simp only [UsizeFits, hw, false_implies, true_and, not_false_eq_true, true_implies, relNumbers]
    obtain ⟨x0, hx0⟩ := List.exists_mem_of_ne_nil _ hl.1
    constructor
    · intro h ho
      have h' := fun x hx => (item_fits bits r.expression b x hr.1 (hr.2 x hx)).1 (h x hx) ho
      exact ⟨(h' x0 hx0).1, fun x hx => (h' x hx).2⟩
    · intro h x hx
      exact (item_fits bits r.expression b x hr.1 (hr.2 x hx)).2 fun ho => ⟨(h ho).1, (h ho).2 x hx⟩

theorem code_fits (bits : Nat) {c : Condition} {e : RExpr} (hl : AllRelations Listed c) (h : Code c e) (s : Str) (hs : ConditionOf 64 s c) :
    literalsFitOn bits e = true ↔ ∀ a ∈ c, ∀ r ∈ a, UsizeFits bits r := by
  obtain ⟨e', ⟨ts, h1, h2⟩, h3⟩ := code_of_condition c hl
  obtain ⟨ts', g1, g2⟩ := h
  rw [h1] at g1; cases g1
  rw [h2] at g2; cases g2
  rw [condition_pred (f := literalsFitOn bits) (fun _ _ => rfl) (fun _ _ => rfl) h3]
  exact forall_congr' fun a => forall_congr' fun ha => forall_congr' fun r => forall_congr' fun hr =>
    relation_fits bits r ((hl.2 a ha).2 r hr) (condition_numbers (parsePluralCondition_ok.2 hs) a ha r hr)

theorem locale_fits (bits : Nat) {rules : RuleObj} {set : List (PluralCategory × List Tok)} (hg : genLocaleRules (btree rules) = some set)
    {f : Closure} (hf : parseBody (ruleTokens set) = some f) :
    (∀ a ∈ f.arms, literalsFitOn bits a.1 = true) ↔ RulesFit bits rules := by
  have hl := full_of_expr hg hf
  obtain ⟨src, arms, h1, h2, h3, h4⟩ := function_of_rules rules set hg hl
  rw [hf] at h4; cases h4
  constructor
  · intro h name text part c k1 k2 k3 k4
    have hp : (name, text) ∈ src := h3 _ (((Maps.btree_spec rules).2 _ _).2 k1) part k2 k3
    obtain ⟨a, ha, g1, cond, g2, g3, g4⟩ := (mem_arms h2).2 _ hp
    cases C89_one 64 _ _ _ k4 g3
    exact (code_fits bits (hl name text part c k1 k2 k3 k4) g4 text k4).1 (h a ha)
  · intro h a ha
    obtain ⟨name, text, g1, g2, cond, g3, g4, g5⟩ := (arms_iff h1 h2 h3 a).1 ha
    have hcat : cldrName a.2 ∈ categoryNames := cldrName_mem.2 g2
    exact (code_fits bits (hl name text _ cond g1 g3 hcat g4) g5 text g4).2 (h name text _ cond g1 g3 hcat g4)

/-! ## C97 -/

theorem versionNumber_unique {s : Str} {n m : Nat} (h : VersionNumber s n) (h' : VersionNumber s m) : n = m := by
  obtain ⟨l, hl, h⟩ := h
  obtain ⟨l', hl', h'⟩ := h'
  have hd : ∀ (l : List (Fin 10)) (x : Char) (r : Str), digitText l = x :: r → isDigit x = true := by
    intro l x r h
    have : x ∈ digitText l := by rw [h]; simp
    obtain ⟨d, -, rfl⟩ := List.mem_map.1 this
    clear h this
    revert d; decide
  have hplus : ∀ (l : List (Fin 10)) r, digitText l ≠ '+' :: r := fun l r h => absurd (hd l _ _ h) (by decide)
  have hminus : ∀ (l : List (Fin 10)) r, digitText l ≠ '-' :: r := fun l r h => absurd (hd l _ _ h) (by decide)
  rcases h with ⟨rfl | rfl, -, rfl⟩ | ⟨rfl, -, rfl⟩ <;> rcases h' with ⟨e | e, -, rfl⟩ | ⟨e, -, rfl⟩
  · rw [Strings.digitText_inj e]
  · exact absurd e (hplus _ _)
  · exact absurd e (hminus _ _)
  · exact absurd e.symm (hplus _ _)
  · rw [Strings.digitText_inj (List.cons.inj e).2]
  · simp at e
  · exact absurd e.symm (hminus _ _)
  · simp at e
  · rw [Strings.digitText_inj (List.cons.inj e).2]

/-- C97: the library compiles with a generated and formatted file for a machine with fewer than 64 bits exactly if it does for one
with 64, the version of the input files is a number of that width, and so are the numbers that rules compare with `v` and `w`; and
then it is the same library. -/
theorem C97_compiles (texts : List Str) (rs : List Generate.Resource) (hr : List.Forall₂ ResourceText texts rs) (out : Str)
    (h : generateText LangId.parse texts = some out) (text : Str) (hf : Formatted out text) (bits : Nat) (hb : bits ≤ 64) (lib : Library) :
    buildOn bits text = some lib ↔ build text = some lib ∧ (∀ r ∈ rs, ∃ n, VersionNumber r.cldrVersion n ∧ n < 2 ^ bits) ∧
      ∀ t obj, rs.filterMap (dataOf t) = [obj] → ∀ key rules, LastOf obj key rules → key ≠ c!"root" → RulesFit bits rules := by
  rw [buildOn_iff hb]
  refine and_congr_right fun hbuild => and_congr ?_ ?_
  · obtain ⟨v, n, hv, hn, hfile⟩ := C59_file LangId.parse rs out (generated_rs hr h)
    have hitems : (∀ items, readFile (lex text) = some items → ∀ m, Item.version m ∈ items → m < 2 ^ bits) ↔ n < 2 ^ bits := by
      rcases hf.1 with ⟨h1, -⟩ | ⟨items, items', h1, h2, h3⟩
      · rw [build_formatted hf, h1] at hbuild; cases hbuild
      · obtain ⟨c, o, hc, ho, rfl⟩ := (hfile items).1 h1
        have hno : ∀ t items, TypeItems LangId.parse t rs items → ∀ m, Item.version m ∉ items := by
          rintro t items (⟨-, rfl⟩ | ⟨_, _, _, -, -, -, rfl⟩) <;> simp
        have hmem : ∀ m, Item.version m ∈ items' ↔ m = n := by
          intro m
          rw [h3.mem_iff]
          simp only [List.mem_append, hno _ _ hc, hno _ _ ho, or_false]
          simp [preamble]
        simp only [h2, Option.some.injEq, forall_eq', hmem, forall_eq]
    rw [hitems]
    constructor
    · intro hlt r hr
      exact ⟨n, by rw [hv r hr]; exact hn, hlt⟩
    · intro hall
      obtain ⟨obj, -, ho, -⟩ := (build_generated hr h hf lib).1 hbuild .CARDINAL
      have : obj ∈ rs.filterMap (dataOf .CARDINAL) := by rw [ho]; simp
      obtain ⟨r, hr', -⟩ := List.mem_filterMap.1 this
      obtain ⟨m, hm, hlt⟩ := hall r hr'
      rw [hv r hr'] at hm
      rwa [versionNumber_unique hn hm]
  · refine ⟨fun hall t obj ho key rules hk hroot => ?_, fun hall t e he => ?_⟩
    · obtain ⟨obj', streams, h1, h2, h3, -⟩ := (build_generated hr h hf lib).1 hbuild t
      rw [ho] at h1; cases h1
      have hsome : genTypeRs LangId.parse obj ≠ none := by rw [h2]; simp
      rw [genTypeRs_isSome] at hsome
      obtain ⟨g3, g4⟩ := hsome key rules hk hroot
      obtain ⟨id, g3⟩ := Option.ne_none_iff_exists'.1 g3
      obtain ⟨set, g4⟩ := Option.ne_none_iff_exists'.1 g4
      unfold genTypeRs at h2
      cases hl : genTypeEntries LangId.parse obj with
      | none => simp [hl] at h2
      | some l =>
        simp only [hl, Option.map_some, Option.some.injEq] at h2
        subst h2
        obtain ⟨hspec, -, -⟩ := entries_spec LangId.parse hl
        obtain ⟨e, he, h5⟩ := (forall₂_mem (readTable_any h3)).2 (id, set) ((hspec id set).2 ⟨key, rules, hk, hroot, g3, g4⟩)
        exact (locale_fits bits g4 ((entry_compiles g3 g4).2 e h5).2).1 (hall t e he)
    · obtain ⟨obj, streams, h1, h2, h3, -⟩ := (build_generated hr h hf lib).1 hbuild t
      obtain ⟨key, rules, id', set, k1, k2, k3, k4, k5, k6⟩ := ((type_compiles h2).2 _ h3).2.2 e he
      exact (locale_fits bits k5 k6).2 (hall t obj h1 key rules k1 k2)

/-- C97: with the shipped file the library compiles for every machine with at least 6 bits (and up to 64), and is the same; with
fewer the number 37 of the version does not fit. -/
theorem C97_shipped (bits : Nat) (hb : bits ≤ 64) : buildOn bits RulesText.rules = if 6 ≤ bits then build RulesText.rules else none := by
  have hread := C61_rules_file
  obtain ⟨lib, hlib, htab, -⟩ := C93_shipped
  have hfit : ∀ t, (table t).all (fun e => e.2.arms.all fun a => literalsFitOn 6 a.1) = true := by
    intro t; cases t <;> decide +kernel
  have hmono : ∀ e, 6 ≤ bits → literalsFitOn 6 e = true → literalsFitOn bits e = true := by
    intro e h6
    have hp : ∀ x, 2 ^ (if hasUsize x = true then 6 else 64) ≤ 2 ^ (if hasUsize x = true then bits else 64) := fun x =>
      Nat.pow_le_pow_right (by decide) (by split <;> omega)
    induction e with
    | not a ih => simp only [literalsFitOn]; exact ih
    | and a b iha ihb => simp only [literalsFitOn, Bool.and_eq_true]; exact fun h => ⟨iha h.1, ihb h.2⟩
    | or a b iha ihb => simp only [literalsFitOn, Bool.and_eq_true]; exact fun h => ⟨iha h.1, ihb h.2⟩
    | _ => simp only [literalsFitOn]; exact literalsBelow_mono (hp _) _
  have hver : ∀ n, Item.version n ∈ shippedItems ↔ n = 37 := by
    intro n; simp [shippedItems, RulesTable.cldrVersion]
  split
  · rename_i h6
    rw [hlib, buildOn_iff hb]
    refine ⟨hlib, fun items hi n hn => ?_, fun t e he a ha => ?_⟩
    · rw [hread] at hi; cases hi
      rw [(hver n).1 hn]
      exact Nat.lt_of_lt_of_le (by decide : 37 < 2 ^ 6) (Nat.pow_le_pow_right (by decide) h6)
    · rw [htab] at he
      have := List.all_eq_true.1 (hfit t) e he
      exact hmono _ h6 (List.all_eq_true.1 this a ha)
  · rename_i h6
    cases hbo : buildOn bits RulesText.rules with
    | none => rfl
    | some lib' =>
      obtain ⟨-, h1, -⟩ := (buildOn_iff hb _ _).1 hbo
      have h2 := h1 _ hread 37 ((hver 37).2 rfl)
      have h3 : 2 ^ bits ≤ 2 ^ 5 := Nat.pow_le_pow_right (by decide) (by omega)
      omega

/-! ## Examples -/

/-- The file of the entries, compiled for this width. -/
def libraryOn (bits : Nat) (cardinal : Str) : Option Library :=
  (generateText LangId.parse [libraryFile c!"cardinal" cardinal, libraryFile c!"ordinal" []]).bind (buildOn bits)

/-- Numbers from 2^32 compared with `v` or `w` do not compile for 32 bits, compared with other operands they do. -/
example : libraryOn 32 c!"\"en\":{\"pluralRule-count-one\":\"v = 4294967296\"}" = none ∧
    libraryOn 64 c!"\"en\":{\"pluralRule-count-one\":\"v = 4294967296\"}" ≠ none ∧
    libraryOn 32 c!"\"en\":{\"pluralRule-count-one\":\"w % 4294967296 = 1..2\"}" = none ∧
    libraryOn 32 c!"\"en\":{\"pluralRule-count-one\":\"i = 4294967296 and v = 4294967295\"}" ≠ none ∧
    libraryOn 32 c!"\"en\":{\"pluralRule-count-one\":\"v % 4294967296 within 0..4294967296\"}" ≠ none := by
  decide +kernel

end Verif.Props
