import Verif.Lemmas.Library
import Verif.Props.Panics
import Verif.Props.Literals
import Verif.Props.AnySearch
import Verif.Props.Output
import Verif.Props.Shipped

/-!
# C93: the library built with a generated file
-/

namespace Verif.Props
open Verif Api Rust Uts35 Spec Verif.Parser Verif.Grammar Generate GenPr GenRs RulesRead FileRead Gen Maps Lib Sem Eval ResourceSpec Resource

/-- The rules of a locale become code that the compiler accepts: no rule but OTHER has an empty condition or list, and no remainder
by zero gets into the code. -/
def RulesCompile (rules : RuleObj) : Prop := ∀ name text part c, LastOf rules name text → ThirdPart name part →
  part ∈ categoryNames → ConditionOf 64 text c → AllRelations (fun r => Listed r ∧ ¬ DividesByZero r) c

/-- The entries of a type become code that the compiler accepts: no key is an identifier without language (`und`). -/
def TypeCompiles (obj : TypeObj) : Prop := ∀ key rules, LastOf obj key rules → key ≠ c!"root" →
  (∀ id, LangId.parse key = some id → id.language ≠ none) ∧ RulesCompile rules

/-- `text` is the file `out` as a formatter leaves it: it has the same items, but for their order (rustfmt sorts imports), and no number
is torn at its point, as numbers with a point are in what the generator writes (`1 . 0`). -/
def Formatted (out text : Str) : Prop :=
  ((readFile (lex out) = none ∧ readFile (lex text) = none) ∨
    ∃ items items', readFile (lex out) = some items ∧ readFile (lex text) = some items' ∧ items'.Perm items) ∧
  torn false text = false

/-! ## Zero divisors -/

theorem noZero_iff (r : Relation) (hr : Listed r) : (∀ t ∈ Intended.relationTests r, noZeroDivisor t = true) ↔ ¬ DividesByZero r := by
  constructor
  · intro h hz
    obtain ⟨po⟩ : Nonempty PluralOperands := ⟨⟨Flt.ofRat b64 false 0 1, 0, 0, 0, 0, 0⟩⟩
    have h0 := relValue_zero po r hr hz
    obtain ⟨b, hb⟩ := evAll_total po _ (relationTests_ty r) fun t ht => by
      rw [← noZero_of_remLit t (relationTests_remLit r t ht)]; exact h t ht
    obtain ⟨b, hb⟩ := seqAnd_total hb
    rw [relValue, hb] at h0
    cases h0
  · intro hz t ht
    rw [noZero_of_remLit t (relationTests_remLit r t ht)]
    by_cases hm : r.expression.modulus = some 0
    · obtain ⟨⟨o, m⟩, op, l⟩ := r
      simp only at hm
      subst hm
      simp only [DividesByZero, true_and, not_or, not_not, not_exists] at hz
      obtain ⟨rfl, hw, hv⟩ := hz
      have hmap : ∀ b, (Intended.ordered l).map (Intended.itemTests ⟨.N, some 0⟩ b) = (Intended.ordered l).map (Intended.itemTests ⟨.N, some 1⟩ b) := by
        intro b
        refine List.map_congr_left fun x hx => ?_
        cases x with
        | value k =>
          have : RangeListItem.value k ∈ l := by
            simp only [Intended.ordered, List.mem_append, List.mem_filter] at hx
            rcases hx with hx | hx <;> exact hx.1
          exact absurd this (hv k)
        | range _ _ => rfl
      have : Intended.relationTests ⟨⟨.N, some 0⟩, op, l⟩ = Intended.relationTests ⟨⟨.N, some 1⟩, op, l⟩ := by
        cases op <;> simp [IsWithin] at hw <;> simp only [Intended.relationTests, hmap]
      rw [this] at ht
      exact relationTests_noZero ⟨⟨.N, some 1⟩, op, l⟩ (by simp) t ht
    · exact relationTests_noZero r hm t ht

theorem relationTests_fit (r : Relation) (hr : relNumbers (· < 2 ^ 64) r) : ∀ t ∈ Intended.relationTests r, literalsFit t = true := by
  obtain ⟨hm, hl⟩ := hr
  refine tests_pred (fun _ _ => rfl) (fun _ _ => rfl) r (fun b x hx t ht => ?_) fun op t ht => ?_
  · have hy := hl x hx
    obtain ⟨⟨o, m⟩, op', l⟩ := r
    simp only at hm
    have hleft : ∀ o, literalsFit (Intended.leftSide o m) = true := fun o => by
      cases m with
      | none => rfl
      | some m => simpa [Intended.leftSide, literalsFit] using hm m rfl
    by_cases hN : o = .N
    · subst hN
      cases x <;> cases m <;> cases b <;> simp [Intended.itemTests, Intended.valueTest, Intended.rangeTests] at ht <;>
        first
          | (subst ht; simp_all [literalsFit, Intended.leftSide, itemNumbers])
          | (rcases ht with ht | ht <;> subst ht <;> simp_all [literalsFit, Intended.leftSide, itemNumbers])
    · cases x with
      | value k =>
        simp only [Intended.itemTests, Intended.valueTest, hN, if_false, List.mem_singleton] at ht
        have hx : k < 2 ^ 64 := hl _ hx
        subst ht; simpa [literalsFit, hleft] using hx
      | range lo hi =>
        simp only [Intended.itemTests, Intended.rangeTests, hN, if_false, List.mem_singleton] at ht
        have hx : lo < 2 ^ 64 ∧ hi < 2 ^ 64 := hl _ hx
        subst ht
        cases b <;> simpa [literalsFit, hleft] using hx
  · obtain ⟨⟨o, m⟩, op', l⟩ := r
    simp only at hm hl ht
    induction l with
    | nil => simp [Intended.withinTests] at ht
    | cons x l ih =>
      cases x with
      | value k => exact ih (fun x hx => hl x (by simp [hx])) ht
      | range lo hi =>
        obtain ⟨hlo, hhi⟩ : lo < 2 ^ 64 ∧ hi < 2 ^ 64 := hl (.range lo hi) (by simp)
        cases m with
        | none => cases o <;> simp [Intended.withinTests] at ht <;> rcases ht with rfl | rfl <;> simp [literalsFit] <;> omega
        | some m =>
          have := hm m rfl
          cases o <;> simp [Intended.withinTests] at ht <;> rcases ht with rfl | rfl <;> simp [literalsFit] <;> omega

theorem code_noZero {c : Condition} {e : RExpr} (hl : AllRelations Listed c) (h : Code c e) :
    e.ty = some .bool ∧ (noZeroDivisor e = true ↔ AllRelations (fun r => Listed r ∧ ¬ DividesByZero r) c) ∧
      noZeroDivisor e = noZeroRem e ∧ ∀ s, ConditionOf 64 s c → literalsFit e = true := by
  obtain ⟨e', ⟨ts, h1, h2⟩, h3⟩ := code_of_condition c hl
  obtain ⟨ts', g1, g2⟩ := h
  rw [h1] at g1; cases g1
  rw [h2] at g2; cases g2
  refine ⟨condition_ty h3, ?_, ?_, ?_⟩
  · rw [condition_pred (fun _ _ => rfl) (fun _ _ => rfl) h3]
    constructor
    · intro h
      exact ⟨hl.1, fun a ha => ⟨(hl.2 a ha).1, fun r hr => ⟨(hl.2 a ha).2 r hr, (noZero_iff r ((hl.2 a ha).2 r hr)).1 (h a ha r hr)⟩⟩⟩
    · intro h a ha r hr
      exact (noZero_iff r ((hl.2 a ha).2 r hr)).2 ((h.2 a ha).2 r hr).2
  · exact noZero_of_remLit e ((condition_pred (f := remLit) (fun _ _ => rfl) (fun _ _ => rfl) h3).2
      fun a _ r _ => relationTests_remLit r)
  · intro s hs
    exact (condition_pred (f := literalsFit) (fun _ _ => rfl) (fun _ _ => rfl) h3).2 fun a ha r hr =>
      relationTests_fit r (condition_numbers (parsePluralCondition_ok.2 hs) a ha r hr)

/-! ## The function of a locale -/

theorem forall₂_mem {R : α → β → Prop} {l : List α} {m : List β} (h : List.Forall₂ R l m) :
    (∀ b ∈ m, ∃ a ∈ l, R a b) ∧ ∀ a ∈ l, ∃ b ∈ m, R a b := by
  induction h with
  | nil => simp
  | cons h1 _ ih =>
    constructor
    · intro b hb
      rcases List.mem_cons.1 hb with rfl | hb
      · exact ⟨_, by simp, h1⟩
      · obtain ⟨a, ha, h⟩ := ih.1 b hb; exact ⟨a, by simp [ha], h⟩
    · intro a ha
      rcases List.mem_cons.1 ha with rfl | ha
      · exact ⟨_, by simp, h1⟩
      · obtain ⟨b, hb, h⟩ := ih.2 a ha; exact ⟨b, by simp [hb], h⟩

theorem full_of_expr {rules : RuleObj} {set : List (PluralCategory × List Tok)} (hg : genLocaleRules (btree rules) = some set)
    {f : Closure} (hf : parseBody (ruleTokens set) = some f) :
    ∀ name text part c, LastOf rules name text → ThirdPart name part → part ∈ categoryNames →
      ConditionOf 64 text c → AllRelations Listed c := by
  intro name text part c h1 h2 h3 h4
  unfold genLocaleRules at hg
  cases hm : mapPanic genRule (btree rules) with
  | none => simp [hm] at hg
  | some opts =>
    simp only [hm, Option.map_some, Option.some.injEq] at hg
    subst hg
    obtain ⟨src, s1, s2, s3⟩ := filterMap_source hm
    have hsrc : (name, text) ∈ src := by
      refine (s3 (name, text) (((Maps.btree_spec rules).2 _ _).2 h1)).resolve_right fun hn => ?_
      obtain ⟨part', ht', ho⟩ := genRule_skip _ hn
      cases thirdPart_unique h2 ht'
      exact (categoryOfName_iff part).2 h3 ho
    have hall : ∀ q ∈ opts.filterMap id, ∃ p ∈ src, genRule p = some (some q) := (forall₂_mem s2).1
    have hown : ∃ q ∈ opts.filterMap id, genRule (name, text) = some (some q) := (forall₂_mem s2).2 _ hsrc
    have hcases : ∀ q ∈ opts.filterMap id, q.1 ≠ .OTHER ∧ ((∃ e, Prec.IsOr q.2 e) ∨ NoExpr q.2) := by
      intro q hq
      obtain ⟨p, -, hp⟩ := hall q hq
      obtain ⟨part, cond, -, -, t3, -, t5⟩ := genRule_some p q hp
      refine ⟨t3, ?_⟩
      by_cases hfull : Prec.Full cond
      · obtain ⟨e, -, he⟩ := Prec.condition_tokens cond q.2 t5 hfull
        exact .inl ⟨e, he⟩
      · exact .inr (noExpr_of_not_full cond q.2 t5 hfull)
    obtain ⟨q, hq, hp⟩ := hown
    obtain ⟨part', cond, t1, -, -, t4, t5⟩ := genRule_some _ q hp
    have hc : c = cond := by
      have h4' := parsePluralCondition_ok.2 h4
      simp only at t4
      rw [t4] at h4'; cases h4'; rfl
    subst hc
    by_cases hfull : Prec.Full c
    · refine ⟨hfull.1, fun a ha => ⟨(hfull.2 a ha).1, fun r hr => ?_⟩⟩
      have hw : IsWithin r.operator → ∃ lo hi, RangeListItem.range lo hi ∈ r.rangeList := by
        intro hw
        refine Classical.byContradiction fun hn => ?_
        have := (Prec.genPr_none c).2 ⟨a, ha, r, hr, (isWithin_iff _).2 hw, fun lo hi h => hn ⟨lo, hi, h⟩⟩
        rw [t5] at this; cases this
      refine ⟨?_, hw⟩
      by_cases hw' : IsWithin r.operator
      · obtain ⟨lo, hi, h⟩ := hw hw'
        intro hn; rw [hn] at h; cases h
      · refine (hfull.2 a ha).2 r hr ?_
        rw [← Bool.not_eq_true, isWithin_iff]; exact hw'
    · have := parseBody_bad (opts.filterMap id) (fun q hq => (hcases q hq).1) (fun q hq => (hcases q hq).2)
        ⟨q, hq, noExpr_of_not_full c q.2 t5 hfull⟩
      rw [this] at hf; cases hf

/-- The code of a locale compiles exactly if its rules do; then the tests never panic. -/
theorem locale_compiles (rules : RuleObj) (set : List (PluralCategory × List Tok)) (hg : genLocaleRules (btree rules) = some set) :
    ((∃ f, parseBody (ruleTokens set) = some f ∧ accepted f = true) ↔ RulesCompile rules) ∧
    ∀ f, parseBody (ruleTokens set) = some f → accepted f = true → ∀ po, f.call po ≠ none := by
  have arm : ∀ f, parseBody (ruleTokens set) = some f → ∃ src, src.Sublist (btree rules) ∧ List.Forall₂ ArmOf src f.arms ∧
      (∀ p ∈ btree rules, ∀ part, ThirdPart p.1 part → part ∈ categoryNames → p ∈ src) ∧
      ∀ a ∈ f.arms, ∃ name text part cond, LastOf rules name text ∧ ThirdPart name part ∧ part ∈ categoryNames ∧
        ConditionOf 64 text cond ∧ Code cond a.1 ∧ AllRelations Listed cond := by
    intro f hf
    have hl := full_of_expr hg hf
    obtain ⟨src, arms, h1, h2, h3, h4⟩ := function_of_rules rules set hg hl
    rw [hf] at h4; cases h4
    refine ⟨src, h1, h2, h3, fun a ha => ?_⟩
    obtain ⟨name, text, g1, g2, cond, g3, g4, g5⟩ := (arms_iff h1 h2 h3 a).1 ha
    have hcat : cldrName a.2 ∈ categoryNames := by
      cases h : a.2 <;> first | exact absurd h g2 | decide
    exact ⟨name, text, _, cond, g1, g3, hcat, g4, g5, hl name text _ cond g1 g3 hcat g4⟩
  refine ⟨⟨?_, fun hc => ?_⟩, ?_⟩
  · rintro ⟨f, hf, ha⟩ name text part c h1 h2 h3 h4
    have hl := full_of_expr hg hf
    obtain ⟨src, s1, s2, s3, -⟩ := arm f hf
    have hp : (name, text) ∈ src := s3 _ (((Maps.btree_spec rules).2 _ _).2 h1) part h2 h3
    obtain ⟨a, ha', g1, cond, g2, g3, g4⟩ := (mem_arms s2).2 _ hp
    have : c = cond := by
      have g3 := parsePluralCondition_ok.2 g3
      have h4 := parsePluralCondition_ok.2 h4
      simp only at g3
      rw [h4] at g3; cases g3; rfl
    subst this
    simp only [accepted, Bool.and_eq_true, List.all_eq_true] at ha
    exact (code_noZero (hl name text part c h1 h2 h3 h4) g4).2.1.1 (ha.2 a ha').2
  · have hl : ∀ name text part c, LastOf rules name text → ThirdPart name part → part ∈ categoryNames →
        ConditionOf 64 text c → AllRelations Listed c := fun name text part c h1 h2 h3 h4 =>
      have := hc name text part c h1 h2 h3 h4
      ⟨this.1, fun a ha => ⟨(this.2 a ha).1, fun r hr => ((this.2 a ha).2 r hr).1⟩⟩
    obtain ⟨src, arms, h1, h2, h3, h4⟩ := function_of_rules rules set hg hl
    refine ⟨_, h4, ?_⟩
    obtain ⟨-, -, -, -, harm⟩ := arm _ h4
    simp only [accepted, Closure.wellTyped, Bool.and_eq_true, List.all_eq_true, decide_eq_true_eq]
    constructor <;> intro a ha <;> obtain ⟨name, text, part, cond, g1, g2, g3, g4, g5, g6⟩ := harm a ha
    · exact (code_noZero g6 g5).1
    · exact ⟨(code_noZero g6 g5).2.2.2 text g4, (code_noZero g6 g5).2.1.2 (hc name text part cond g1 g2 g3 g4)⟩
  · intro f hf ha po
    obtain ⟨-, -, -, -, harm⟩ := arm f hf
    simp only [accepted, Bool.and_eq_true, List.all_eq_true] at ha
    have htot : ∀ a ∈ f.arms, ∃ b, a.1.eval po = some (.bool b) := by
      intro a ha'
      obtain ⟨name, text, part, cond, g1, g2, g3, g4, g5, g6⟩ := harm a ha'
      obtain ⟨k1, -, k3, -⟩ := code_noZero g6 g5
      obtain ⟨v, hv, hty⟩ := eval_total po a.1 _ k1 (by rw [← k3]; exact (ha.2 a ha').2)
      obtain ⟨b, rfl⟩ := hasTy_bool hty
      exact ⟨b, hv⟩
    unfold Closure.call
    clear harm ha hf
    generalize f.arms = arms at htot
    induction arms with
    | nil => simp [evalArms]
    | cons a arms ih =>
      obtain ⟨b, hb⟩ := htot a (by simp)
      obtain ⟨e, c⟩ := a
      simp only at hb
      cases b
      · simp only [evalArms, hb]; exact ih fun a ha => htot a (by simp [ha])
      · simp [evalArms, hb]

/-! ## The table of a type -/

/-- The identifier that a generated entry has: variants are lost. -/
def written (id : LangId) : LangId := { id with variants := none }

theorem written_cmp (a b : LangId) (h : LangId.cmp a b ≠ .gt) : LangId.cmp (written a) (written b) ≠ .gt := by
  unfold LangId.cmp written at *
  dsimp only
  revert h
  cases LangId.cmpOpt LangId.cmpStr a.language b.language <;> cases LangId.cmpOpt LangId.cmpStr a.script b.script <;>
    cases LangId.cmpOpt LangId.cmpStr a.region b.region <;> simp [Ordering.then, LangId.cmpOpt]

theorem entry_compiles {key : Str} {rules : RuleObj} {id : LangId} {set : List (PluralCategory × List Tok)}
    (hi : LangId.parse key = some id) (hg : genLocaleRules (btree rules) = some set) :
    ((∃ e, readEntry (genMid id set) = some e ∧ accepted e.2 = true) ↔ id.language ≠ none ∧ RulesCompile rules) ∧
    ∀ e, readEntry (genMid id set) = some e → e.1 = written id ∧ parseBody (ruleTokens set) = some e.2 := by
  by_cases hl : id.language = none
  · rw [readEntry_und id hl]
    simp [hl]
  · rw [readEntry_parsed hi hl, ← (locale_compiles rules set hg).1]
    cases parseBody (ruleTokens set) with
    | none => simp
    | some f =>
      simp only [Option.map_some, Option.some.injEq, exists_eq_left', ne_eq, hl, not_false_eq_true, true_and, forall_eq']
      exact ⟨rfl, trivial⟩

theorem type_compiles {obj : TypeObj} {streams : List (List Tok)} (h : genTypeRs LangId.parse obj = some streams) :
    ((∃ table, readTable streams = some table ∧ ∀ e ∈ table, accepted e.2 = true) ↔ TypeCompiles obj) ∧
    ∀ table, readTable streams = some table →
      (table.Pairwise fun a b => LangId.cmp a.1 b.1 ≠ .gt) ∧
      (∀ id, id ∈ table.map (·.1) ↔ ∃ key rules id', LastOf obj key rules ∧ key ≠ c!"root" ∧ LangId.parse key = some id' ∧ id = written id') ∧
      ∀ e ∈ table, ∃ key rules id' set, LastOf obj key rules ∧ key ≠ c!"root" ∧ LangId.parse key = some id' ∧ e.1 = written id' ∧
        genLocaleRules (btree rules) = some set ∧ parseBody (ruleTokens set) = some e.2 := by
  have hsome : genTypeRs LangId.parse obj ≠ none := by rw [h]; simp
  rw [genTypeRs_isSome] at hsome
  unfold genTypeRs at h
  cases hl : genTypeEntries LangId.parse obj with
  | none => simp [hl] at h
  | some l =>
    simp only [hl, Option.map_some, Option.some.injEq] at h
    subst h
    obtain ⟨hspec, hsorted, -⟩ := entries_spec LangId.parse hl
    refine ⟨⟨?_, fun hc => ?_⟩, fun table ht => ?_⟩
    · rintro ⟨table, ht, ha⟩ key rules h1 h2
      obtain ⟨h3, h4⟩ := hsome key rules h1 h2
      obtain ⟨id, h3⟩ := Option.ne_none_iff_exists'.1 h3
      obtain ⟨set, h4⟩ := Option.ne_none_iff_exists'.1 h4
      obtain ⟨e, he, h5⟩ := (forall₂_mem (readTable_any ht)).2 (id, set) ((hspec id set).2 ⟨key, rules, h1, h2, h3, h4⟩)
      obtain ⟨k1, k2⟩ := (entry_compiles h3 h4).1.1 ⟨e, h5, ha e he⟩
      refine ⟨fun id' hid' => ?_, k2⟩
      rw [h3] at hid'; cases hid'; exact k1
    · have hread : readTable (l.map fun p => genMid p.1 p.2) ≠ none := by
        rw [readTable, mapPanic_isSome]
        intro ts hts
        obtain ⟨⟨id, set⟩, hm, rfl⟩ := List.mem_map.1 hts
        obtain ⟨key, rules, h1, h2, h3, h4⟩ := (hspec id set).1 hm
        obtain ⟨c1, c2⟩ := hc key rules h1 h2
        obtain ⟨e, he, -⟩ := (entry_compiles h3 h4).1.2 ⟨c1 id h3, c2⟩
        rw [he]; simp
      obtain ⟨table, ht⟩ := Option.ne_none_iff_exists'.1 hread
      refine ⟨table, ht, fun e he => ?_⟩
      obtain ⟨⟨id, set⟩, hm, h5⟩ := (forall₂_mem (readTable_any ht)).1 e he
      obtain ⟨key, rules, h1, h2, h3, h4⟩ := (hspec id set).1 hm
      obtain ⟨c1, c2⟩ := hc key rules h1 h2
      obtain ⟨e', he', ha⟩ := (entry_compiles h3 h4).1.2 ⟨c1 id h3, c2⟩
      simp only at h5
      rw [h5] at he'; cases he'; exact ha
    · have hf := readTable_any ht
      have hent : ∀ p ∈ l, ∀ e, readEntry (genMid p.1 p.2) = some e → e.1 = written p.1 := by
        rintro ⟨id, set⟩ hp e he
        obtain ⟨key, rules, h1, h2, h3, h4⟩ := (hspec id set).1 hp
        exact ((entry_compiles h3 h4).2 e he).1
      refine ⟨?_, fun id => ⟨fun hid => ?_, ?_⟩, fun e he => ?_⟩
      · have hid : table.map (·.1) = l.map fun p => written p.1 := by
          clear ht hl hspec hsorted hsome
          induction hf with
          | nil => rfl
          | @cons p e _ _ h1 _ ih =>
            rw [List.map_cons, List.map_cons, hent p (by simp) e h1, ih fun q hq => hent q (by simp [hq])]
        have : (table.map (·.1)).Pairwise fun a b => LangId.cmp a b ≠ .gt := by
          rw [hid]
          exact List.pairwise_map.2 (hsorted.imp fun {a b} h => written_cmp a.1 b.1 h)
        exact List.pairwise_map.1 this
      · obtain ⟨e, he, rfl⟩ := List.mem_map.1 hid
        obtain ⟨⟨id, set⟩, hm, h5⟩ := (forall₂_mem hf).1 e he
        obtain ⟨key, rules, h1, h2, h3, h4⟩ := (hspec id set).1 hm
        exact ⟨key, rules, id, h1, h2, h3, hent _ hm e h5⟩
      · rintro ⟨key, rules, id', h1, h2, h3, rfl⟩
        obtain ⟨-, h4⟩ := hsome key rules h1 h2
        obtain ⟨set, h4⟩ := Option.ne_none_iff_exists'.1 h4
        have hm := (hspec id' set).2 ⟨key, rules, h1, h2, h3, h4⟩
        obtain ⟨e, he, h5⟩ := (forall₂_mem hf).2 (id', set) hm
        exact List.mem_map.2 ⟨e, he, hent _ hm e h5⟩
      · obtain ⟨⟨id, set⟩, hm, h5⟩ := (forall₂_mem hf).1 e he
        obtain ⟨key, rules, h1, h2, h3, h4⟩ := (hspec id set).1 hm
        obtain ⟨k1, k2⟩ := (entry_compiles h3 h4).2 e h5
        exact ⟨key, rules, id, set, h1, h2, h3, k1, h4, k2⟩

/-! ## The file -/

theorem tablesNamed_append (name : Str) (a b : List Item) : tablesNamed name (a ++ b) = tablesNamed name a ++ tablesNamed name b :=
  List.filterMap_append ..

theorem perm_one {α} {a b : List α} (h : a.Perm b) (x : α) : a = [x] ↔ b = [x] := by
  constructor
  · rintro rfl; exact List.perm_singleton.1 h.symm
  · rintro rfl; exact List.perm_singleton.1 h

/-- The order of items does not matter. -/
theorem compile_perm {a b : List Item} (h : a.Perm b) : compile a = compile b := by
  have ht : ∀ name, (tablesNamed name a).Perm (tablesNamed name b) := fun name => h.filterMap _
  have hv : a.all versionFits = b.all versionFits := by
    rw [Bool.eq_iff_iff, List.all_eq_true, List.all_eq_true]
    exact ⟨fun g x hx => g x (h.mem_iff.2 hx), fun g x hx => g x (h.mem_iff.1 hx)⟩
  unfold compile
  rw [hv]
  have h1 := ht c!"PRS_CARDINAL"
  have h2 := ht c!"PRS_ORDINAL"
  have key : ∀ {α} (x y : List α), x.Perm y → (∀ e, x = [e] → y = [e]) ∧ (∀ e, y = [e] → x = [e]) := fun x y h =>
    ⟨fun e => (perm_one h e).1, fun e => (perm_one h e).2⟩
  generalize tablesNamed c!"PRS_CARDINAL" a = A at *
  generalize tablesNamed c!"PRS_ORDINAL" a = B at *
  generalize tablesNamed c!"PRS_CARDINAL" b = C at *
  generalize tablesNamed c!"PRS_ORDINAL" b = D at *
  have k1 := key A C h1
  have k2 := key B D h2
  match A, B with
  | [x], [y] => rw [k1.1 x rfl, k2.1 y rfl]
  | [], _ =>
    have : C = [] := h1.symm.eq_nil
    rw [this]
  | x :: y :: l, _ =>
    match C, h1.length_eq with
    | _ :: _ :: _, _ => rfl
  | [x], [] =>
    have : D = [] := h2.symm.eq_nil
    rw [k1.1 x rfl, this]
  | [x], y :: z :: l =>
    rw [k1.1 x rfl]
    match D, h2.length_eq with
    | _ :: _ :: _, _ => rfl

theorem build_formatted {out text : Str} (hf : Formatted out text) : build text = (readFile (lex out)).bind compile := by
  obtain ⟨h, ht⟩ := hf
  unfold build
  rw [ht]
  rcases h with ⟨h1, h2⟩ | ⟨a, b, h1, h2, h3⟩
  · rw [h1, h2]; rfl
  · rw [h1, h2]
    exact compile_perm h3

theorem build_items (toks : List Tok) (lib : Library) :
    (readFile toks).bind compile = some lib ↔ ∃ items, readFile toks = some items ∧ (∀ n, Item.version n ∈ items → n < 2 ^ 64) ∧
      (∀ t, tablesNamed (tableOf t) items = [lib.table t]) ∧ ∀ t, ∀ e ∈ lib.table t, accepted e.2 = true := by
  cases readFile toks with
  | none => simp
  | some items =>
    simp only [Option.some.injEq, exists_eq_left', Option.bind_some]
    unfold compile
    have key : (∀ t, tablesNamed (tableOf t) items = [lib.table t]) ↔
        tablesNamed c!"PRS_CARDINAL" items = [lib.cardinal] ∧ tablesNamed c!"PRS_ORDINAL" items = [lib.ordinal] :=
      ⟨fun h => ⟨h .CARDINAL, h .ORDINAL⟩, fun h t => by cases t; exacts [h.2, h.1]⟩
    have hv : (∀ n, Item.version n ∈ items → n < 2 ^ 64) ↔ items.all versionFits = true := by
      rw [List.all_eq_true]
      constructor
      · intro h i hi
        cases i with
        | version n => simpa [versionFits] using h n hi
        | _ => rfl
      · intro h n hn
        simpa [versionFits] using h _ hn
    rw [key, hv]
    generalize items.all versionFits = v
    generalize tablesNamed c!"PRS_CARDINAL" items = C
    generalize tablesNamed c!"PRS_ORDINAL" items = O
    match C, O with
    | [c], [o] =>
      simp only [List.cons.injEq, and_true]
      obtain ⟨lc, lo⟩ := lib
      split
      · rename_i h
        simp only [Option.some.injEq, Library.mk.injEq, List.all_eq_true, List.mem_append, Bool.and_eq_true] at h ⊢
        constructor
        · rintro ⟨rfl, rfl⟩
          exact ⟨h.1, ⟨rfl, rfl⟩, fun t e he => h.2 e (by cases t; exacts [.inr he, .inl he])⟩
        · exact fun h => h.2.1
      · rename_i h
        simp only [reduceCtorEq, false_iff]
        rintro ⟨hv, ⟨rfl, rfl⟩, h'⟩
        apply h
        simp only [List.all_eq_true, List.mem_append, Bool.and_eq_true]
        refine ⟨hv, ?_⟩
        rintro e (he | he)
        · exact h' .CARDINAL e he
        · exact h' .ORDINAL e he
    | [], _ => simp
    | _ :: _ :: _, _ => simp
    | [_], [] => simp
    | [_], _ :: _ :: _ => simp

theorem typeItems_named {t : PluralRuleType} {rs : List Generate.Resource} {items : List Item} (h : TypeItems LangId.parse t rs items) :
    (∀ t', t' ≠ t → tablesNamed (tableOf t') items = []) ∧
    ∀ table, tablesNamed (tableOf t) items = [table] ↔ ∃ obj streams, rs.filterMap (dataOf t) = [obj] ∧
      genTypeRs LangId.parse obj = some streams ∧ readTable streams = some table := by
  rcases h with ⟨h1, rfl⟩ | ⟨obj, streams, table', h1, h2, h3, rfl⟩
  · refine ⟨fun _ _ => rfl, fun table => ?_⟩
    simp [h1, tablesNamed]
  · refine ⟨fun t' ht => ?_, fun table => ?_⟩
    · have : tableOf t ≠ tableOf t' := by
        cases t <;> cases t' <;> first | exact absurd rfl ht | decide
      simp [tablesNamed, this]
    · simp only [tablesNamed, List.filterMap_cons, if_true, List.filterMap_nil, h1, List.cons.injEq, and_true]
      constructor
      · rintro rfl; exact ⟨obj, streams, rfl, h2, h3⟩
      · rintro ⟨_, _, rfl, g2, g3⟩
        rw [h2] at g2; cases g2
        rw [h3] at g3; cases g3; rfl

theorem generated_rs {texts : List Str} {rs : List Generate.Resource} {out : Str} (hr : List.Forall₂ ResourceText texts rs)
    (h : generateText LangId.parse texts = some out) : generateRs LangId.parse rs = some out := by
  unfold generateText at h
  cases hp : mapPanic parseResource texts with
  | none => simp [hp] at h
  | some rs' =>
    have hf := Prec.mapPanic_some hp
    have : rs = rs' := by
      clear h hp
      induction hf generalizing rs with
      | nil => cases hr; rfl
      | cons h1 _ ih =>
        cases hr with
        | cons g1 g =>
          rw [(C57_resource _ _).2 g1] at h1; cases h1
          rw [ih g]
    subst this
    simpa [hp] using h

theorem build_generated {texts : List Str} {rs : List Generate.Resource} {out : Str} (hr : List.Forall₂ ResourceText texts rs)
    (h : generateText LangId.parse texts = some out) {text : Str} (hf : Formatted out text) (lib : Library) :
    build text = some lib ↔ ∀ t, ∃ obj streams, rs.filterMap (dataOf t) = [obj] ∧ genTypeRs LangId.parse obj = some streams ∧
      readTable streams = some (lib.table t) ∧ ∀ e ∈ lib.table t, accepted e.2 = true := by
  have hg := generated_rs hr h
  rw [build_formatted hf, build_items]
  obtain ⟨v, n, -, hn, hfile⟩ := C59_file LangId.parse rs out hg
  constructor
  · rintro ⟨items, h1, -, h2, h3⟩ t
    obtain ⟨c, o, hc, ho, rfl⟩ := (hfile items).1 h1
    have hpre : ∀ t, tablesNamed (tableOf t) (preamble n) = [] := fun _ => rfl
    have h2 := h2 t
    rw [tablesNamed_append, tablesNamed_append, hpre, List.nil_append] at h2
    cases t with
    | CARDINAL =>
      rw [(typeItems_named ho).1 .CARDINAL (by decide), List.append_nil] at h2
      obtain ⟨obj, streams, g1, g2, g3⟩ := ((typeItems_named hc).2 _).1 h2
      exact ⟨obj, streams, g1, g2, g3, h3 _⟩
    | ORDINAL =>
      rw [(typeItems_named hc).1 .ORDINAL (by decide), List.nil_append] at h2
      obtain ⟨obj, streams, g1, g2, g3⟩ := ((typeItems_named ho).2 _).1 h2
      exact ⟨obj, streams, g1, g2, g3, h3 _⟩
  · intro h
    obtain ⟨oc, sc, c1, c2, c3, c4⟩ := h .CARDINAL
    obtain ⟨oo, so, o1, o2, o3, o4⟩ := h .ORDINAL
    have hc : TypeItems LangId.parse .CARDINAL rs [.table (tableOf .CARDINAL) (lib.table .CARDINAL)] :=
      .inr ⟨oc, sc, _, c1, c2, c3, rfl⟩
    have ho : TypeItems LangId.parse .ORDINAL rs [.table (tableOf .ORDINAL) (lib.table .ORDINAL)] :=
      .inr ⟨oo, so, _, o1, o2, o3, rfl⟩
    refine ⟨_, (hfile _).2 ⟨_, _, hc, ho, rfl⟩, fun m hm => ?_, fun t => ?_, fun t => by cases t; exacts [o4, c4]⟩
    · have : m = n := by simpa [preamble] using hm
      subst this
      obtain ⟨k, -, ⟨-, h1, h2⟩ | ⟨-, -, h2⟩⟩ := hn <;> omega
    have hpre : ∀ t, tablesNamed (tableOf t) (preamble n) = [] := fun _ => rfl
    rw [tablesNamed_append, tablesNamed_append, hpre, List.nil_append]
    cases t with
    | CARDINAL => rw [(typeItems_named ho).1 .CARDINAL (by decide), List.append_nil, ((typeItems_named hc).2 _).2 ⟨_, _, c1, c2, c3⟩]
    | ORDINAL => rw [(typeItems_named hc).1 .ORDINAL (by decide), List.nil_append, ((typeItems_named ho).2 _).2 ⟨_, _, o1, o2, o3⟩]

/-- C93: the library compiles with a generated and formatted file exactly if the input files had both types, no key is an identifier without
language, and no rule but OTHER has an empty condition or list or a remainder by zero that gets into the code. -/
theorem C93_compiles (texts : List Str) (rs : List Generate.Resource) (hr : List.Forall₂ ResourceText texts rs) (out : Str)
    (h : generateText LangId.parse texts = some out) (text : Str) (hf : Formatted out text) :
    build text ≠ none ↔ ∀ t, ∃ obj, rs.filterMap (dataOf t) = [obj] ∧ TypeCompiles obj := by
  constructor
  · intro hb t
    obtain ⟨lib, hb⟩ := Option.ne_none_iff_exists'.1 hb
    obtain ⟨obj, streams, h1, h2, h3, h4⟩ := (build_generated hr h hf lib).1 hb t
    exact ⟨obj, h1, (type_compiles h2).1.1 ⟨_, h3, h4⟩⟩
  · intro hc
    have htype : ∀ t, ∃ obj streams table, rs.filterMap (dataOf t) = [obj] ∧ genTypeRs LangId.parse obj = some streams ∧
        readTable streams = some table ∧ ∀ e ∈ table, accepted e.2 = true := by
      intro t
      obtain ⟨obj, h1, h2⟩ := hc t
      have hs : genTypeRs LangId.parse obj ≠ none := by
        obtain ⟨-, -, -, -, -, hacc⟩ := (C47_succeeds_iff LangId.parse rs).1 ⟨out, generated_rs hr h⟩
        have hm : obj ∈ rs.filterMap (dataOf t) := by rw [h1]; simp
        obtain ⟨r, hr1, hr2⟩ := List.mem_filterMap.1 hm
        rw [typeAccepted_iff]
        cases t
        · exact hacc r hr1 obj (.inr hr2)
        · exact hacc r hr1 obj (.inl hr2)
      obtain ⟨streams, hs⟩ := Option.ne_none_iff_exists'.1 hs
      obtain ⟨table, g1, g2⟩ := (type_compiles hs).1.2 h2
      exact ⟨obj, streams, table, h1, hs, g1, g2⟩
    obtain ⟨oc, sc, tc, c⟩ := htype .CARDINAL
    obtain ⟨oo, so, ot, o⟩ := htype .ORDINAL
    rw [(build_generated hr h hf ⟨tc, ot⟩).2 fun t => by cases t; exacts [⟨oo, so, o⟩, ⟨oc, sc, c⟩]]
    simp

/-- C93: the locales of the library are those of the keys but `root`, without their variants. -/
theorem C93_locales (texts : List Str) (rs : List Generate.Resource) (hr : List.Forall₂ ResourceText texts rs) (out : Str)
    (h : generateText LangId.parse texts = some out) (text : Str) (hf : Formatted out text) (lib : Library) (hb : build text = some lib) (t : PluralRuleType) (obj : TypeObj)
    (ho : rs.filterMap (dataOf t) = [obj]) (id : LangId) :
    id ∈ lib.getLocales t ↔ ∃ key rules id', LastOf obj key rules ∧ key ≠ c!"root" ∧ LangId.parse key = some id' ∧
      id = { id' with variants := none } := by
  obtain ⟨obj', streams, h1, h2, h3, -⟩ := (build_generated hr h hf lib).1 hb t
  rw [ho] at h1; cases h1
  exact ((type_compiles h2).2 _ h3).2.1 id

/-- C93: whatever binary search std has, `create` of the library does not panic; it fails exactly if no key has this identifier, and
else the function is that of such a key.  The function never panics, and gives the category that the rules say, if they are of the
kinds that the generator gets right (C39). -/
theorem C93_create (texts : List Str) (rs : List Generate.Resource) (hr : List.Forall₂ ResourceText texts rs) (out : Str)
    (h : generateText LangId.parse texts = some out) (text : Str) (hf : Formatted out text) (lib : Library) (hb : build text = some lib) (t : PluralRuleType) (obj : TypeObj)
    (ho : rs.filterMap (dataOf t) = [obj]) (search : List (LangId × Closure) → LangId → Except Nat Nat) (hs : Searches search)
    (id : LangId) :
    match lib.create search id t with
    | some (.ok pr) => pr.locale = id ∧ (∀ po, pr.function.call po ≠ none) ∧
        ∃ key rules id', LastOf obj key rules ∧ key ≠ c!"root" ∧ LangId.parse key = some id' ∧ id = { id' with variants := none } ∧
          (Supported RightForAll rules → ∀ po d, OperandsOf po d → Fits d → ∀ c, pr.function.call po = some c ↔ FirstCategory rules d c) ∧
          (Supported RightForIntegers rules → ∀ po d, OperandsOf po d → Fits d → d.f = 0 →
            ∀ c, pr.function.call po = some c ↔ FirstCategory rules d c)
    | some (.error e) => e = c!"unknown locale" ∧ ∀ key rules id', LastOf obj key rules → key ≠ c!"root" → LangId.parse key = some id' →
        id ≠ { id' with variants := none }
    | none => False := by
  obtain ⟨obj', streams, h1, h2, h3, h4⟩ := (build_generated hr h hf lib).1 hb t
  rw [ho] at h1; cases h1
  obtain ⟨hsorted, hids, hent⟩ := (type_compiles h2).2 _ h3
  have hsearch := hs (lib.table t) id hsorted
  unfold Library.create
  cases hc : search (lib.table t) id with
  | ok i =>
    rw [hc] at hsearch
    obtain ⟨f, hf⟩ := hsearch
    simp only [hf]
    have hm := List.mem_of_getElem? hf
    obtain ⟨key, rules, id', set, k1, k2, k3, k4, k5, k6⟩ := hent _ hm
    refine ⟨trivial, (locale_compiles rules set k5).2 f k6 (h4 _ hm), key, rules, id', k1, k2, k3, k4, fun hsup => ?_, fun hsup => ?_⟩
    · obtain ⟨set', f', g1, g2, g3⟩ := locale_function rightFor_all rules hsup
      rw [k5] at g1; cases g1
      rw [k6] at g2; cases g2
      exact fun po d ho hd => g3 po d ⟨ho, hd⟩
    · obtain ⟨set', f', g1, g2, g3⟩ := locale_function rightFor_integers rules hsup
      rw [k5] at g1; cases g1
      rw [k6] at g2; cases g2
      exact fun po d ho hd hi => g3 po d ⟨ho, hd, hi⟩
  | error i =>
    rw [hc] at hsearch
    obtain ⟨-, e1, e2⟩ := hsearch
    refine ⟨rfl, fun key rules id' k1 k2 k3 k4 => ?_⟩
    have hm := (hids id).2 ⟨key, rules, id', k1, k2, k3, k4⟩
    obtain ⟨e, he, hk⟩ := List.mem_map.1 hm
    rw [← List.take_append_drop i (lib.table t), List.mem_append] at he
    rcases he with he | he
    · have := e1 _ he; rw [hk, LangId.cmp_lawful.refl] at this; cases this
    · have := e2 _ he; rw [hk, LangId.cmp_lawful.refl] at this; cases this

/-- C93: an identifier with variants is never found. -/
theorem C93_variants (texts : List Str) (rs : List Generate.Resource) (hr : List.Forall₂ ResourceText texts rs) (out : Str)
    (h : generateText LangId.parse texts = some out) (text : Str) (hf : Formatted out text) (lib : Library) (hb : build text = some lib) (t : PluralRuleType)
    (search : List (LangId × Closure) → LangId → Except Nat Nat) (hs : Searches search) (id : LangId) (hv : id.variants ≠ none) :
    lib.create search id t = some (.error c!"unknown locale") := by
  obtain ⟨obj, ho, -⟩ := (C93_compiles texts rs hr out h text hf).1 (by rw [hb]; simp) t
  have := C93_create texts rs hr out h text hf lib hb t obj ho search hs id
  generalize lib.create search id t = r at this
  match r, this with
  | some (.ok pr), this =>
    obtain ⟨-, -, _, _, _, -, -, -, h, -⟩ := this
    rw [h] at hv; exact absurd rfl hv
  | some (.error e), this => rw [this.1]

theorem rules_joined : torn false RulesText.rules = false := by decide +kernel

/-- C93: with the shipped file this is the library of C01–C92. -/
theorem C93_shipped : ∃ lib, build RulesText.rules = some lib ∧ (∀ t, lib.table t = table t) ∧
    (∀ search id t, lib.create search id t = createWith search id t) ∧ ∀ t, lib.getLocales t = getLocales t := by
  have ha : (RulesTable.cardinal ++ RulesTable.ordinal).all (fun e => accepted e.2) = true := by decide +kernel
  have ht : ∀ t, (Library.mk RulesTable.cardinal RulesTable.ordinal).table t = table t := fun t => by cases t <;> rfl
  have hb : build RulesText.rules = (readFile (lex RulesText.rules)).bind compile := by unfold build; rw [rules_joined]; rfl
  refine ⟨⟨RulesTable.cardinal, RulesTable.ordinal⟩, hb.trans ((build_items _ _).2 ⟨_, C61_rules_file, ?_, ?_, ?_⟩), ht, fun search id t => ?_, fun t => ?_⟩
  · intro n hn
    have : n = RulesTable.cldrVersion := by simpa [shippedItems] using hn
    rw [this]; decide
  · intro t
    cases t <;> rfl
  · intro t e he
    rw [List.all_eq_true] at ha
    exact ha e (List.mem_append.2 (by cases t; exacts [.inr he, .inl he]))
  · unfold Library.create createWith
    rw [ht]
    rfl
  · unfold Library.getLocales getLocales
    rw [ht]

/-! ## From the input files to the category -/

open Main Utf8 PluralOperands

theorem plain_operandsOf (sign : Str) (hs : sign = [] ∨ sign = ['-']) (ip fp : List (Fin 10)) (hi : ip ≠ [])
    (h1 : allDigits (decOf ip fp) < 2 ^ 53) : ∃ po, tryFromStr (sign ++ plainText ip fp) = .ok po ∧ OperandsOf po (decOf ip fp) := by
  have hi64 : digitsNum ip ≤ allDigits (decOf ip fp) := by
    simp only [allDigits, decOf, Dec.i]
    exact le_trans (Nat.le_mul_of_pos_right _ (by positivity)) (Nat.le_add_right ..)
  have hf64 : digitsNum fp ≤ allDigits (decOf ip fp) := Nat.le_add_left ..
  by_cases he : fp = []
  · subst he
    exact ⟨_, by rw [plainText, if_pos rfl]; exact C12_integer sign hs ip hi (by omega), C08_operands _⟩
  · obtain ⟨po, h3, h4, -⟩ := C11_decimal sign hs ip fp hi he (by omega) (by omega)
    exact ⟨po, by rw [plainText, if_neg he]; exact h3, h4⟩

theorem inputs_texts {files : Files} {ps : List Str} {texts : List Str} {rs : List Generate.Resource}
    (h : List.Forall₂ (fun p s => files p = some (encode s)) ps texts)
    (hr : List.Forall₂ (fun p r => ∃ s, files p = some (encode s) ∧ ResourceText s r) ps rs) : List.Forall₂ ResourceText texts rs := by
  induction h generalizing rs with
  | nil => cases hr; exact .nil
  | cons hp _ ih =>
    cases hr with
    | cons hq hr =>
      obtain ⟨s, hs, hrs⟩ := hq
      rw [hp] at hs
      have := congrArg Utf8.decode (Option.some.inj hs)
      rw [Lemmas.decode_encode, Lemmas.decode_encode] at this
      cases this
      exact .cons hrs (ih hr)

/-- C93: the program run on CLDR files, the library compiled with the file that it leaves (rustfmt keeping what it says and joining its
numbers), `create` for the identifier of a key, and `select` of a plain decimal text: the category is the one that the rules of this
key in the input say. -/
theorem C93_program (sys : System) (args : Args) (files files' : Files) (hu : args.ugly = false)
    (hrun : run sys args files = (.ok, files')) (rs : List Generate.Resource)
    (hr : List.Forall₂ (fun p r => ∃ s, files p = some (encode s) ∧ ResourceText s r) args.inputs rs)
    (hfmt : ∀ fmt, sys.rustfmt = some fmt → ∀ fs texts out, generateText LangId.parse texts = some out → fs args.output = some (encode out) →
      ∃ text, fmt args.output fs args.output = some (encode text) ∧ Formatted out text) :
    ∃ text, files' args.output = some (encode text) ∧ ∀ lib, build text = some lib → ∀ t obj, rs.filterMap (dataOf t) = [obj] →
      ∀ key rules id, LastOf obj key rules → key ≠ c!"root" → LangId.parse key = some id → id.variants = none →
      (∀ key' rules' id', LastOf obj key' rules' → key' ≠ c!"root" → LangId.parse key' = some id' →
        id = { id' with variants := none } → key' = key) → Supported RightForAll rules →
      ∀ search, Searches search → ∃ pr, lib.create search id t = some (.ok pr) ∧
        ∀ sign, (sign = [] ∨ sign = ['-']) → ∀ ip fp, ip ≠ [] → allDigits (decOf ip fp) < 2 ^ 53 → fp.length ≤ 300 →
          ∃ c, select pr (tryFromStr (sign ++ plainText ip fp)) = some (.ok c) ∧ FirstCategory rules (decOf ip fp) c := by
  obtain ⟨texts, out, fmt, h1, h2, h3, rfl⟩ := C63_formatted sys args files files' hu hrun
  obtain ⟨text, h3, hf⟩ := hfmt fmt h3 (fun p => if p = args.output then some (encode out) else files p) texts out h2 (by simp)
  have hrt := inputs_texts h1 hr
  refine ⟨text, h3, fun lib hb t obj ho key rules id hk hroot hid hv huniq hsup search hsearch => ?_⟩
  have hc := C93_create texts rs hrt out h2 text hf lib hb t obj ho search hsearch id
  have hw : id = { id with variants := none } := by cases id; simp only at hv; rw [hv]
  generalize lib.create search id t = r at hc
  match r, hc with
  | some (.error e), hc => exact absurd hw (hc.2 key rules id hk hroot hid)
  | some (.ok pr), hc =>
    obtain ⟨-, htot, key', rules', id', k1, k2, k3, k4, k5, -⟩ := hc
    have := huniq key' rules' id' k1 k2 k3 k4
    subst this
    have : rules' = rules := lastOf_unique k1 hk
    subst this
    refine ⟨pr, rfl, fun sign hs ip fp hi hd hl => ?_⟩
    obtain ⟨po, hp, hpo⟩ := plain_operandsOf sign hs ip fp hi hd
    have h5 := k5 hsup po _ hpo (.inl ⟨hd, hl⟩)
    obtain ⟨c, hc⟩ : ∃ c, pr.function.call po = some c := by
      cases h : pr.function.call po with
      | some c => exact ⟨c, rfl⟩
      | none => exact absurd h (htot po)
    exact ⟨c, by rw [hp]; simp only [select, hc], (h5 c).1 hc⟩

/-! ## Examples -/

/-- An input file with this type and these entries. -/
def libraryFile (type entries : Str) : Str :=
  c!"{\"supplemental\":{\"version\":{\"_number\":\"\",\"_unicodeVersion\":\"\",\"_cldrVersion\":\"37\"},\"plurals-type-" ++ type ++ c!"\":{" ++
    entries ++ c!"}}}"

/-- The library built with the file generated from these entries. -/
def libraryOf (cardinal ordinal : Str) : Option Library :=
  (generateText LangId.parse [libraryFile c!"cardinal" cardinal, libraryFile c!"ordinal" ordinal]).bind build

/-- All the hypotheses of C93 together. -/
example : ∃ texts rs out text lib obj pr, List.Forall₂ ResourceText texts rs ∧ generateText LangId.parse texts = some out ∧ Formatted out text ∧
    build text = some lib ∧ rs.filterMap (dataOf .CARDINAL) = [obj] ∧ Searches (binarySearchByKey (α := Closure)) ∧
    lib.create binarySearchByKey ⟨some c!"en", none, none, none⟩ .CARDINAL = some (.ok pr) := by
  have h : ((generateText LangId.parse [libraryFile c!"cardinal" c!"\"en\":{\"pluralRule-count-one\":\"i = 1 and v = 0\"}", libraryFile c!"ordinal" []]).any
      fun out => (readFile (lex out)).isSome && !torn false out &&
        ((build out).bind fun lib => lib.create binarySearchByKey ⟨some c!"en", none, none, none⟩ .CARDINAL).any fun r => r.isOk) = true := by
    decide +kernel
  obtain ⟨out, h1, h2⟩ := (Option.any_eq_true _ _).1 h
  simp only [Bool.and_eq_true, Bool.not_eq_true', Option.any_eq_true] at h2
  obtain ⟨⟨h2, h3⟩, r, h4, h5⟩ := h2
  obtain ⟨items, h2⟩ := Option.isSome_iff_exists.1 h2
  obtain ⟨lib, hb, h6⟩ := Option.bind_eq_some_iff.1 h4
  obtain ⟨rs, h7, -⟩ := (C57_generate _ _ _).1 h1
  have h8 : ∀ t, ∃ obj, rs.filterMap (dataOf t) = [obj] ∧ TypeCompiles obj :=
    (C93_compiles _ rs h7 out h1 out ⟨.inr ⟨items, items, h2, h2, .refl _⟩, h3⟩).1 (by rw [hb]; simp)
  obtain ⟨obj, h8, -⟩ := h8 .CARDINAL
  cases r with
  | error e => cases h5
  | ok pr => exact ⟨_, rs, out, out, lib, obj, pr, h7, h1, ⟨.inr ⟨items, items, h2, h2, .refl _⟩, h3⟩, hb, h8, C92_std.1, h6⟩

/-- Two locales with rules, the second with a variant that is lost; `root` is left out. -/
example : (libraryOf c!"\"en\":{\"pluralRule-count-one\":\"i = 1 and v = 0\"},\"root\":{},\"de-1996\":{}" c!"\"en\":{\"pluralRule-count-two\":\"n % 10 = 2\"}").map
    (fun lib => (lib.getLocales .CARDINAL, lib.getLocales .ORDINAL)) = some ([c!"de", c!"en"].filterMap LangId.parse, [c!"en"].filterMap LangId.parse) := by
  decide +kernel
example : ((libraryOf c!"\"en\":{\"pluralRule-count-one\":\"i = 1 and v = 0\"},\"root\":{},\"de-1996\":{}" c!"\"en\":{\"pluralRule-count-two\":\"n % 10 = 2\"}").bind
    fun lib => (LangId.parse c!"en").bind fun id => (lib.create binarySearchByKey id .ORDINAL).bind fun r => r.toOption.bind fun pr =>
      (select pr (tryFromStr c!"12")).bind fun c => c.toOption) = some .TWO := by
  decide +kernel
/-- A file of one type only is generated, but lib.rs does not compile with it. -/
example : (generateText LangId.parse [libraryFile c!"cardinal" c!"\"en\":{}"]).map build = some none := by decide +kernel
/-- Neither with a key that is an identifier without language, with a remainder by zero, or with a rule without condition. -/
example : (∀ entries ∈ [c!"\"und\":{}", c!"\"und-US\":{}", c!"\"en\":{\"pluralRule-count-one\":\"i % 0 = 1\"}", c!"\"en\":{\"pluralRule-count-one\":\"\"}"],
    (generateText LangId.parse [libraryFile c!"cardinal" entries, libraryFile c!"ordinal" []]).isSome ∧ libraryOf entries [] = none) ∧
    libraryOf [] [] = some ⟨[], []⟩ ∧ libraryOf c!"\"en\":{\"pluralRule-count-one\":\"n % 0 = 1..2\"}" [] ≠ none := by
  decide +kernel

end Verif.Props
