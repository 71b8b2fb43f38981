import Verif.Props.OnOperands
import Verif.Props.Shipped
import Verif.Props.AllNumbers
import Verif.Props.Layout

/-!
# C104: other data

What a library does for a locale depends on the rules of the locale alone, and of these only on the conditions.
-/

namespace Verif.Props
open Verif Api Rust Uts35 Spec Verif.Parser Verif.Grammar Generate GenPr GenRs RulesRead FileRead Gen Maps Lib Sem Eval ResourceSpec Resource
open PluralOperands

/-- The rules of an identifier in the input files: those of a key that is this identifier, but for variants. -/
def RulesOf (obj : TypeObj) (id : LangId) (rules : RuleObj) : Prop :=
  ∃ key id', LastOf obj key rules ∧ key ≠ c!"root" ∧ LangId.parse key = some id' ∧ id = { id' with variants := none }

/-- The same names of rules, but for those that are not tested, and the same conditions; the samples and the spacing may differ. -/
def SameTests (rules rules' : RuleObj) : Prop := ∀ name c cond, TestedRule rules name c cond ↔ TestedRule rules' name c cond

theorem firstWith_same {isTrue : Condition → Prop} {rules rules' : RuleObj} (h : SameTests rules rules') (c : PluralCategory) :
    FirstWith isTrue rules c ↔ FirstWith isTrue rules' c := by
  unfold SameTests at h
  simp only [FirstWith, h]

/-- C104: two libraries, compiled with files that were generated from any data, give the same answers for a locale if the data has the
same conditions for it. -/
theorem C104_local (texts : List Str) (rs : List Generate.Resource) (hr : List.Forall₂ ResourceText texts rs) (out : Str)
    (h : generateText LangId.parse texts = some out) (text : Str) (hf : Formatted out text) (lib : Library) (hb : build text = some lib)
    (texts' : List Str) (rs' : List Generate.Resource) (hr' : List.Forall₂ ResourceText texts' rs') (out' : Str)
    (h' : generateText LangId.parse texts' = some out') (text' : Str) (hf' : Formatted out' text') (lib' : Library)
    (hb' : build text' = some lib') (t : PluralRuleType) (obj obj' : TypeObj)
    (ho : rs.filterMap (dataOf t) = [obj]) (ho' : rs'.filterMap (dataOf t) = [obj'])
    (search search' : List (LangId × Closure) → LangId → Except Nat Nat) (hs : Searches search) (hs' : Searches search') (id : LangId)
    (hsame : ∀ rules rules', RulesOf obj id rules → RulesOf obj' id rules' → SameTests rules rules')
    (pr pr' : PluralRules) (hc : lib.create search id t = some (.ok pr)) (hc' : lib'.create search' id t = some (.ok pr')) :
    ∀ (ε : Type) (value : Except ε PluralOperands), select pr value = select pr' value := by
  obtain ⟨key, rules, id1, k1, k2, k3, k4, k5⟩ := C96_library texts rs hr out h text hf lib hb t obj ho search hs id pr hc
  obtain ⟨key', rules', id1', k1', k2', k3', k4', k5'⟩ := C96_library texts' rs' hr' out' h' text' hf' lib' hb' t obj' ho' search' hs' id pr' hc'
  have hst := hsame rules rules' ⟨key, id1, k1, k2, k3, k4⟩ ⟨key', id1', k1', k2', k3', k4'⟩
  have hcall : ∀ po, pr.function.call po = pr'.function.call po := by
    intro po
    apply Option.ext
    intro c
    rw [k5, k5', firstWith_same hst]
  intro ε value
  cases value with
  | error e => rfl
  | ok po => simp only [select, hcall]

/-- C104: a locale is found exactly if the data has rules for it, whatever other locales there are. -/
theorem C104_found (texts : List Str) (rs : List Generate.Resource) (hr : List.Forall₂ ResourceText texts rs) (out : Str)
    (h : generateText LangId.parse texts = some out) (text : Str) (hf : Formatted out text) (lib : Library) (hb : build text = some lib)
    (t : PluralRuleType) (obj : TypeObj) (ho : rs.filterMap (dataOf t) = [obj])
    (search : List (LangId × Closure) → LangId → Except Nat Nat) (hs : Searches search) (id : LangId) :
    (∃ pr, lib.create search id t = some (.ok pr)) ↔ ∃ rules, RulesOf obj id rules := by
  have := C93_create texts rs hr out h text hf lib hb t obj ho search hs id
  generalize lib.create search id t = r at this
  match r, this with
  | some (.ok pr), ⟨_, _, key, rules, id', h1, h2, h3, h4, _⟩ => exact ⟨fun _ => ⟨rules, key, id', h1, h2, h3, h4⟩, fun _ => ⟨pr, rfl⟩⟩
  | some (.error e), ⟨_, h2⟩ =>
    constructor
    · rintro ⟨_, h⟩; cases h
    · rintro ⟨rules, key, id', g1, g2, g3, g4⟩; exact absurd g4 (h2 key rules id' g1 g2 g3)

/-- Rules with other samples, another spacing and another rule for OTHER. -/
example : SameTests [(c!"pluralRule-count-one", c!"n = 1 @integer 1"), (c!"pluralRule-count-other", c!" @integer 2")]
    [(c!"pluralRule-count-one", c!"n  =  1 @decimal 1.0")] := by
  have key : ∀ text c, parsePluralCondition 64 text = .ok c → ∀ c', ConditionOf 64 text c' → c' = c :=
    fun text c h c' h' => C89_one 64 text c' c h' (parsePluralCondition_ok.1 h)
  have h1 : parsePluralCondition 64 c!"n = 1 @integer 1" = .ok [[⟨⟨.N, none⟩, .EQ, [.value 1]⟩]] := by with_unfolding_all rfl
  have h2 : parsePluralCondition 64 c!"n  =  1 @decimal 1.0" = .ok [[⟨⟨.N, none⟩, .EQ, [.value 1]⟩]] := by with_unfolding_all rfl
  have hn : ThirdPart c!"pluralRule-count-other" c!"other" := thirdPart_standard .OTHER
  have hmem : ∀ {m : List (Str × Str)} {k v}, LastOf m k v → (k, v) ∈ m := by rintro m k v ⟨a, b, rfl, -⟩; simp
  intro name c cond
  constructor
  · rintro ⟨hc, hp, text, hl, ht⟩
    rcases List.mem_cons.1 (hmem hl) with h | h
    · cases h
      exact ⟨hc, hp, _, ⟨[], [], rfl, by simp⟩, key _ _ h1 _ ht ▸ parsePluralCondition_ok.1 h2⟩
    · cases List.mem_singleton.1 h
      have := thirdPart_unique hp hn
      cases c <;> first | exact absurd rfl hc | exact absurd this (by decide)
  · rintro ⟨hc, hp, text, hl, ht⟩
    cases List.mem_singleton.1 (hmem hl)
    exact ⟨hc, hp, _, ⟨[], [_], rfl, by simp⟩, key _ _ h2 _ ht ▸ parsePluralCondition_ok.1 h1⟩

/-! ## The fixtures -/

/-- Cardinal rules that are not the same in CLDR 33 and CLDR 37, with a text. -/
def changed33 : List (Str × Str) := [(c!"kw", c!"3"), (c!"mo", c!"15e-1"), (c!"mr", c!"0"), (c!"ro", c!"15e-1")]

/-- Locales of the fixtures that are not shipped. -/
def gone33 : PluralRuleType → List Str
  | .CARDINAL => [c!"bh"]
  | .ORDINAL => []

/-- Shipped locales that the fixtures do not have. -/
def new33 : PluralRuleType → List Str
  | .CARDINAL => [c!"an", c!"bho", c!"ceb", c!"ia", c!"osa", c!"pcm", c!"sat", c!"sc", c!"su"]
  | .ORDINAL => [c!"an", c!"gd", c!"ia", c!"kw", c!"sc"]

def ids (l : List Str) : List LangId := l.filterMap LangId.parse

/-- Locales with other rules. -/
def changedIds (t : PluralRuleType) : List LangId := if t = .CARDINAL then ids (changed33.map (·.1)) else []

/-- The entries but those with an identifier of the list. -/
def without (l : List LangId) (tb : List (LangId × Closure)) : List (LangId × Closure) := tb.filter fun e => !l.contains e.1

def has (tb : List (LangId × Closure)) (id : LangId) : Bool := tb.any fun e => e.1 == id

/-- The functions of the two tables differ on the operands. -/
def differ (tb tb' : List (LangId × Closure)) (id : LangId) (po : PluralOperands) : Bool :=
  tb.all fun e => e.1 != id || tb'.all fun e' => e'.1 != id || e.2.call po != e'.2.call po

def roOne : RExpr × PluralCategory := (.and (.cmp .eq (.field .I) (.int 1)) (.cmp .eq (.field .V) (.int 0)), .ONE)

/-- The code for Romanian from CLDR 33: `v != 0 or n = 0 or n != 1 and n % 100 = 1..19`, where the code has lost the modulus. -/
def ro33 : Closure :=
  ⟨[(.or (.or (.cmp .ne (.field .V) (.int 0)) (.cmp .eq (.field .N) (.flt 0)))
      (.and (.cmp .ne (.field .N) (.flt 1)) (.contains 1 19 (.field .I))), .FEW), roOne], .OTHER⟩

/-- The code for Romanian that is shipped: `v != 0 or n = 0 or n % 100 = 2..19`. -/
def ro37 : Closure :=
  ⟨[(.or (.or (.cmp .ne (.field .V) (.int 0)) (.cmp .eq (.field .N) (.flt 0))) (.contains 2 19 (.field .I)), .FEW), roOne], .OTHER⟩

/-- Every entry with the identifier has this code. -/
def onlyCode (tb : List (LangId × Closure)) (id : LangId) (f : Closure) : Bool := tb.all fun e => e.1 != id || e.2 == f

/-- What is computed for the fixtures. -/
def check33 (t : PluralRuleType) (tb : List (LangId × Closure)) : Bool :=
  tb.all (fun e => accepted e.2) &&
  without (ids (gone33 t) ++ changedIds t) tb == without (ids (new33 t) ++ changedIds t) (table t) &&
  (ids (gone33 t)).all (fun id => has tb id && !has (table t) id) &&
  (ids (new33 t)).all (fun id => has (table t) id && !has tb id) &&
  (t != .CARDINAL || changed33.all fun p => match LangId.parse p.1, tryFromStr p.2 with
    | some id, .ok po => has tb id && has (table t) id && differ tb (table t) id po
    | _, _ => false) &&
  (t != .CARDINAL || (ids [c!"mo", c!"ro"]).all fun id => onlyCode tb id ro33 && onlyCode (table t) id ro37)

/-- The same from the text of a file with one type. -/
def file33 (t t' : PluralRuleType) (s : Str) : Bool :=
  match parseResource s with
  | none => false
  | some r =>
    (dataOf t' r).isNone &&
    match dataOf t r with
    | none => false
    | some obj =>
      match (genTypeRs LangId.parse obj).bind readTable with
      | none => false
      | some tb => check33 t tb

theorem cardinals33_checked : file33 .CARDINAL .ORDINAL Fixtures.cardinals33 = true := by decide +kernel

theorem ordinals33_checked : file33 .ORDINAL .CARDINAL Fixtures.ordinals33 = true := by decide +kernel

theorem has_iff {tb : List (LangId × Closure)} {id : LangId} : has tb id = true ↔ id ∈ tb.map (·.1) := by
  unfold has
  rw [List.any_eq_true, List.mem_map]
  exact ⟨fun ⟨e, h, h'⟩ => ⟨e, h, eq_of_beq h'⟩, fun ⟨e, h, h'⟩ => ⟨e, h, beq_iff_eq.2 h'⟩⟩

theorem mem_without {l : List LangId} {tb : List (LangId × Closure)} {e : LangId × Closure} : e ∈ without l tb ↔ e ∈ tb ∧ e.1 ∉ l := by
  unfold without
  rw [List.mem_filter, Bool.not_eq_true', ← Bool.not_eq_true, List.contains_iff_mem]

theorem file33_spec {t t' : PluralRuleType} {s : Str} (h : file33 t t' s = true) : ∃ r obj streams tb, parseResource s = some r ∧
    dataOf t' r = none ∧ dataOf t r = some obj ∧ genTypeRs LangId.parse obj = some streams ∧ readTable streams = some tb ∧
    check33 t tb = true := by
  unfold file33 at h
  cases hp : parseResource s with
  | none => rw [hp] at h; cases h
  | some r =>
    rw [hp] at h
    simp only [Bool.and_eq_true, Option.isNone_iff_eq_none] at h
    cases hd : dataOf t r with
    | none => rw [hd] at h; cases h.2
    | some obj =>
      simp only [hd] at h
      cases hs : genTypeRs LangId.parse obj with
      | none => simp [hs] at h
      | some streams =>
        cases ht : readTable streams with
        | none => simp [hs, ht] at h
        | some tb =>
          simp only [hs, Option.bind_some, ht] at h
          exact ⟨r, obj, streams, tb, rfl, h.1, hd, hs, ht, h.2⟩

/-- What the check says. -/
theorem check33_spec {t : PluralRuleType} {tb : List (LangId × Closure)} (h : check33 t tb = true) :
    (∀ e ∈ tb, accepted e.2 = true) ∧
    (∀ id, id ∈ tb.map (·.1) ↔ id ∈ ids (gone33 t) ∨ id ∈ (table t).map (·.1) ∧ id ∉ ids (new33 t)) ∧
    (∀ e ∈ tb, e.1 ∈ (table t).map (·.1) → e.1 ∉ changedIds t → e ∈ table t) ∧
    (∀ id ∈ changedIds t, ∃ s po, tryFromStr s = .ok po ∧ ∀ e ∈ tb, e.1 = id → ∀ e' ∈ table t, e'.1 = id → e.2.call po ≠ e'.2.call po) ∧
    (t = .CARDINAL → ∀ id ∈ ids [c!"mo", c!"ro"], ∀ f, ((id, f) ∈ tb → f = ro33) ∧ ((id, f) ∈ table t → f = ro37)) := by
  unfold check33 at h
  simp only [Bool.and_eq_true, List.all_eq_true, beq_iff_eq] at h
  obtain ⟨⟨⟨⟨⟨h1, h2⟩, h3⟩, h4⟩, h5⟩, h6⟩ := h
  have hch : ∀ id ∈ changedIds t, has tb id = true ∧ has (table t) id = true ∧
      ∃ s po, tryFromStr s = .ok po ∧ differ tb (table t) id po = true := by
    intro id hid
    unfold changedIds at hid
    split at hid
    · rename_i ht
      subst ht
      simp only [bne_self_eq_false, Bool.false_or, List.all_eq_true] at h5
      obtain ⟨k, hk, hp⟩ := List.mem_filterMap.1 hid
      obtain ⟨p, hp1, rfl⟩ := List.mem_map.1 hk
      have := h5 p hp1
      rw [hp] at this
      cases hs : tryFromStr p.2 with
      | error e => rw [hs] at this; cases this
      | ok po =>
        rw [hs] at this
        simp only [Bool.and_eq_true] at this
        exact ⟨this.1.1, this.1.2, p.2, po, hs, this.2⟩
    · cases hid
  have hmem : ∀ e, (e ∈ tb ∧ e.1 ∉ ids (gone33 t) ++ changedIds t) ↔ (e ∈ table t ∧ e.1 ∉ ids (new33 t) ++ changedIds t) := by
    intro e; rw [← mem_without, ← mem_without, h2]
  simp only [Bool.not_eq_true', ← Bool.not_eq_true, has_iff] at h3 h4 hch
  simp only [List.mem_append, not_or] at hmem
  refine ⟨h1, fun id => ?_, fun e he ht hc => ?_, fun id hid => ?_, fun ht id hid f => ?_⟩
  · constructor
    · intro hid
      by_cases hg : id ∈ ids (gone33 t)
      · exact .inl hg
      · have hn : id ∉ ids (new33 t) := fun hn => (h4 id hn).2 hid
        by_cases hc : id ∈ changedIds t
        · exact .inr ⟨(hch id hc).2.1, hn⟩
        · obtain ⟨e, he, rfl⟩ := List.mem_map.1 hid
          exact .inr ⟨List.mem_map_of_mem ((hmem e).1 ⟨he, hg, hc⟩).1, hn⟩
    · rintro (hg | ⟨ht, hn⟩)
      · exact (h3 id hg).1
      · by_cases hc : id ∈ changedIds t
        · exact (hch id hc).1
        · obtain ⟨e, he, rfl⟩ := List.mem_map.1 ht
          exact List.mem_map_of_mem ((hmem e).2 ⟨he, hn, hc⟩).1
  · exact ((hmem e).1 ⟨he, fun hg => (h3 _ hg).2 ht, hc⟩).1
  · obtain ⟨-, -, s, po, hs, hd⟩ := hch id hid
    refine ⟨s, po, hs, fun e he hi e' he' hi' => ?_⟩
    have := List.all_eq_true.1 hd e he
    simp only [hi, bne_self_eq_false, Bool.false_or] at this
    have := List.all_eq_true.1 this e' he'
    simpa [hi'] using this
  · subst ht
    simp only [bne_self_eq_false, Bool.false_or, List.all_eq_true, Bool.and_eq_true] at h6
    obtain ⟨g1, g2⟩ := h6 id hid
    refine ⟨fun hm => ?_, fun hm => ?_⟩
    · simpa using List.all_eq_true.1 g1 _ hm
    · simpa using List.all_eq_true.1 g2 _ hm

theorem ro_same {po : PluralOperands} (h : po.v = 0 → Flt.eq po.n (Flt.ofNat b64 1) = decide (po.i = 1)) : ro33.call po = ro37.call po := by
  simp only [ro33, ro37, roOne, Closure.call, evalArms, RExpr.eval, readField, cmpInt, cmpFlt]
  generalize Flt.eq po.n (Flt.ofNat b64 0) = z at *
  generalize Flt.eq po.n (Flt.ofNat b64 1) = o at *
  by_cases hv : po.v = 0
  · rw [h hv]
    cases z
    · by_cases hi : po.i = 1
      · simp [hv, hi]
      · have : (decide (1 ≤ po.i) && decide (po.i ≤ 19)) = (decide (2 ≤ po.i) && decide (po.i ≤ 19)) ∨ po.i = 0 := by
          by_cases h0 : po.i = 0
          · exact .inr h0
          · left; congr 1; rw [decide_eq_decide]; omega
        rcases this with h1 | h1
        · simp [hv, hi, h1]
        · simp [hv, h1]
    · simp [hv]
  · have : (po.v != 0) = true := by simpa using hv
    simp only [this]

/-- On the operands of decimals. -/
theorem ro_decimals {po : PluralOperands} {d : Dec} (h : OperandsOf po d) : ro33.call po = ro37.call po := by
  refine ro_same fun hv => ?_
  have hv' : d.v = 0 := h.v ▸ hv
  rw [h.n_eq, hv', h.i]
  have hd : allDigits d = d.i := by
    have hl : d.frac = [] := List.length_eq_zero_iff.1 hv'
    simp [allDigits, Dec.v, Dec.f, hl, digitsNum]
  rw [hd]
  exact eq_small d.i 1 (by decide)

theorem update33 {c o out : Str} (hc : file33 .CARDINAL .ORDINAL c = true) (ho : file33 .ORDINAL .CARDINAL o = true)
    (hg : generateText LangId.parse [c, o] = some out) (text : Str) (hf : Formatted out text) : ∃ lib, build text = some lib ∧
    ∀ t id search, Searches search →
      ((∃ pr, lib.create search id t = some (.ok pr)) ↔
        id ∈ ids (gone33 t) ∨ (∃ pr, create id t = .ok pr) ∧ id ∉ ids (new33 t)) ∧
      ∀ pr pr', lib.create search id t = some (.ok pr) → create id t = .ok pr' →
        (¬ (t = .CARDINAL ∧ id ∈ ids [c!"kw", c!"mo", c!"mr", c!"ro"]) →
          ∀ value : Except OpsErr PluralOperands, select pr value = select pr' value) ∧
        (t = .CARDINAL ∧ id ∈ ids [c!"kw", c!"mo", c!"mr", c!"ro"] → ∃ s, select pr (tryFromStr s) ≠ select pr' (tryFromStr s)) ∧
        (t = .CARDINAL ∧ id ∈ ids [c!"mo", c!"ro"] →
          ∀ po d, OperandsOf po d → select (ε := OpsErr) pr (.ok po) = select (ε := OpsErr) pr' (.ok po)) := by
  obtain ⟨a, oc, sc, tc, a1, a2, a3, a4, a5, a6⟩ := file33_spec hc
  obtain ⟨b, oo, so, ot, b1, b2, b3, b4, b5, b6⟩ := file33_spec ho
  have hr : List.Forall₂ ResourceText [c, o] [a, b] :=
    .cons ((C57_resource _ _).1 a1) (.cons ((C57_resource _ _).1 b1) .nil)
  have hdata : ∀ t, ∃ obj streams, [a, b].filterMap (dataOf t) = [obj] ∧ genTypeRs LangId.parse obj = some streams ∧
      readTable streams = some ((⟨tc, ot⟩ : Library).table t) ∧ check33 t ((⟨tc, ot⟩ : Library).table t) = true := by
    intro t
    cases t with
    | CARDINAL => exact ⟨oc, sc, by simp [a3, b2], a4, a5, a6⟩
    | ORDINAL => exact ⟨oo, so, by simp [a2, b3], b4, b5, b6⟩
  have hb : build text = some ⟨tc, ot⟩ := (build_generated hr hg hf _).2 fun t => by
    obtain ⟨obj, streams, h1, h2, h3, h4⟩ := hdata t
    exact ⟨obj, streams, h1, h2, h3, (check33_spec h4).1⟩
  generalize (⟨tc, ot⟩ : Library) = lib at hb hdata
  refine ⟨lib, hb, fun t id search hs => ?_⟩
  obtain ⟨obj, streams, h1, h2, h3, h4⟩ := hdata t
  obtain ⟨-, k1, k2, k3, k4⟩ := check33_spec h4
  refine ⟨?_, fun pr pr' hc hc' => ?_⟩
  · rw [C104_found _ _ hr out hg text hf lib hb t obj h1 search hs id]
    have hl := C93_locales _ _ hr out hg text hf lib hb t obj h1 id
    have : (∃ rules, RulesOf obj id rules) ↔ id ∈ lib.getLocales t := by
      rw [hl]
      exact ⟨fun ⟨rules, key, id', h⟩ => ⟨key, rules, id', h⟩, fun ⟨key, rules, id', h⟩ => ⟨rules, key, id', h⟩⟩
    rw [this, (C01_create_iff_listed id t).1]
    exact k1 id
  · have hm : (id, pr.function) ∈ lib.table t := by
      have hsearch := hs (lib.table t) id ((type_compiles h2).2 _ h3).1
      unfold Library.create at hc
      cases hi : search (lib.table t) id with
      | error i => simp [hi] at hc
      | ok i =>
        rw [hi] at hsearch
        obtain ⟨f, hf⟩ := hsearch
        simp only [hi, hf, Option.some.injEq, Except.ok.injEq] at hc
        subst hc
        exact List.mem_of_getElem? hf
    have hm' := ((C02_create_own_rule id t pr').1 hc').2
    have hch : (t = .CARDINAL ∧ id ∈ ids [c!"kw", c!"mo", c!"mr", c!"ro"]) ↔ id ∈ changedIds t := by
      unfold changedIds
      split
      · rename_i ht; simp only [ht, true_and]; rfl
      · rename_i ht; simp [ht]
    rw [hch]
    refine ⟨fun hid value => ?_, fun hid => ?_, fun ⟨ht, hid⟩ po d ho => ?_⟩
    · have h5 : (id, pr.function) ∈ table t := k2 _ hm (List.mem_map.2 ⟨_, hm', rfl⟩) hid
      have h6 : pr.function = pr'.function :=
        congrArg Prod.snd (List.inj_on_of_nodup_map (f := fun e : LangId × Closure => e.1) (l := table t) (C03_getLocales_nodup t) h5 hm' rfl)
      unfold select
      rw [h6]
    · obtain ⟨s, po, hs, hne⟩ := k3 id hid
      refine ⟨s, ?_⟩
      have h6 := hne _ hm rfl _ hm' rfl
      rw [hs]
      simp only [select]
      cases g1 : pr.function.call po <;> cases g2 : pr'.function.call po <;> simp_all
    · have h5 := (k4 ht id hid _).1 hm
      have h6 := (k4 ht id hid _).2 hm'
      simp only [select, h5, h6]
      rw [ro_decimals ho]

/-- C104: the library compiles with every formatted form of the output fixture (CLDR 33).  It has the shipped locales but the new ones, and
one more.  For a locale of both it gives the same answers for all values, but for four locales and cardinals, where there is a text with
another answer.  For two of these, Moldavian and Romanian, all operands of numbers have the same answers. -/
theorem C104_cldr33 (text : Str) (hf : Formatted Fixtures.out33 text) : ∃ lib, build text = some lib ∧
    ∀ t id search, Searches search →
      ((∃ pr, lib.create search id t = some (.ok pr)) ↔
        id ∈ ids (gone33 t) ∨ (∃ pr, create id t = .ok pr) ∧ id ∉ ids (new33 t)) ∧
      ∀ pr pr', lib.create search id t = some (.ok pr) → create id t = .ok pr' →
        (¬ (t = .CARDINAL ∧ id ∈ ids [c!"kw", c!"mo", c!"mr", c!"ro"]) →
          ∀ value : Except OpsErr PluralOperands, select pr value = select pr' value) ∧
        (t = .CARDINAL ∧ id ∈ ids [c!"kw", c!"mo", c!"mr", c!"ro"] → ∃ s, select pr (tryFromStr s) ≠ select pr' (tryFromStr s)) ∧
        (t = .CARDINAL ∧ id ∈ ids [c!"mo", c!"ro"] →
          ∀ po d, OperandsOf po d → select (ε := OpsErr) pr (.ok po) = select (ε := OpsErr) pr' (.ok po)) :=
  update33 cardinals33_checked ordinals33_checked C62_fixtures.1 text hf

/-- The two rules for few in Romanian differ at 101. -/
example : ∃ c c', parsePluralCondition 64 c!"v != 0 or n = 0 or n != 1 and n % 100 = 1..19 @integer 0, 2~16, 101" = .ok c ∧
    parsePluralCondition 64 c!"v != 0 or n = 0 or n % 100 = 2..19 @integer 0, 2~16, 102" = .ok c' ∧
    Uts35.Holds ⟨101, []⟩ c ∧ ¬ Uts35.Holds ⟨101, []⟩ c' := by
  have hn : (⟨101, []⟩ : Dec).operand .N = 101 := by simp [Dec.operand, Dec.n, Dec.value, digitsNum]
  have hm : qmod 101 100 = 1 := by
    have : ⌊(101 : ℚ) / (100 : ℕ)⌋ = 1 := by rw [Int.floor_eq_iff]; norm_num
    rw [qmod, this]; norm_num
  refine ⟨[[⟨⟨.V, none⟩, .NotEQ, [.value 0]⟩], [⟨⟨.N, none⟩, .EQ, [.value 0]⟩],
      [⟨⟨.N, none⟩, .NotEQ, [.value 1]⟩, ⟨⟨.N, some 100⟩, .EQ, [.range 1 19]⟩]],
    [[⟨⟨.V, none⟩, .NotEQ, [.value 0]⟩], [⟨⟨.N, none⟩, .EQ, [.value 0]⟩], [⟨⟨.N, some 100⟩, .EQ, [.range 2 19]⟩]],
    by with_unfolding_all rfl, by with_unfolding_all rfl, ?_, ?_⟩
  · refine ⟨[⟨⟨.N, none⟩, .NotEQ, [.value 1]⟩, ⟨⟨.N, some 100⟩, .EQ, [.range 1 19]⟩], by simp, fun r hr => ?_⟩
    simp only [List.mem_cons, List.not_mem_nil, or_false] at hr
    rcases hr with rfl | rfl
    · simp [RelationHolds, ItemIn, exprValue, hn]
    · exact ⟨_, List.mem_singleton.2 rfl, 1, by decide, by decide, by simp only [exprValue, hn, hm]; norm_num⟩
  · rintro ⟨a, ha, h⟩
    simp only [List.mem_cons, List.not_mem_nil, or_false] at ha
    rcases ha with rfl | rfl | rfl
    · simp [RelationHolds, ItemIn, exprValue, Dec.operand, Dec.v] at h
    · simp [RelationHolds, ItemIn, exprValue, hn] at h
    · obtain ⟨i, hi, h⟩ := h _ (List.mem_singleton.2 rfl)
      rw [List.mem_singleton.1 hi] at h
      obtain ⟨k, h1, -, h2⟩ := h
      simp only [exprValue, hn, hm] at h2
      have : k = 1 := by exact_mod_cast h2.symm
      omega

/-- There is such a form. -/
example : ∃ text, Formatted Fixtures.out33 text := by
  obtain ⟨text, l, -, h⟩ := C95_exists _ _ C62_fixtures.1
  exact ⟨text, h⟩

end Verif.Props
