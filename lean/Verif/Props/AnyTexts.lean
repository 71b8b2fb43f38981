import Verif.Props.AnyRules
import Verif.Props.Rounded
import Verif.Props.Layout

/-!
# C113: what a library computes for all texts with a point

C94 is for numbers that `f64` tells apart from all integers.  Here only the integers count that the rules compare `n` with.
-/

namespace Verif.Props
open Verif Api Rust Uts35 Spec Verif.Parser Verif.Grammar Generate GenPr GenRs RulesRead FileRead Gen Maps Lib Sem Eval ResourceSpec Resource

attribute [local irreducible] Flt.ofRat Flt.roundMag Flt.ofDec

/-- The code of the relation compares `n` with the integer, as a float. -/
def ComparedWith (r : Relation) (k : Nat) : Prop :=
  r.expression.operand = .N ∧ r.expression.modulus = none ∧
    match r.operator with
    | .Within | .NotWithin => ∃ lo hi, .range lo hi ∈ r.rangeList ∧ (k = lo ∨ k = hi)
    | _ => .value k ∈ r.rangeList

/-- The number is not read as an integer that the rules compare `n` with, unless it is that integer. -/
def ClearOf (rules : RuleObj) (d : Dec) : Prop := ∀ name c condition, TestedRule rules name c condition → ∀ a ∈ condition, ∀ r ∈ a,
  ∀ k, ComparedWith r k → k < 2 ^ 52 ∧ (ReadAs k d.value → d.value = k)

/-! ## Comparisons -/

/-- `n` compares with the integers as with another float. -/
structure Agree (K : Nat → Prop) (x y : Flt) : Prop where
  notNan : x ≠ .nan ∧ y ≠ .nan
  eq : ∀ k, K k → Flt.eq x (Flt.ofNat b64 k) = Flt.eq y (Flt.ofNat b64 k)
  le : ∀ k, K k → Flt.le x (Flt.ofNat b64 k) = Flt.le y (Flt.ofNat b64 k)
  ge : ∀ k, K k → Flt.le (Flt.ofNat b64 k) x = Flt.le (Flt.ofNat b64 k) y

theorem lt_not_le {x y : Flt} (hx : x ≠ .nan) (hy : y ≠ .nan) : Flt.lt x y = !Flt.le y x := by
  cases x <;> cases y <;> first | rfl | exact absurd rfl hx | exact absurd rfl hy

/-- What a finite float says of an integer, from its magnitude. -/
theorem fin_compare (m k : Nat) (hk : k < 2 ^ 53) (y : ℚ) (h1 : m < k * 2 ^ 1074 ↔ y < k) (h2 : m = k * 2 ^ 1074 ↔ y = k) :
    (Flt.eq (.fin false m) (Flt.ofNat b64 k) = true ↔ y = k) ∧ (Flt.le (.fin false m) (Flt.ofNat b64 k) = true ↔ y ≤ k) ∧
    (Flt.le (Flt.ofNat b64 k) (.fin false m) = true ↔ k ≤ y) := by
  rw [ofNat_exact k hk]
  generalize k * 2 ^ 1074 = q at *
  refine ⟨?_, ?_, ?_⟩
  · rw [flt_eq_false, h2]
  · rw [le_iff_lt_or_eq, ← h1, ← h2, ← le_iff_lt_or_eq]; simp [Flt.le, Flt.signed]
  · rw [← not_lt, ← h1, not_lt]; simp [Flt.le, Flt.signed]

theorem ideal_compare (d : Dec) (k : Nat) (hk : k < 2 ^ 53) :
    (Flt.eq (ideal d).n (Flt.ofNat b64 k) = true ↔ d.value = k) ∧ (Flt.le (ideal d).n (Flt.ofNat b64 k) = true ↔ d.value ≤ k) ∧
    (Flt.le (Flt.ofNat b64 k) (ideal d).n = true ↔ k ≤ d.value) := by
  obtain ⟨m, h1, h2⟩ := (ideal_represents d).n trivial
  rw [h1]
  have hp : (0 : ℚ) < 10 ^ d.v := by positivity
  refine fin_compare m k hk d.value ?_ ?_
  · rw [(h2 k hk).1, Dec.value_eq_sig, div_lt_iff₀ hp]
    exact_mod_cast Iff.rfl
  · rw [(h2 k hk).2, sig_eq_iff, d.value_eq_nat]

theorem n_compare (d : Dec) (n : Flt) (hn : Ieee b64 d.value n) (k : Nat) (hk : k < 2 ^ 52) (hr : ReadAs k d.value → d.value = k) :
    (Flt.eq n (Flt.ofNat b64 k) = true ↔ d.value = k) ∧ (Flt.le n (Flt.ofNat b64 k) = true ↔ d.value ≤ k) ∧
    (Flt.le (Flt.ofNat b64 k) n = true ↔ k ≤ d.value) := by
  have heq : Flt.eq n (Flt.ofNat b64 k) = true ↔ d.value = k := by
    rw [equal_readAs d n hn k hk]
    refine ⟨hr, fun he => ?_⟩
    rw [he, ← ieee_readAs k hk, ← ofNat_exact k (by omega)]
    exact ieee_ofNat k
  cases hn with
  | overflow h =>
    have hgt : (k : ℚ) < d.value := by
      have hkq : (k : ℚ) < 2 ^ 52 := by exact_mod_cast hk
      have hbig : (2 : ℚ) ^ 52 < 2 ^ b64.maxExp - 2 ^ b64.maxExp / 2 ^ (b64.prec + 1) := by
        rw [show b64.prec = 53 from rfl, show b64.maxExp = 1024 from rfl]
        have h1 : (2 : ℚ) ^ 62 ≤ 2 ^ 1024 := pow_le_pow_right₀ (by norm_num) (by norm_num)
        generalize (2 : ℚ) ^ 1024 = x at h1
        norm_num at h1 ⊢
        linarith
      linarith
    refine ⟨heq, iff_of_false ?_ (by linarith), iff_of_true ?_ hgt.le⟩
    · rw [ofNat_exact k (by omega)]; intro h; cases h
    · rw [ofNat_exact k (by omega)]; rfl
  | finite m h1 h2 h3 h4 =>
    refine fin_compare m k (by omega) d.value ?_ ?_
    · have hm := h3 (k * 2 ^ 1074) ⟨k, 1074, by rw [show b64.prec = 53 from rfl]; omega, rfl⟩
      have hdist : ∀ m, distance b64 m d.value = |(m : ℚ) / 2 ^ 1074 - d.value| := fun m => rfl
      rw [hdist, hdist] at hm
      rw [ofNat_exact k (by omega)] at heq
      rw [flt_eq_false] at heq
      clear hdist h1 h2 h3 h4
      generalize 1074 = s at *
      have hS : (0 : ℚ) < 2 ^ s := by positivity
      have hMS : ((k * 2 ^ s : Nat) : ℚ) / 2 ^ s = k := by push_cast; field_simp
      rw [hMS] at hm
      have hlt : m < k * 2 ^ s ↔ (m : ℚ) / 2 ^ s < k := by
        rw [div_lt_iff₀ hS]; exact_mod_cast Iff.rfl
      have heq' : (m : ℚ) / 2 ^ s = k ↔ d.value = k := by
        rw [← heq, div_eq_iff hS.ne']; exact_mod_cast Iff.rfl
      rw [hlt]
      generalize (m : ℚ) / 2 ^ s = x at *
      generalize d.value = y at *
      constructor
      · intro hx
        by_contra hc
        rw [not_lt] at hc
        rw [abs_of_neg (by linarith), abs_of_nonpos (by linarith)] at hm
        linarith
      · intro hy
        by_contra hc
        rw [not_lt] at hc
        have hne : x ≠ k := fun h => by linarith [heq'.1 h]
        have hgt : (k : ℚ) < x := lt_of_le_of_ne hc (Ne.symm hne)
        rw [abs_of_pos (by linarith), abs_of_pos (by linarith)] at hm
        linarith
    · rw [← heq, ofNat_exact k (by omega), flt_eq_false]

theorem agree_ideal (d : Dec) (n : Flt) (hn : Ieee b64 d.value n) (K : Nat → Prop)
    (hK : ∀ k, K k → k < 2 ^ 52 ∧ (ReadAs k d.value → d.value = k)) : Agree K n (ideal d).n := by
  have h := fun k hk => n_compare d n hn k (hK k hk).1 (hK k hk).2
  have h' := fun k (hk : K k) => ideal_compare d k (by have := (hK k hk).1; omega)
  refine ⟨⟨?_, ?_⟩, fun k hk => ?_, fun k hk => ?_, fun k hk => ?_⟩
  · cases hn <;> simp
  · simp [ideal]
  · rw [Bool.eq_iff_iff, (h k hk).1, (h' k hk).1]
  · rw [Bool.eq_iff_iff, (h k hk).2.1, (h' k hk).2.1]
  · rw [Bool.eq_iff_iff, (h k hk).2.2, (h' k hk).2.2]

/-! ## Expressions -/

/-- `n` is only compared, with these integers. -/
def testsN (K : Nat → Prop) : RExpr → Prop
  | .int _ | .flt _ => True
  | .field x => x ≠ .N
  | .cmp _ (.field .N) (.flt k) => K k
  | .cmp _ (.flt k) (.field .N) => K k
  | .rem a b | .cmp _ a b | .and a b | .or a b => testsN K a ∧ testsN K b
  | .not a | .contains _ _ a => testsN K a

/-- The same operands except `n`. -/
structure AgreeOps (K : Nat → Prop) (po po' : PluralOperands) : Prop where
  i : po.i = po'.i
  v : po.v = po'.v
  w : po.w = po'.w
  f : po.f = po'.f
  t : po.t = po'.t
  n : Agree K po.n po'.n

theorem ofNat_not_nan (k : Nat) : Flt.ofNat b64 k ≠ .nan := by
  unfold Flt.ofNat
  with_unfolding_all unfold Flt.ofRat
  dsimp only
  split <;> simp

theorem cmp_agree {K : Nat → Prop} {x y : Flt} (h : Agree K x y) (k : Nat) (hk : K k) (op : CmpOp) :
    cmpFlt op x (Flt.ofNat b64 k) = cmpFlt op y (Flt.ofNat b64 k) ∧ cmpFlt op (Flt.ofNat b64 k) x = cmpFlt op (Flt.ofNat b64 k) y := by
  have hc : ∀ a b : Flt, Flt.eq a b = Flt.eq b a := by
    intro a b
    cases a <;> cases b <;> simp only [Flt.eq]
    · rw [Bool.beq_comm]
    · rw [Bool.eq_iff_iff]
      simp only [Bool.and_eq_true, beq_iff_eq, Bool.or_eq_true]
      constructor <;> (rintro ⟨rfl, h⟩; exact ⟨rfl, h.imp Eq.symm id⟩)
  have hn := ofNat_not_nan k
  cases op <;> simp only [cmpFlt, hc (Flt.ofNat b64 k), h.eq k hk, h.le k hk, h.ge k hk, lt_not_le hn h.notNan.1, lt_not_le hn h.notNan.2,
    lt_not_le h.notNan.1 hn, lt_not_le h.notNan.2 hn, and_self]

theorem eval_agree {K : Nat → Prop} {po po' : PluralOperands} (h : AgreeOps K po po') (e : RExpr) (he : testsN K e) :
    e.eval po = e.eval po' := by
  induction e using testsN.induct with
  | case1 | case2 => rfl
  | case3 x =>
    simp only [testsN] at he
    cases x <;> simp_all [RExpr.eval, readField, h.i, h.v, h.w, h.f, h.t]
  | case4 op k =>
    simp only [testsN] at he
    simp only [RExpr.eval, readField, (cmp_agree h.n k he op).1]
  | case5 op k =>
    simp only [testsN] at he
    simp only [RExpr.eval, readField, (cmp_agree h.n k he op).2]
  | _ => simp_all [testsN, RExpr.eval]

/-! ## The code of conditions -/

theorem testsN_foldl {K : Nat → Prop} (op : RExpr → RExpr → RExpr) (hop : ∀ a b, testsN K a → testsN K b → testsN K (op a b)) (l : List RExpr)
    (a : RExpr) (ha : testsN K a) (hl : ∀ x ∈ l, testsN K x) : testsN K (l.foldl op a) := by
  induction l generalizing a with
  | nil => exact ha
  | cons b l ih => exact ih _ (hop _ _ ha (hl b (by simp))) fun x hx => hl x (by simp [hx])

theorem testsN_allOf {K : Nat → Prop} (l : List RExpr) (hl : ∀ x ∈ l, testsN K x) (e : RExpr) (h : Intended.allOf l = some e) : testsN K e := by
  cases l with
  | nil => cases h
  | cons a l =>
    cases h
    exact testsN_foldl _ (fun a b h1 h2 => by simp only [testsN]; exact ⟨h1, h2⟩) l a (hl a (by simp)) fun x hx => hl x (by simp [hx])

theorem testsN_anyOf {K : Nat → Prop} (l : List RExpr) (hl : ∀ x ∈ l, testsN K x) (e : RExpr) (h : Intended.anyOf l = some e) : testsN K e := by
  cases l with
  | nil => cases h
  | cons a l =>
    cases h
    exact testsN_foldl _ (fun a b h1 h2 => by simp only [testsN]; exact ⟨h1, h2⟩) l a (hl a (by simp)) fun x hx => hl x (by simp [hx])

theorem testsN_within {K : Nat → Prop} (x : Expression) (op : CmpOp) (l : List RangeListItem)
    (h : x.operand = .N → x.modulus = none → ∀ lo hi, .range lo hi ∈ l → K lo ∧ K hi) : ∀ e ∈ Intended.withinTests x op l, testsN K e := by
  induction l with
  | nil => simp [Intended.withinTests]
  | cons y l ih =>
    cases y with
    | value k =>
      simp only [Intended.withinTests]
      exact ih fun h1 h2 lo hi hm => h h1 h2 lo hi (by simp [hm])
    | range lo hi =>
      obtain ⟨o, m⟩ := x
      cases m with
      | some m =>
        intro e he
        cases o <;> simp [Intended.withinTests] at he <;> rcases he with rfl | rfl <;> simp [testsN]
      | none =>
        intro e he
        cases o with
        | N =>
          have := h rfl rfl lo hi (by simp)
          simp [Intended.withinTests] at he
          rcases he with rfl | rfl <;> simp [testsN, this]
        | _ => simp [Intended.withinTests] at he; rcases he with rfl | rfl <;> simp [testsN]

theorem testsN_item {K : Nat → Prop} (x : Expression) (positive : Bool) (y : RangeListItem)
    (h : x.operand = .N → x.modulus = none → ∀ k, y = .value k → K k) : ∀ e ∈ Intended.itemTests x positive y, testsN K e := by
  obtain ⟨o, m⟩ := x
  intro e he
  cases y with
  | value k =>
    simp only [Intended.itemTests, List.mem_singleton] at he
    subst he
    cases o with
    | N =>
      cases m with
      | none => simpa [Intended.valueTest, testsN] using h rfl rfl k rfl
      | some m => simp [Intended.valueTest, testsN]
    | _ => cases m <;> simp [Intended.valueTest, Intended.leftSide, testsN]
  | range lo hi =>
    cases o <;> cases m <;> cases positive <;> simp [Intended.itemTests, Intended.rangeTests, Intended.leftSide] at he <;>
      rcases he with rfl | rfl <;> simp [testsN]

theorem mem_ordered {l : List RangeListItem} {y : RangeListItem} (h : y ∈ Intended.ordered l) : y ∈ l := by
  simp only [Intended.ordered, List.mem_append, List.mem_filter] at h
  rcases h with h | h <;> exact h.1

theorem testsN_relation {K : Nat → Prop} (r : Relation) (h : ∀ k, ComparedWith r k → K k) : ∀ e ∈ Intended.relationTests r, testsN K e := by
  obtain ⟨x, op, l⟩ := r
  have hitem : ¬ IsWithin op → ∀ p, ∀ tests ∈ (Intended.ordered l).map (Intended.itemTests x p), ∀ e ∈ tests, testsN K e := by
    intro hw p tests ht
    obtain ⟨y, hy, rfl⟩ := List.mem_map.1 ht
    refine testsN_item x p y fun h1 h2 k hk => h k ⟨h1, h2, ?_⟩
    subst hk
    cases op <;> first | exact mem_ordered hy | exact absurd (by simp [IsWithin]) hw
  have hw : IsWithin op → ∀ c, ∀ e ∈ Intended.withinTests x c l, testsN K e := fun hw c =>
    testsN_within x c l fun h1 h2 lo hi hm => by
      constructor <;> refine h _ ⟨h1, h2, ?_⟩ <;> cases op <;> simp [IsWithin] at hw <;> exact ⟨lo, hi, hm, by simp⟩
  have hpos : ¬ IsWithin op → ∀ e ∈ (match (Intended.ordered l).map (Intended.itemTests x true) with
      | [] => []
      | [tests] => tests
      | several => (Intended.anyOf (several.filterMap Intended.allOf)).toList), testsN K e := by
    intro hn
    have := hitem hn true
    generalize (Intended.ordered l).map (Intended.itemTests x true) = s at this
    split
    · simp
    · exact this _ (by simp)
    · intro e he
      rw [Option.mem_toList] at he
      refine testsN_anyOf _ (fun a ha => ?_) e he
      obtain ⟨tests, h1, h2⟩ := List.mem_filterMap.1 ha
      exact testsN_allOf tests (this _ h1) a h2
  have hneg : ¬ IsWithin op → ∀ e ∈ ((Intended.ordered l).map (Intended.itemTests x false)).flatten, testsN K e := by
    intro hn e he
    obtain ⟨tests, h1, h2⟩ := List.mem_flatten.1 he
    exact hitem hn false tests h1 e h2
  cases op
  all_goals first
    | exact hw (by simp [IsWithin]) _
    | exact hpos (by simp [IsWithin])
    | exact hneg (by simp [IsWithin])

theorem testsN_condition {K : Nat → Prop} (c : Condition) (h : ∀ a ∈ c, ∀ r ∈ a, ∀ k, ComparedWith r k → K k) (e : RExpr)
    (he : Intended.condition c = some e) : testsN K e := by
  refine testsN_anyOf _ (fun x hx => ?_) e he
  obtain ⟨a, h1, h2⟩ := List.mem_filterMap.1 hx
  refine testsN_allOf _ (fun y hy => ?_) x h2
  obtain ⟨tests, h3, h4⟩ := List.mem_flatten.1 hy
  obtain ⟨r, h5, rfl⟩ := List.mem_map.1 h3
  exact testsN_relation r (h a h1 r h5) y h4

theorem code_clear (c : Condition) (hc : AllRelations (fun r => Listed r ∧ ¬ DividesByZero r) c) (d : Dec)
    (hx : ∀ a ∈ c, ∀ r ∈ a, ∀ k, ComparedWith r k → k < 2 ^ 52 ∧ (ReadAs k d.value → d.value = k)) (po : PluralOperands) (ho : OperandsOf po d) :
    ∃ e b, Code c e ∧ e.eval po = some (.bool b) ∧ (b = true ↔ Actual.Holds d c) := by
  have hexact : ∀ a ∈ c, ∀ r ∈ a, Actual.Exact r := by
    intro a ha r hr h1 h2
    have hk := fun k h => (hx a ha r hr k ⟨h1, h2, h⟩).1
    obtain ⟨x, op, l⟩ := r
    cases op <;> simp only at hk ⊢
    all_goals first
      | exact fun k h => lt_trans (hk k h) (by norm_num)
      | exact fun lo hi h => ⟨lt_trans (hk lo ⟨lo, hi, h, .inl rfl⟩) (by norm_num), lt_trans (hk hi ⟨lo, hi, h, .inr rfl⟩) (by norm_num)⟩
  obtain ⟨e, b, h1, h2, h3⟩ := code_represents c hc hexact (ideal d) d (ideal_represents d)
  have hl : AllRelations Listed c := ⟨hc.1, fun a ha => ⟨(hc.2 a ha).1, fun r hr => ((hc.2 a ha).2 r hr).1⟩⟩
  obtain ⟨e', g1, g2⟩ := code_of_condition c hl
  have he : e' = e := by
    obtain ⟨ts, k1, k1'⟩ := g1
    obtain ⟨ts', h5, h5'⟩ := h1
    rw [k1] at h5; cases h5
    rw [k1'] at h5'; exact Option.some.inj h5'
  subst he
  refine ⟨e', b, h1, ?_, h3⟩
  rw [← h2]
  exact eval_agree ⟨ho.i, ho.v, ho.w, ho.f, ho.t, agree_ideal d po.n ho.n _ fun k hk => hk⟩ e' (testsN_condition c hx e' g2)

/-! ## C113 -/

/-- C113: in a library compiled with a generated and formatted file, whatever the rules, a function gives on the operands of a number the category of
the first rule that is true as the code reads it, if the number is not read as an integer that the rules compare `n` with. -/
theorem C113_library (texts : List Str) (rs : List Generate.Resource) (hr : List.Forall₂ ResourceText texts rs) (out : Str)
    (h : generateText LangId.parse texts = some out) (text : Str) (hf : Formatted out text) (lib : Library) (hb : build text = some lib) (t : PluralRuleType) (obj : TypeObj)
    (ho : rs.filterMap (dataOf t) = [obj]) (search : List (LangId × Closure) → LangId → Except Nat Nat) (hs : Searches search)
    (id : LangId) (pr : PluralRules) (hc : lib.create search id t = some (.ok pr)) :
    ∃ key rules id', LastOf obj key rules ∧ key ≠ c!"root" ∧ LangId.parse key = some id' ∧ id = { id' with variants := none } ∧
      ∀ po d, OperandsOf po d → ClearOf rules d → ∀ c, pr.function.call po = some c ↔ FirstTrue rules d c := by
  obtain ⟨obj', streams, h1, h2, h3, h4⟩ := (build_generated hr h hf lib).1 hb t
  rw [ho] at h1; cases h1
  obtain ⟨hsorted, -, hent⟩ := (type_compiles h2).2 _ h3
  have hsearch := hs (lib.table t) id hsorted
  unfold Library.create at hc
  cases hi : search (lib.table t) id with
  | error i => simp [hi] at hc
  | ok i =>
    rw [hi] at hsearch
    obtain ⟨f, hf⟩ := hsearch
    simp only [hi, hf, Option.some.injEq, Except.ok.injEq] at hc
    subst hc
    have hm := List.mem_of_getElem? hf
    obtain ⟨key, rules, id', set, k1, k2, k3, k4, k5, k6⟩ := hent _ hm
    refine ⟨key, rules, id', k1, k2, k3, k4, fun po d hpo hd c => ?_⟩
    obtain ⟨c', g1, g2⟩ := any_function rules set k5 f k6 (h4 _ hm) po (Actual.Holds d)
      fun name c cond ht hr => code_clear cond hr d (hd _ _ _ ht) po hpo
    simp only
    rw [g1]
    constructor
    · intro h; cases h; exact g2
    · intro h; rw [firstWith_unique _ rules c c' h g2]

/-- C113: the same from files to categories of decimal texts of any length, for the program. -/
theorem C113_program (sys : Main.System) (args : Main.Args) (files files' : Main.Files) (hu : args.ugly = false)
    (hrun : Main.run sys args files = (.ok, files')) (rs : List Generate.Resource)
    (hr : List.Forall₂ (fun p r => ∃ s, files p = some (Utf8.encode s) ∧ ResourceText s r) args.inputs rs)
    (hfmt : ∀ fmt, sys.rustfmt = some fmt → ∀ fs texts out, generateText LangId.parse texts = some out → fs args.output = some (Utf8.encode out) →
      ∃ text, fmt args.output fs args.output = some (Utf8.encode text) ∧ Formatted out text) :
    ∃ text, files' args.output = some (Utf8.encode text) ∧ ∀ lib, build text = some lib → ∀ t obj, rs.filterMap (dataOf t) = [obj] →
      ∀ search, Searches search → ∀ id pr, lib.create search id t = some (.ok pr) →
      ∃ key rules id', LastOf obj key rules ∧ key ≠ c!"root" ∧ LangId.parse key = some id' ∧ id = { id' with variants := none } ∧
        ∀ sign, (sign = [] ∨ sign = ['-']) → ∀ ip fp, ip ≠ [] → fp ≠ [] → digitsNum ip < 2 ^ 64 → digitsNum fp < 2 ^ 64 → ClearOf rules (decOf ip fp) →
          ∃ c, select pr (PluralOperands.tryFromStr (sign ++ decText ip fp)) = some (.ok c) ∧ FirstTrue rules (decOf ip fp) c := by
  obtain ⟨texts, out, fmt, h1, h2, h3, rfl⟩ := C63_formatted sys args files files' hu hrun
  obtain ⟨text, h3, hf⟩ := hfmt fmt h3 (fun p => if p = args.output then some (Utf8.encode out) else files p) texts out h2 (by simp)
  refine ⟨text, h3, fun lib hb t obj ho search hs id pr hc => ?_⟩
  obtain ⟨key, rules, id', k1, k2, k3, k4, k5⟩ :=
    C113_library texts rs (inputs_texts h1 hr) out h2 text hf lib hb t obj ho search hs id pr hc
  have htot : ∀ po, pr.function.call po ≠ none := by
    have := C93_create texts rs (inputs_texts h1 hr) out h2 text hf lib hb t obj ho search hs id
    rw [hc] at this
    exact this.2.1
  refine ⟨key, rules, id', k1, k2, k3, k4, fun sign hsg ip fp hi hf h64 h64' hclear => ?_⟩
  obtain ⟨po, hp, hpo, -⟩ := C11_decimal sign hsg ip fp hi hf h64 h64'
  obtain ⟨c, hcall⟩ := Option.ne_none_iff_exists'.1 (htot po)
  exact ⟨c, by rw [hp]; simp only [select, hcall], (k5 po _ hpo hclear c).1 hcall⟩

/-! ## Examples -/

/-- What the library built with these cardinal rules for English answers to the text, the numbers of the file joined. -/
def joinedAnswer (rules number : Str) : Option PluralCategory :=
  (generateText LangId.parse [libraryFile c!"cardinal" (c!"\"en\":{" ++ rules ++ c!"}"), libraryFile c!"ordinal" []]).bind fun out =>
    (build (Layout.layOut (match lex out with | [] => [] | t :: r => ([], t) :: Lemmas.joinSpace t r) ++ c!"\n")).bind fun lib =>
      (LangId.parse c!"en").bind fun id => (lib.create binarySearchByKey id .CARDINAL).bind fun r => r.toOption.bind fun pr =>
        (select pr (PluralOperands.tryFromStr number)).bind fun c => c.toOption

/-- Two numbers with twenty digits.  With a rule that compares `n` with 5, 6.0000000000000000001 is read as another number than 5, and a rule
with `t` sees all its digits; 5.0000000000000000001 is read as 5. -/
example : joinedAnswer c!"\"a-b-one\":\"n = 5\",\"a-b-two\":\"t = 1\"" c!"6.0000000000000000001" = some .TWO ∧
    joinedAnswer c!"\"a-b-one\":\"n = 5\",\"a-b-two\":\"t = 1\"" c!"5.0000000000000000001" = some .ONE := by
  decide +kernel

/-- The first is clear of these rules and the second is not. -/
example : ClearOf [(c!"a-b-one", c!"n = 5"), (c!"a-b-two", c!"t = 1")] ⟨6, List.replicate 18 0 ++ [1]⟩ ∧
    ¬ ClearOf [(c!"a-b-one", c!"n = 5"), (c!"a-b-two", c!"t = 1")] ⟨5, List.replicate 18 0 ++ [1]⟩ := by
  have h1 : Verif.Grammar.ConditionOf 64 c!"n = 5" [[⟨⟨.N, none⟩, .EQ, [.value 5]⟩]] := parsePluralCondition_ok.1 (by with_unfolding_all rfl)
  have h2 : Verif.Grammar.ConditionOf 64 c!"t = 1" [[⟨⟨.T, none⟩, .EQ, [.value 1]⟩]] := parsePluralCondition_ok.1 (by with_unfolding_all rfl)
  have hlog : Nat.log2 5 = 2 := by decide +kernel
  constructor
  · rintro name c cond ⟨-, -, text, hl, hp⟩ a ha r hr k hk
    have hm := (lastOf_nodup (by decide) name text).1 hl
    simp only [List.mem_cons, Prod.mk.injEq, List.not_mem_nil, or_false] at hm
    rcases hm with ⟨-, rfl⟩ | ⟨-, rfl⟩
    · cases C89_one 64 _ _ _ hp h1
      simp only [List.mem_singleton] at ha
      subst ha
      simp only [List.mem_singleton] at hr
      subst hr
      simp only [ComparedWith, List.mem_singleton, RangeListItem.value.injEq, true_and] at hk
      subst hk
      refine ⟨by norm_num, fun h => absurd h ?_⟩
      rw [Dec.value_eq_sig, show Dec.sig ⟨6, List.replicate 18 0 ++ [1]⟩ = 60000000000000000001 by decide +kernel,
        show Dec.v ⟨6, List.replicate 18 0 ++ [1]⟩ = 19 by decide]
      norm_num [ReadAs, hlog]
    · cases C89_one 64 _ _ _ hp h2
      simp only [List.mem_singleton] at ha
      subst ha
      simp only [List.mem_singleton] at hr
      subst hr
      simp [ComparedWith] at hk
  · intro h
    obtain ⟨-, h3⟩ := h c!"a-b-one" .ONE _ ⟨by decide, ⟨c!"a", c!"b", [], by decide, by decide, by decide, rfl, .inl rfl⟩, _, ⟨[], [_], rfl, by decide⟩, h1⟩
      _ (List.mem_singleton.2 rfl) _ (List.mem_singleton.2 rfl) 5 ⟨rfl, rfl, by simp⟩
    rw [Dec.value_eq_sig, show Dec.sig ⟨5, List.replicate 18 0 ++ [1]⟩ = 50000000000000000001 by decide +kernel,
      show Dec.v ⟨5, List.replicate 18 0 ++ [1]⟩ = 19 by decide] at h3
    norm_num [ReadAs, hlog] at h3

end Verif.Props
