import Verif.Intended
import Verif.Operands
import Verif.Lemmas.Float
import Verif.Lemmas.Uts35

/-! Helper lemmas: the value of the intended expressions on the operands of a number. -/

namespace Verif.Sem
open Verif Rust Uts35 Intended

/-! ## Operands that stand for a number -/

/-- `po` are the operands of `d`, and, if `N`, the float `n` is on the right side of every integer below 2^53. -/
structure Represents (N : Prop) (po : PluralOperands) (d : Dec) : Prop where
  i : po.i = d.i
  v : po.v = d.v
  w : po.w = d.w
  f : po.f = d.f
  t : po.t = d.t
  n : N → ∃ m, po.n = .fin false m ∧ ∀ k, k < 2 ^ 53 →
    (m < k * 2 ^ 1074 ↔ d.sig < k * 10 ^ d.v) ∧ (m = k * 2 ^ 1074 ↔ d.sig = k * 10 ^ d.v)

theorem ofNat_exact (k : Nat) (hk : k < 2 ^ 53) : Flt.ofNat b64 k = .fin false (k * 2 ^ 1074) := by
  have h : Flt.roundMag b64 k 1 = k * 2 ^ 1074 := by
    have := Flt.roundMag_int b64 (by decide) k 1 hk (by decide)
    rwa [Nat.mul_one] at this
  unfold Flt.ofNat Flt.ofRat
  simp only [h]
  rw [if_neg]
  rw [not_le]
  calc k * 2 ^ 1074 < 2 ^ 53 * 2 ^ 1074 := Nat.mul_lt_mul_of_pos_right hk (Nat.two_pow_pos _)
    _ = 2 ^ (53 + 1074) := (Nat.pow_add ..).symm
    _ ≤ 2 ^ (b64.maxExp + b64.scale) := Nat.pow_le_pow_right (by omega) (by decide)

theorem sig_eq_iff (d : Dec) (k : Nat) : d.sig = k * 10 ^ d.v ↔ d.f = 0 ∧ d.i = k := by
  rw [← d.value_eq_nat, d.value_eq_sig, div_eq_iff (by positivity)]
  exact_mod_cast Iff.rfl

theorem flt_eq_iff {N : Prop} {po : PluralOperands} {d : Dec} (h : Represents N po d) (hN : N) (k : Nat) (hk : k < 2 ^ 53) :
    Flt.eq po.n (Flt.ofNat b64 k) = true ↔ d.f = 0 ∧ d.i = k := by
  obtain ⟨m, hm, hc⟩ := h.n hN
  rw [hm, ofNat_exact k hk, ← sig_eq_iff, ← (hc k hk).2]
  simp [Flt.eq]

theorem flt_le_iff {N : Prop} {po : PluralOperands} {d : Dec} (h : Represents N po d) (hN : N) (k : Nat) (hk : k < 2 ^ 53) :
    Flt.le po.n (Flt.ofNat b64 k) = true ↔ d.value ≤ k := by
  obtain ⟨m, hm, hc⟩ := h.n hN
  rw [hm, ofNat_exact k hk, d.value_le]
  have := hc k hk
  simp only [Flt.le, Flt.signed, Bool.false_eq_true, if_false, Int.ofNat_le, decide_eq_true_eq]
  omega

theorem flt_ge_iff {N : Prop} {po : PluralOperands} {d : Dec} (h : Represents N po d) (hN : N) (k : Nat) (hk : k < 2 ^ 53) :
    Flt.le (Flt.ofNat b64 k) po.n = true ↔ (k : ℚ) ≤ d.value := by
  obtain ⟨m, hm, hc⟩ := h.n hN
  rw [hm, ofNat_exact k hk, d.le_value]
  have := hc k hk
  simp only [Flt.le, Flt.signed, Bool.false_eq_true, if_false, Int.ofNat_le, decide_eq_true_eq]
  omega

/-! ## Values of chains -/

/-- An expression evaluates to a boolean. -/
def Ev (po : PluralOperands) (e : RExpr) (b : Bool) : Prop := e.eval po = some (.bool b)

/-- All expressions evaluate to booleans, and their conjunction is `b`. -/
inductive EvAll (po : PluralOperands) : List RExpr → Bool → Prop
  | nil : EvAll po [] true
  | cons {e a l b} : Ev po e a → EvAll po l b → EvAll po (e :: l) (a && b)

/-- All expressions evaluate to booleans, and their disjunction is `b`. -/
inductive EvAny (po : PluralOperands) : List RExpr → Bool → Prop
  | nil : EvAny po [] false
  | cons {e a l b} : Ev po e a → EvAny po l b → EvAny po (e :: l) (a || b)

theorem Ev.and {po e f a b} (h1 : Ev po e a) (h2 : Ev po f b) : Ev po (.and e f) (a && b) := by
  unfold Ev at *
  cases a <;> simp [RExpr.eval, h1, h2]

theorem Ev.or {po e f a b} (h1 : Ev po e a) (h2 : Ev po f b) : Ev po (.or e f) (a || b) := by
  unfold Ev at *
  cases a <;> simp [RExpr.eval, h1, h2]

theorem Ev.not {po e a} (h1 : Ev po e a) : Ev po (.not e) (!a) := by
  unfold Ev at *
  simp [RExpr.eval, h1]

theorem EvAll.append {po l b l' b'} (h1 : EvAll po l b) (h2 : EvAll po l' b') : EvAll po (l ++ l') (b && b') := by
  induction h1 with
  | nil => simpa using h2
  | cons h _ ih => rw [Bool.and_assoc]; exact .cons h ih

theorem EvAll.single {po e b} (h : Ev po e b) : EvAll po [e] b := by
  have := EvAll.cons h EvAll.nil; simpa using this

theorem EvAll.foldl {po l b} (h : EvAll po l b) {e a} (he : Ev po e a) : Ev po (l.foldl .and e) (a && b) := by
  induction h generalizing e a with
  | nil => simpa using he
  | cons h _ ih => rw [← Bool.and_assoc]; exact ih (he.and h)

theorem EvAny.foldl {po l b} (h : EvAny po l b) {e a} (he : Ev po e a) : Ev po (l.foldl .or e) (a || b) := by
  induction h generalizing e a with
  | nil => simpa using he
  | cons h _ ih => rw [← Bool.or_assoc]; exact ih (he.or h)

theorem EvAll.allOf {po l b} (h : EvAll po l b) (hne : l ≠ []) : ∃ e, allOf l = some e ∧ Ev po e b := by
  cases h with
  | nil => contradiction
  | cons h1 h2 => exact ⟨_, rfl, h2.foldl h1⟩

theorem EvAny.anyOf {po l b} (h : EvAny po l b) (hne : l ≠ []) : ∃ e, anyOf l = some e ∧ Ev po e b := by
  cases h with
  | nil => contradiction
  | cons h1 h2 => exact ⟨_, rfl, h2.foldl h1⟩

/-- Several groups of tests, one of which must hold. -/
theorem evAny_groups {po : PluralOperands} (gs : List α) (T : α → List RExpr) (B : α → Bool)
    (h : ∀ g ∈ gs, T g ≠ [] ∧ EvAll po (T g) (B g)) : EvAny po ((gs.map T).filterMap allOf) (gs.any B) ∧
      ((gs.map T).filterMap allOf).length = gs.length := by
  induction gs with
  | nil => exact ⟨.nil, rfl⟩
  | cons g gs ih =>
    obtain ⟨h1, h2⟩ := h g (by simp)
    obtain ⟨e, he, hev⟩ := h2.allOf h1
    obtain ⟨ih1, ih2⟩ := ih fun g hg => h g (by simp [hg])
    simp only [List.map_cons, List.filterMap_cons, he, List.any_cons, List.length_cons, ih2]
    exact ⟨.cons hev ih1, trivial⟩

theorem evAll_groups {po : PluralOperands} (gs : List α) (T : α → List RExpr) (B : α → Bool)
    (h : ∀ g ∈ gs, EvAll po (T g) (B g)) : EvAll po (gs.map T).flatten (gs.all B) := by
  induction gs with
  | nil => exact .nil
  | cons g gs ih => exact (h g (by simp)).append (ih fun g hg => h g (by simp [hg]))

/-! ## Single tests -/

theorem ev_cmp_int {po : PluralOperands} {a b : RExpr} {x y : Nat} (op : CmpOp) (ha : a.eval po = some (.int x))
    (hb : b.eval po = some (.int y)) : Ev po (.cmp op a b) (cmpInt op x y) := by
  simp [Ev, RExpr.eval, ha, hb]

theorem ev_contains {po : PluralOperands} {a : RExpr} {x lo hi : Nat} (ha : a.eval po = some (.int x)) :
    Ev po (.contains lo hi a) (itemNat x (.range lo hi)) := by
  simp [Ev, RExpr.eval, ha, itemNat]

theorem eval_leftSide {N : Prop} {po : PluralOperands} {d : Dec} (h : Represents N po d) (o : Operand) (ho : o ≠ .N) (m : Option Nat)
    (hm : m ≠ some 0) : (leftSide o m).eval po = some (.int (intExpr d ⟨o, m⟩)) := by
  have hf : (RExpr.field o).eval po = some (.int (intOperand d o)) := by
    cases o <;> first | contradiction | simp [RExpr.eval, readField, intOperand, h.i, h.v, h.w, h.f, h.t]
  cases m with
  | none => exact hf
  | some m =>
    have : m ≠ 0 := by rintro rfl; exact hm rfl
    simp only [leftSide, RExpr.eval] at hf ⊢
    simp only [hf, if_neg this, intExpr]

/-! ## What the numbers may be for a relation to be right -/

/-- Which numbers a relation is asked about: all, integers, or integers below 10. -/
inductive Level where
  | frac | int | small
  deriving DecidableEq, Repr

/-- The numbers of a level. -/
def Level.ok : Level → Dec → Prop
  | .frac, _ => True
  | .int, d => d.f = 0
  | .small, d => d.f = 0 ∧ d.i < 10

/-- Items a test on `n` can be right for. -/
def itemOk (lvl : Level) (positive : Bool) (modulus : Option Nat) : RangeListItem → Bool
  | .value k => match modulus with
    | none => k < 2 ^ 53
    | some _ => lvl != .frac
  | .range _ _ => match modulus with
    | none => positive || lvl != .frac
    | some m => lvl == .small && 10 ≤ m

/-- The static conditions on a relation under which its code is right on the numbers of the level. -/
def relSafe (lvl : Level) (r : Relation) : Bool :=
  r.expression.modulus != some 0 &&
  match r.operator with
  | .In | .Is | .EQ => !r.rangeList.isEmpty &&
      (r.expression.operand != .N || r.rangeList.all (itemOk lvl true r.expression.modulus))
  | .NotIn | .IsNot | .NotEQ => !r.rangeList.isEmpty &&
      (r.expression.operand != .N || r.rangeList.all (itemOk lvl false r.expression.modulus))
  | .Within =>
    match r.rangeList with
    | [.range lo hi] =>
      match r.expression.operand, r.expression.modulus with
      | .N, none => lo < 2 ^ 53 && hi < 2 ^ 53
      | .N, some _ => lvl != .frac
      | .I, _ => true
      | _, none => true
      | _, some _ => false
    | _ => false
  | .NotWithin => false

/-- The tests of one item say what the item says. -/
theorem itemTests_sem {N : Prop} {po : PluralOperands} {d : Dec} (h : Represents N po d) (lvl : Level) (hl : lvl.ok d)
    (e : Expression) (hm : e.modulus ≠ some 0) (positive : Bool) (item : RangeListItem)
    (hN : e.operand = .N → N) (hs : e.operand ≠ .N ∨ itemOk lvl positive e.modulus item = true) :
    itemTests e positive item ≠ [] ∧ ∃ b, EvAll po (itemTests e positive item) b ∧
      (b = true ↔ (ItemIn (exprValue d e) item ↔ positive = true)) := by
  rw [itemIn_iff]
  obtain ⟨o, m⟩ := e
  by_cases ho : o = .N
  · subst ho
    have hs : itemOk lvl positive m item = true := by
      rcases hs with hs | hs
      · exact absurd rfl hs
      · exact hs
    have hi : (RExpr.field .I).eval po = some (.int d.i) := by simp [RExpr.eval, readField, h.i]
    have hf : Ev po (.cmp .eq (.field .F) (.int 0)) (d.f == 0) := by
      have := @ev_cmp_int po (.field .F) (.int 0) d.f 0 .eq (by simp [RExpr.eval, readField, h.f]) rfl
      exact this
    cases item with
    | value k =>
      cases m with
      | none =>
        have hk : k < 2 ^ 53 := by simpa [itemOk] using hs
        have hv := flt_eq_iff h (hN rfl) k hk
        refine ⟨by simp [itemTests], _, EvAll.single
          (b := if positive then Flt.eq po.n (Flt.ofNat b64 k) else !Flt.eq po.n (Flt.ofNat b64 k)) ?_, ?_⟩
        · cases positive <;> simp [valueTest, Ev, RExpr.eval, readField, cmpFlt]
        · simp only [itemNat, intExpr, intOperand, beq_iff_eq, forall_const]
          rw [← hv]
          cases positive <;> simp
      | some m =>
        have hm0 : m ≠ 0 := by rintro rfl; exact hm rfl
        have hl' : d.f = 0 := by
          cases lvl with
          | frac => simp [itemOk] at hs
          | int => exact hl
          | small => exact hl.1
        refine ⟨by simp [itemTests], _, EvAll.single (b := cmpInt (if positive then .eq else .ne) (d.i % m) k) ?_, ?_⟩
        · have := @ev_cmp_int po (.rem (.field .I) (.int m)) (.int k) (d.i % m) k (if positive then .eq else .ne)
            (by simp only [RExpr.eval] at hi ⊢; simp only [hi, if_neg hm0]) rfl
          simpa [valueTest] using this
        · cases positive <;> simp [itemNat, intExpr, intOperand, cmpInt, hl']
    | range lo hi' =>
      cases m with
      | none =>
        cases positive with
        | true =>
          refine ⟨by simp [itemTests, rangeTests], _, EvAll.cons (ev_contains hi) (EvAll.single hf), ?_⟩
          simp [intExpr, intOperand, and_comm]
        | false =>
          have hl' : d.f = 0 := by
            cases lvl with
            | frac => simp [itemOk] at hs
            | int => exact hl
            | small => exact hl.1
          refine ⟨by simp [itemTests, rangeTests], _, EvAll.cons (ev_contains hi).not (EvAll.single hf), ?_⟩
          simp [intExpr, intOperand, hl']
      | some m =>
        simp only [itemOk, Bool.and_eq_true, beq_iff_eq, decide_eq_true_eq] at hs
        obtain ⟨rfl, hm10⟩ := hs
        obtain ⟨hf0, hi10⟩ := hl
        have hmod : d.i % m = d.i := Nat.mod_eq_of_lt (by omega)
        cases positive with
        | true =>
          refine ⟨by simp [itemTests, rangeTests], _, EvAll.single (ev_contains hi), ?_⟩
          simp [intExpr, intOperand, hf0, hmod]
        | false =>
          refine ⟨by simp [itemTests, rangeTests], _, EvAll.single (ev_contains hi).not, ?_⟩
          simp [intExpr, intOperand, hf0, hmod]
  · have hev := eval_leftSide h o ho m hm
    cases item with
    | value k =>
      refine ⟨by simp [itemTests], _, EvAll.single
        (b := cmpInt (if positive then .eq else .ne) (intExpr d ⟨o, m⟩) k) ?_, ?_⟩
      · simp only [valueTest, ho, if_false]
        exact ev_cmp_int _ hev rfl
      · cases positive <;> simp [itemNat, cmpInt, ho]
    | range lo hi =>
      cases positive with
      | true =>
        refine ⟨by simp [itemTests, rangeTests, ho], itemNat (intExpr d ⟨o, m⟩) (.range lo hi), ?_, ?_⟩
        · simp only [itemTests, rangeTests, ho, if_false, if_true]
          exact EvAll.single (ev_contains hev)
        · simp [ho]
      | false =>
        refine ⟨by simp [itemTests, rangeTests, ho], !itemNat (intExpr d ⟨o, m⟩) (.range lo hi), ?_, ?_⟩
        · simp only [itemTests, rangeTests, ho, if_false]
          exact EvAll.single (ev_contains hev).not
        · simp [ho]

theorem mem_ordered (l : List RangeListItem) (x : RangeListItem) : x ∈ ordered l ↔ x ∈ l := by
  simp only [ordered, List.mem_append, List.mem_filter]
  cases isValue x <;> simp

theorem length_ordered (l : List RangeListItem) : (ordered l).length = l.length := by
  unfold ordered
  induction l with
  | nil => rfl
  | cons x l ih =>
    simp only [List.filter_cons]
    cases isValue x <;> simp at * <;> omega

/-- The positive relations on a list of items. -/
theorem positive_sem {po : PluralOperands} (items : List RangeListItem) (T : RangeListItem → List RExpr)
    (Q : RangeListItem → Prop) (hne : items ≠ [])
    (h : ∀ x ∈ items, T x ≠ [] ∧ ∃ b, EvAll po (T x) b ∧ (b = true ↔ Q x)) :
    let tests := match items.map T with
      | [] => []
      | [tests] => tests
      | several => (anyOf (several.filterMap allOf)).toList
    tests ≠ [] ∧ ∃ b, EvAll po tests b ∧ (b = true ↔ ∃ x ∈ items, Q x) := by
  classical
  have h' : ∀ x ∈ items, T x ≠ [] ∧ EvAll po (T x) (decide (Q x)) := by
    intro x hx
    obtain ⟨h1, b, h2, h3⟩ := h x hx
    refine ⟨h1, ?_⟩
    have : b = decide (Q x) := by
      cases b
      · have : ¬ Q x := fun hq => by simpa using h3.2 hq
        simp [this]
      · simp [h3.1 rfl]
    rwa [← this]
  match items, hne with
  | [x], _ =>
    obtain ⟨h1, h2⟩ := h' x (by simp)
    exact ⟨h1, _, h2, by simp⟩
  | x :: y :: l, _ =>
    obtain ⟨h1, h2⟩ := evAny_groups (x :: y :: l) T (fun x => decide (Q x)) h'
    obtain ⟨e, he, hev⟩ := h1.anyOf (by intro h0; rw [h0] at h2; simp at h2)
    simp only [List.map_cons] at he ⊢
    rw [he]
    refine ⟨by simp, _, EvAll.single hev, ?_⟩
    simp only [List.any_eq_true, decide_eq_true_eq]

/-- The negative relations on a list of items. -/
theorem negative_sem {po : PluralOperands} (items : List RangeListItem) (T : RangeListItem → List RExpr)
    (Q : RangeListItem → Prop) (hne : items ≠ [])
    (h : ∀ x ∈ items, T x ≠ [] ∧ ∃ b, EvAll po (T x) b ∧ (b = true ↔ ¬ Q x)) :
    (items.map T).flatten ≠ [] ∧ ∃ b, EvAll po (items.map T).flatten b ∧ (b = true ↔ ¬ ∃ x ∈ items, Q x) := by
  classical
  refine ⟨?_, items.all (fun x => decide (¬ Q x)), evAll_groups items T _ ?_, ?_⟩
  · match items, hne with
    | x :: l, _ =>
      simp only [List.map_cons, List.flatten_cons]
      intro h0
      exact (h x (by simp)).1 (List.append_eq_nil_iff.1 h0).1
  · intro x hx
    obtain ⟨h1, b, h2, h3⟩ := h x hx
    have : b = decide (¬ Q x) := by
      cases b
      · have : ¬ ¬ Q x := fun hq => by simpa using h3.2 hq
        simp at this
        simp [this]
      · simp [h3.1 rfl]
    rwa [← this]
  · simp

/-- C38–C40, one relation. -/
theorem relation_sem {N : Prop} {po : PluralOperands} {d : Dec} (h : Represents N po d) (lvl : Level) (hl : lvl.ok d) (r : Relation)
    (hN : r.expression.operand = .N → N) (hs : relSafe lvl r = true) :
    relationTests r ≠ [] ∧ ∃ b, EvAll po (relationTests r) b ∧ (b = true ↔ RelationHolds d r) := by
  obtain ⟨e, op, l⟩ := r
  simp only [relSafe, Bool.and_eq_true, bne_iff_ne] at hs
  obtain ⟨hm, hs⟩ := hs
  have pos : (!l.isEmpty) = true ∧ (e.operand != .N || l.all (itemOk lvl true e.modulus)) = true →
      (match (ordered l).map (itemTests e true) with
        | [] => []
        | [tests] => tests
        | several => (anyOf (several.filterMap allOf)).toList) ≠ [] ∧
      ∃ b, EvAll po (match (ordered l).map (itemTests e true) with
        | [] => []
        | [tests] => tests
        | several => (anyOf (several.filterMap allOf)).toList) b ∧
        (b = true ↔ ∃ item ∈ l, ItemIn (exprValue d e) item) := by
    rintro ⟨h1, h2⟩
    have hne : ordered l ≠ [] := by
      intro h0
      have := length_ordered l
      rw [h0] at this
      cases l <;> simp at *
    have := positive_sem (po := po) (ordered l) (itemTests e true) (fun x => ItemIn (exprValue d e) x) hne ?_
    · simpa only [mem_ordered] using this
    · intro x hx
      rw [mem_ordered] at hx
      obtain ⟨h3, b, h4, h5⟩ := itemTests_sem h lvl hl e hm true x hN (by
        simp only [Bool.or_eq_true, bne_iff_ne, List.all_eq_true] at h2
        exact h2.imp_right fun h => h x hx)
      exact ⟨h3, b, h4, by simpa using h5⟩
  have neg : (!l.isEmpty) = true ∧ (e.operand != .N || l.all (itemOk lvl false e.modulus)) = true →
      ((ordered l).map (itemTests e false)).flatten ≠ [] ∧
      ∃ b, EvAll po ((ordered l).map (itemTests e false)).flatten b ∧
        (b = true ↔ ¬ ∃ item ∈ l, ItemIn (exprValue d e) item) := by
    rintro ⟨h1, h2⟩
    have hne : ordered l ≠ [] := by
      intro h0
      have := length_ordered l
      rw [h0] at this
      cases l <;> simp at *
    have := negative_sem (po := po) (ordered l) (itemTests e false) (fun x => ItemIn (exprValue d e) x) hne ?_
    · simpa only [mem_ordered] using this
    · intro x hx
      rw [mem_ordered] at hx
      obtain ⟨h3, b, h4, h5⟩ := itemTests_sem h lvl hl e hm false x hN (by
        simp only [Bool.or_eq_true, bne_iff_ne, List.all_eq_true] at h2
        exact h2.imp_right fun h => h x hx)
      exact ⟨h3, b, h4, by simpa using h5⟩
  cases op <;> simp only [Bool.and_eq_true] at hs
  case In => exact pos hs
  case Is => exact pos hs
  case EQ => exact pos hs
  case NotIn => exact neg hs
  case IsNot => exact neg hs
  case NotEQ => exact neg hs
  case NotWithin => simp at hs
  case Within =>
    match l, hs with
    | [.range lo hi], hs =>
      obtain ⟨o, m⟩ := e
      by_cases ho : o = .N
      · subst ho
        cases m with
        | none =>
          simp only [Bool.and_eq_true, decide_eq_true_eq] at hs
          refine ⟨by simp [relationTests, withinTests], _, EvAll.cons
            (a := Flt.le (Flt.ofNat b64 lo) po.n) (by simp [Ev, RExpr.eval, readField, cmpFlt]) (EvAll.single
            (b := Flt.le po.n (Flt.ofNat b64 hi)) (by simp [Ev, RExpr.eval, readField, cmpFlt])), ?_⟩
          rw [Bool.and_eq_true, flt_ge_iff h (hN rfl) lo hs.1, flt_le_iff h (hN rfl) hi hs.2]
          simp [RelationHolds, ItemWithin, exprValue, Dec.operand, Dec.n]
        | some m =>
          have hm0 : m ≠ 0 := by rintro rfl; exact hm rfl
          have hl' : d.f = 0 := by
            cases lvl with
            | frac => simp at hs
            | int => exact hl
            | small => exact hl.1
          have hi' : (RExpr.rem (.field .I) (.int m)).eval po = some (.int (d.i % m)) := by
            simp [RExpr.eval, readField, h.i, hm0]
          refine ⟨by simp [relationTests, withinTests], _, EvAll.cons (ev_cmp_int .le rfl hi')
            (EvAll.single (ev_cmp_int .le hi' rfl)), ?_⟩
          simp [RelationHolds, ItemWithin, exprValue, Dec.operand, Dec.n, qmod_value, hl', cmpInt]
      · have hi' : ∀ m', m' ≠ some 0 → (leftSide o m').eval po = some (.int (intExpr d ⟨o, m'⟩)) :=
          fun m' hm' => eval_leftSide h o ho m' hm'
        have hx : exprValue d ⟨o, m⟩ = ((intExpr d ⟨o, m⟩ : Nat) : ℚ) := by
          rw [exprValue_eq_nat]; simp [ho]
        cases m with
        | none =>
          refine ⟨by cases o <;> simp [relationTests, withinTests],
            cmpInt .le lo (intExpr d ⟨o, none⟩) && cmpInt .le (intExpr d ⟨o, none⟩) hi, ?_, ?_⟩
          · have : relationTests ⟨⟨o, none⟩, .Within, [.range lo hi]⟩ =
                [.cmp .le (.int lo) (.field o), .cmp .le (.field o) (.int hi)] := by
              cases o <;> first | contradiction | rfl
            rw [this]
            exact EvAll.cons (ev_cmp_int .le rfl (hi' none (by simp))) (EvAll.single (ev_cmp_int .le (hi' none (by simp)) rfl))
          · simp [RelationHolds, ItemWithin, hx, cmpInt]
        | some m =>
          have hI : o = .I := by cases o <;> simp at hs ho ⊢
          subst hI
          refine ⟨by simp [relationTests, withinTests], _, EvAll.cons (ev_cmp_int .le rfl (hi' (some m) hm))
            (EvAll.single (ev_cmp_int .le (hi' (some m) hm) rfl)), ?_⟩
          simp [RelationHolds, ItemWithin, hx, cmpInt]

end Verif.Sem
