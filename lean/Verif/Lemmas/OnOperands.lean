import Verif.OnOperands
import Verif.Lemmas.Actual
import Verif.Lemmas.Ieee

/-! Helper lemmas: the intended expressions test what `Verif.OnOperands` says, on all operands. -/

namespace Verif.OnOperands
open Verif Rust Uts35 Intended Spec Sem

/-! ## Comparisons of floats -/

theorem number_fin (s : Bool) (a : Nat) : number (.fin s a) = some ((((Flt.signed s a : ℚ) / 2 ^ 1074 : ℚ) : WithTop ℚ) : WithBot (WithTop ℚ)) := by
  cases s
  · simp [number, Flt.signed]
  · simp [number, Flt.signed, neg_div]

theorem le_iff (x y : Flt) : Flt.le x y = true ↔ AtMost x y := by
  have hpos : (0 : ℚ) < 2 ^ 1074 := by positivity
  generalize hp : (2 : ℚ) ^ 1074 = p at hpos
  match x, y with
  | .nan, _ => simp [Flt.le, AtMost, number]
  | .inf true, .nan => simp [Flt.le, AtMost, number]
  | .inf false, .nan => simp [Flt.le, AtMost, number]
  | .fin _ _, .nan => simp [Flt.le, AtMost, number]
  | .inf true, .inf true => simp [Flt.le, AtMost, number]
  | .inf true, .inf false => simp [Flt.le, AtMost, number]
  | .inf true, .fin s a => simp [Flt.le, AtMost, number_fin]; simp [number]
  | .inf false, .inf true => simp [Flt.le, AtMost, number]
  | .inf false, .inf false => simp [Flt.le, AtMost, number]
  | .inf false, .fin s a =>
    simp only [Flt.le, AtMost, number_fin]
    simp [number, ← WithBot.coe_top]
  | .fin s a, .inf true => simp [Flt.le, AtMost, number_fin]; simp [number]
  | .fin s a, .inf false => simp [Flt.le, AtMost, number_fin]; simp [number]
  | .fin s a, .fin t b =>
    simp only [Flt.le, AtMost, number_fin, hp, Option.some.injEq, decide_eq_true_eq, exists_and_left, exists_eq_left']
    rw [WithBot.coe_le_coe, WithTop.coe_le_coe, div_le_div_iff_of_pos_right hpos]
    exact Int.cast_le.symm

theorem number_eq_none (x : Flt) : number x = none ↔ x = .nan := by
  match x with
  | .nan => simp [number]
  | .inf true => simp [number]
  | .inf false => simp [number]
  | .fin _ _ => simp [number]

theorem lt_iff (x y : Flt) : Flt.lt x y = true ↔ Less x y := by
  have h : Flt.lt x y = true ↔ x ≠ .nan ∧ y ≠ .nan ∧ ¬ Flt.le y x = true := by
    cases x <;> cases y <;> simp [Flt.lt]
  rw [h, le_iff, ne_eq, ne_eq, ← number_eq_none, ← number_eq_none]
  unfold AtMost Less
  cases number x <;> cases number y <;> simp

theorem eq_iff (x y : Flt) : Flt.eq x y = true ↔ Same x y := by
  have h : Flt.eq x y = true ↔ Flt.le x y = true ∧ Flt.le y x = true := by
    match x, y with
    | .nan, _ => simp [Flt.le, Flt.eq]
    | .inf true, .nan => simp [Flt.le, Flt.eq]
    | .inf false, .nan => simp [Flt.le, Flt.eq]
    | .fin _ _, .nan => simp [Flt.le, Flt.eq]
    | .inf true, .inf true => simp [Flt.le, Flt.eq]
    | .inf true, .inf false => simp [Flt.le, Flt.eq]
    | .inf true, .fin s a => simp [Flt.le, Flt.eq]
    | .inf false, .inf true => simp [Flt.le, Flt.eq]
    | .inf false, .inf false => simp [Flt.le, Flt.eq]
    | .inf false, .fin s a => simp [Flt.le, Flt.eq]
    | .fin s a, .inf true => simp [Flt.le, Flt.eq]
    | .fin s a, .inf false => simp [Flt.le, Flt.eq]
    | .fin s a, .fin t b => cases s <;> cases t <;> simp [Flt.le, Flt.eq, Flt.signed] <;> omega
  rw [h, le_iff, le_iff]
  unfold AtMost Same
  cases number x <;> cases number y <;> simp [← le_antisymm_iff, eq_comm]

theorem ieee_iff (k : Nat) (x : Flt) : Ieee b64 k x ↔ x = Flt.ofNat b64 k :=
  ⟨fun h => ieee_unique b64 (by decide) _ _ _ h (ieee_ofNat k), fun h => h ▸ ieee_ofNat k⟩

/-! ## The tests of an item -/

theorem eval_look (po : PluralOperands) (o : Operand) (ho : o ≠ .N) (m : Option Nat) (hm : m ≠ some 0) :
    (leftSide o m).eval po = some (.int (look po ⟨o, m⟩)) := by
  have hf : (RExpr.field o).eval po = some (.int (look po ⟨o, none⟩)) := by
    cases o <;> first | contradiction | rfl
  cases m with
  | none => exact hf
  | some m =>
    have : m ≠ 0 := by rintro rfl; exact hm rfl
    simp only [leftSide, RExpr.eval] at hf ⊢
    simp only [hf, if_neg this]
    cases o <;> rfl

theorem itemTests_on (po : PluralOperands) (e : Expression) (positive : Bool) (item : RangeListItem)
    (hm : e.modulus = some 0 → e.operand = .N ∧ ∃ lo hi, item = .range lo hi) :
    itemTests e positive item ≠ [] ∧ ∃ b, EvAll po (itemTests e positive item) b ∧
      (b = true ↔ if positive then Accepts po e item else Rejects po e item) := by
  obtain ⟨o, m⟩ := e
  by_cases ho : o = .N
  · subst ho
    have hi : (RExpr.field .I).eval po = some (.int po.i) := rfl
    have hf : Ev po (.cmp .eq (.field .F) (.int 0)) (po.f == 0) :=
      @ev_cmp_int po (.field .F) (.int 0) po.f 0 .eq rfl rfl
    cases item with
    | value k =>
      cases m with
      | none =>
        refine ⟨by simp [itemTests], _, EvAll.single
          (b := if positive then Flt.eq po.n (Flt.ofNat b64 k) else !Flt.eq po.n (Flt.ofNat b64 k)) ?_, ?_⟩
        · cases positive <;> simp [valueTest, Ev, RExpr.eval, readField, cmpFlt]
        · have e : Equals po ⟨.N, none⟩ k ↔ Flt.eq po.n (Flt.ofNat b64 k) = true := by
            simp [Equals, Plain, ieee_iff, eq_iff]
          cases positive <;> simp [Accepts, Rejects, e]
      | some m =>
        have hm0 : m ≠ 0 := by rintro rfl; obtain ⟨-, _, _, h⟩ := hm rfl; cases h
        refine ⟨by simp [itemTests], _, EvAll.single (b := cmpInt (if positive then .eq else .ne) (po.i % m) k) ?_, ?_⟩
        · have := @ev_cmp_int po (.rem (.field .I) (.int m)) (.int k) (po.i % m) k (if positive then .eq else .ne)
            (by simp only [RExpr.eval] at hi ⊢; simp only [hi, if_neg hm0]) rfl
          simpa [valueTest] using this
        · cases positive <;> simp [cmpInt, Accepts, Rejects, Equals, Plain, look]
    | range lo hi' =>
      cases m with
      | none =>
        cases positive with
        | true =>
          refine ⟨by simp [itemTests, rangeTests], _, EvAll.cons (ev_contains hi) (EvAll.single hf), ?_⟩
          simp [Accepts, itemNat, and_assoc]
        | false =>
          refine ⟨by simp [itemTests, rangeTests], _, EvAll.cons (ev_contains hi).not (EvAll.single hf), ?_⟩
          simp [Rejects, itemNat, Nat.not_le, imp_iff_not_or]
      | some m =>
        cases positive with
        | true =>
          refine ⟨by simp [itemTests, rangeTests], _, EvAll.single (ev_contains hi), ?_⟩
          simp [Accepts, itemNat]
        | false =>
          refine ⟨by simp [itemTests, rangeTests], _, EvAll.single (ev_contains hi).not, ?_⟩
          simp [Rejects, itemNat, Nat.not_le, imp_iff_not_or]
  · have hm0 : m ≠ some 0 := fun h => ho (hm h).1
    have hev := eval_look po o ho m hm0
    cases item with
    | value k =>
      refine ⟨by simp [itemTests], _, EvAll.single (b := cmpInt (if positive then .eq else .ne) (look po ⟨o, m⟩) k) ?_, ?_⟩
      · simp only [valueTest, ho, if_false]
        exact ev_cmp_int _ hev rfl
      · cases positive <;> simp [cmpInt, ho, Accepts, Rejects, Equals, Plain]
    | range lo hi =>
      cases positive with
      | true =>
        refine ⟨by simp [itemTests, rangeTests, ho], itemNat (look po ⟨o, m⟩) (.range lo hi), ?_, ?_⟩
        · simp only [itemTests, rangeTests, ho, if_false, if_true]
          exact EvAll.single (ev_contains hev)
        · simp [ho, Accepts, itemNat]
      | false =>
        refine ⟨by simp [itemTests, rangeTests, ho], !itemNat (look po ⟨o, m⟩) (.range lo hi), ?_, ?_⟩
        · simp only [itemTests, rangeTests, ho, if_false]
          exact EvAll.single (ev_contains hev).not
        · simp [ho, Rejects, itemNat, imp_iff_not_or]

/-! ## Within -/

theorem within_on (po : PluralOperands) (e : Expression) (hm : e.modulus ≠ some 0) (lo hi : Nat) (rest : List RangeListItem) :
    (∃ b, EvAll po (withinTests e .le (.range lo hi :: rest)) b ∧ (b = true ↔ Within po e lo hi)) ∧
    (∃ b, EvAll po (withinTests e .gt (.range lo hi :: rest)) b ∧ (b = true ↔ NotWithin po e lo hi)) := by
  obtain ⟨o, m⟩ := e
  cases m with
  | some m =>
    have hm0 : m ≠ 0 := by rintro rfl; exact hm rfl
    have hi' : (RExpr.rem (.field .I) (.int m)).eval po = some (.int (po.i % m)) := by
      simp [RExpr.eval, readField, hm0]
    have hT : ∀ op, withinTests ⟨o, some m⟩ op (.range lo hi :: rest) =
        [.cmp op (.int lo) (.rem (.field .I) (.int m)), .cmp op (.rem (.field .I) (.int m)) (.int hi)] := by
      intro op; cases o <;> rfl
    simp only [hT]
    refine ⟨⟨_, EvAll.cons (ev_cmp_int .le rfl hi') (EvAll.single (ev_cmp_int .le hi' rfl)), ?_⟩,
      ⟨_, EvAll.cons (ev_cmp_int .gt rfl hi') (EvAll.single (ev_cmp_int .gt hi' rfl)), ?_⟩⟩
    · simp [Within, Plain, withinLook, cmpInt]
    · simp [NotWithin, Plain, withinLook, cmpInt]
  | none =>
    by_cases ho : o = .N
    · subst ho
      refine ⟨⟨_, EvAll.cons
            (a := Flt.le (Flt.ofNat b64 lo) po.n) (by simp [Ev, RExpr.eval, readField, cmpFlt]) (EvAll.single
            (b := Flt.le po.n (Flt.ofNat b64 hi)) (by simp [Ev, RExpr.eval, readField, cmpFlt])), ?_⟩,
        ⟨_, EvAll.cons
            (a := Flt.lt po.n (Flt.ofNat b64 lo)) (by simp [Ev, RExpr.eval, readField, cmpFlt]) (EvAll.single
            (b := Flt.lt (Flt.ofNat b64 hi) po.n) (by simp [Ev, RExpr.eval, readField, cmpFlt])), ?_⟩⟩
      · simp [Within, Plain, ieee_iff, le_iff]
      · simp [NotWithin, Plain, ieee_iff, lt_iff]
    · have hi' := eval_look po o ho none (by simp)
      have hT : ∀ op, withinTests ⟨o, none⟩ op (.range lo hi :: rest) =
          [.cmp op (.int lo) (leftSide o none), .cmp op (leftSide o none) (.int hi)] := by
        intro op; cases o <;> first | contradiction | rfl
      simp only [hT]
      refine ⟨⟨_, EvAll.cons (ev_cmp_int .le rfl hi') (EvAll.single (ev_cmp_int .le hi' rfl)), ?_⟩,
        ⟨_, EvAll.cons (ev_cmp_int .gt rfl hi') (EvAll.single (ev_cmp_int .gt hi' rfl)), ?_⟩⟩
      · simp [Within, Plain, withinLook, ho, cmpInt]
      · simp [NotWithin, Plain, withinLook, ho, cmpInt]

/-! ## Relations and conditions -/

theorem relation_on (po : PluralOperands) (r : Relation) (hl : Listed r)
    (hz : ¬ (r.expression.modulus = some 0 ∧ (r.expression.operand ≠ .N ∨ IsWithin r.operator ∨ ∃ k, RangeListItem.value k ∈ r.rangeList))) :
    relationTests r ≠ [] ∧ ∃ b, EvAll po (relationTests r) b ∧ (b = true ↔ RelationHolds po r) := by
  obtain ⟨e, op, l⟩ := r
  simp only [Listed] at hl hz
  have hne : ordered l ≠ [] := by
    intro h0
    have := length_ordered l
    rw [h0] at this
    cases l <;> simp at *
  have items : ∀ positive, ∀ x ∈ ordered l, itemTests e positive x ≠ [] ∧ ∃ b, EvAll po (itemTests e positive x) b ∧
        (b = true ↔ if positive then Accepts po e x else Rejects po e x) := by
    intro positive x hx
    rw [mem_ordered] at hx
    refine itemTests_on po e positive x fun h0 => ?_
    simp only [h0, true_and, not_or, not_not] at hz
    refine ⟨hz.1, ?_⟩
    cases x with
    | value k => exact absurd ⟨k, hx⟩ hz.2.2
    | range lo hi => exact ⟨lo, hi, rfl⟩
  have pos : (match (ordered l).map (itemTests e true) with
        | [] => []
        | [tests] => tests
        | several => (anyOf (several.filterMap allOf)).toList) ≠ [] ∧
      ∃ b, EvAll po (match (ordered l).map (itemTests e true) with
        | [] => []
        | [tests] => tests
        | several => (anyOf (several.filterMap allOf)).toList) b ∧
        (b = true ↔ ∃ item ∈ l, Accepts po e item) := by
    have := positive_sem (po := po) (ordered l) (itemTests e true) (fun x => Accepts po e x) hne
      fun x hx => by simpa using items true x hx
    simp only [mem_ordered] at this
    exact this
  have neg : ((ordered l).map (itemTests e false)).flatten ≠ [] ∧
      ∃ b, EvAll po ((ordered l).map (itemTests e false)).flatten b ∧ (b = true ↔ ∀ item ∈ l, Rejects po e item) := by
    have := negative_sem (po := po) (ordered l) (itemTests e false) (fun x => ¬ Rejects po e x) hne
      fun x hx => by simpa using items false x hx
    simpa only [mem_ordered, not_exists, not_and, not_not] using this
  have wit : IsWithin op → ((withinTests e .le l ≠ [] ∧ withinTests e .gt l ≠ []) ∧
      (∃ b, EvAll po (withinTests e .le l) b ∧ (b = true ↔ ∃ lo hi, Actual.FirstRange l lo hi ∧ Within po e lo hi)) ∧
      (∃ b, EvAll po (withinTests e .gt l) b ∧ (b = true ↔ ∃ lo hi, Actual.FirstRange l lo hi ∧ NotWithin po e lo hi))) := by
    intro hw
    have hm : e.modulus ≠ some 0 := fun h => hz ⟨h, .inr (.inl hw)⟩
    obtain ⟨lo, hi, hfr⟩ := exists_firstRange l (hl.2 hw)
    have hfr' := hfr
    obtain ⟨v, rest, rfl, hvv⟩ := hfr'
    rw [withinTests_values e .le v _ hvv, withinTests_values e .gt v _ hvv]
    obtain ⟨⟨b1, h1, h2⟩, b2, h3, h4⟩ := within_on po e hm lo hi rest
    refine ⟨?_, ⟨b1, h1, ?_⟩, b2, h3, ?_⟩
    · obtain ⟨o, m⟩ := e
      constructor <;> cases o <;> cases m <;> simp [withinTests]
    · rw [h2]
      constructor
      · intro h; exact ⟨lo, hi, hfr, h⟩
      · rintro ⟨lo', hi', hf, h⟩
        obtain ⟨rfl, rfl⟩ := firstRange_unique hfr hf
        exact h
    · rw [h4]
      constructor
      · intro h; exact ⟨lo, hi, hfr, h⟩
      · rintro ⟨lo', hi', hf, h⟩
        obtain ⟨rfl, rfl⟩ := firstRange_unique hfr hf
        exact h
  cases op
  case In => exact pos
  case Is => exact pos
  case EQ => exact pos
  case NotIn => exact neg
  case IsNot => exact neg
  case NotEQ => exact neg
  case Within =>
    obtain ⟨h1, h2, -⟩ := wit (.inl rfl)
    exact ⟨h1.1, h2⟩
  case NotWithin =>
    obtain ⟨h1, -, h2⟩ := wit (.inr rfl)
    exact ⟨h1.2, h2⟩

theorem condition_on (po : PluralOperands) (c : Condition) (hc : c ≠ []) (hr : ∀ a ∈ c, a ≠ [] ∧ ∀ r ∈ a, Listed r ∧
      ¬ (r.expression.modulus = some 0 ∧ (r.expression.operand ≠ .N ∨ IsWithin r.operator ∨ ∃ k, RangeListItem.value k ∈ r.rangeList))) :
    ∃ e b, condition c = some e ∧ Ev po e b ∧ (b = true ↔ Holds po c) := by
  classical
  have hrel : ∀ a ∈ c, ∀ r ∈ a, relationTests r ≠ [] ∧ EvAll po (relationTests r) (decide (RelationHolds po r)) := by
    intro a ha r hra
    obtain ⟨h1, h2⟩ := (hr a ha).2 r hra
    obtain ⟨h5, b, h6, h7⟩ := relation_on po r h1 h2
    refine ⟨h5, ?_⟩
    have : b = decide (RelationHolds po r) := by rw [Bool.eq_iff_iff, h7]; simp
    rwa [← this]
  have hand : ∀ a ∈ c, (a.map relationTests).flatten ≠ [] ∧
      EvAll po (a.map relationTests).flatten (a.all fun r => decide (RelationHolds po r)) := by
    intro a ha
    refine ⟨?_, evAll_groups a relationTests _ fun r hra => (hrel a ha r hra).2⟩
    match a, (hr a ha).1, hrel a ha with
    | r :: l, _, h =>
      simp only [List.map_cons, List.flatten_cons]
      intro h0
      exact (h r (by simp)).1 (List.append_eq_nil_iff.1 h0).1
  obtain ⟨h1, h2⟩ := evAny_groups c (fun a => (a.map relationTests).flatten) _ hand
  obtain ⟨e, h3, h4⟩ := h1.anyOf (by
    intro h0; rw [h0] at h2; cases c <;> simp at *)
  refine ⟨e, _, ?_, h4, ?_⟩
  · rw [← h3, condition, List.filterMap_map]; rfl
  · simp [Holds]

end Verif.OnOperands
