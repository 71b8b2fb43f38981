import Verif.Actual
import Verif.Lemmas.Conditions

/-! Helper lemmas: the intended expressions test what `Verif.Actual` says. -/

namespace Verif.Sem
open Verif Rust Uts35 Intended Spec

theorem look_eq (d : Dec) (e : Expression) : Actual.look d e = intExpr d e := by
  obtain ⟨o, m⟩ := e
  cases o <;> cases m <;> rfl

/-- The tests of one item. -/
theorem itemTests_actual {N : Prop} {po : PluralOperands} {d : Dec} (h : Represents N po d) (e : Expression)
    (hm : e.modulus ≠ some 0) (positive : Bool) (item : RangeListItem) (hN : e.operand = .N → N)
    (hk : e.operand = .N → e.modulus = none → ∀ k, item = .value k → k < 2 ^ 53) :
    itemTests e positive item ≠ [] ∧ ∃ b, EvAll po (itemTests e positive item) b ∧
      (b = true ↔ if positive then Actual.Accepts d e item else Actual.Rejects d e item) := by
  obtain ⟨o, m⟩ := e
  by_cases ho : o = .N
  · subst ho
    have hi : (RExpr.field .I).eval po = some (.int d.i) := by simp [RExpr.eval, readField, h.i]
    have hf : Ev po (.cmp .eq (.field .F) (.int 0)) (d.f == 0) := by
      have := @ev_cmp_int po (.field .F) (.int 0) d.f 0 .eq (by simp [RExpr.eval, readField, h.f]) rfl
      exact this
    cases item with
    | value k =>
      cases m with
      | none =>
        have hv := flt_eq_iff h (hN rfl) k (hk rfl rfl k rfl)
        refine ⟨by simp [itemTests], _, EvAll.single
          (b := if positive then Flt.eq po.n (Flt.ofNat b64 k) else !Flt.eq po.n (Flt.ofNat b64 k)) ?_, ?_⟩
        · cases positive <;> simp [valueTest, Ev, RExpr.eval, readField, cmpFlt]
        · have e : Actual.Accepts d ⟨.N, none⟩ (.value k) ↔ d.f = 0 ∧ d.i = k := by
            simp [Actual.Accepts, Actual.look]; tauto
          have e' : Actual.Rejects d ⟨.N, none⟩ (.value k) ↔ ¬ Actual.Accepts d ⟨.N, none⟩ (.value k) := Iff.rfl
          rw [e', e, ← hv]
          cases positive <;> simp
      | some m =>
        have hm0 : m ≠ 0 := by rintro rfl; exact hm rfl
        refine ⟨by simp [itemTests], _, EvAll.single (b := cmpInt (if positive then .eq else .ne) (d.i % m) k) ?_, ?_⟩
        · have := @ev_cmp_int po (.rem (.field .I) (.int m)) (.int k) (d.i % m) k (if positive then .eq else .ne)
            (by simp only [RExpr.eval] at hi ⊢; simp only [hi, if_neg hm0]) rfl
          simpa [valueTest] using this
        · cases positive <;> simp [cmpInt, Actual.Accepts, Actual.Rejects, Actual.look]
    | range lo hi' =>
      cases m with
      | none =>
        cases positive with
        | true =>
          refine ⟨by simp [itemTests, rangeTests], _, EvAll.cons (ev_contains hi) (EvAll.single hf), ?_⟩
          simp [Actual.Accepts, itemNat, and_assoc]
        | false =>
          refine ⟨by simp [itemTests, rangeTests], _, EvAll.cons (ev_contains hi).not (EvAll.single hf), ?_⟩
          simp [Actual.Rejects, itemNat, Nat.not_le, imp_iff_not_or]
      | some m =>
        cases positive with
        | true =>
          refine ⟨by simp [itemTests, rangeTests], _, EvAll.single (ev_contains hi), ?_⟩
          simp [Actual.Accepts, itemNat]
        | false =>
          refine ⟨by simp [itemTests, rangeTests], _, EvAll.single (ev_contains hi).not, ?_⟩
          simp [Actual.Rejects, itemNat, Nat.not_le, imp_iff_not_or]
  · have hev := eval_leftSide h o ho m hm
    cases item with
    | value k =>
      refine ⟨by simp [itemTests], _, EvAll.single
        (b := cmpInt (if positive then .eq else .ne) (intExpr d ⟨o, m⟩) k) ?_, ?_⟩
      · simp only [valueTest, ho, if_false]
        exact ev_cmp_int _ hev rfl
      · cases positive <;> simp [cmpInt, ho, Actual.Accepts, Actual.Rejects, look_eq]
    | range lo hi =>
      cases positive with
      | true =>
        refine ⟨by simp [itemTests, rangeTests, ho], itemNat (intExpr d ⟨o, m⟩) (.range lo hi), ?_, ?_⟩
        · simp only [itemTests, rangeTests, ho, if_false, if_true]
          exact EvAll.single (ev_contains hev)
        · simp [ho, Actual.Accepts, look_eq, itemNat]
      | false =>
        refine ⟨by simp [itemTests, rangeTests, ho], !itemNat (intExpr d ⟨o, m⟩) (.range lo hi), ?_, ?_⟩
        · simp only [itemTests, rangeTests, ho, if_false]
          exact EvAll.single (ev_contains hev).not
        · simp [ho, Actual.Rejects, look_eq, itemNat, imp_iff_not_or]

theorem firstRange_unique {l : List RangeListItem} {lo hi lo' hi' : Nat} (h : Actual.FirstRange l lo hi)
    (h' : Actual.FirstRange l lo' hi') : lo = lo' ∧ hi = hi' := by
  obtain ⟨v, r, rfl, hv⟩ := h
  obtain ⟨v', r', he, hv'⟩ := h'
  induction v generalizing v' with
  | nil =>
    cases v' with
    | nil => simp at he; exact he.1
    | cons x v' =>
      simp only [List.nil_append, List.cons_append, List.cons.injEq] at he
      exact absurd (List.mem_cons_self ..) (he.1 ▸ hv' lo hi)
  | cons x v ih =>
    cases v' with
    | nil =>
      simp only [List.nil_append, List.cons_append, List.cons.injEq] at he
      exact absurd (List.mem_cons_self ..) (he.1 ▸ hv lo' hi')
    | cons x' v' =>
      simp only [List.cons_append, List.cons.injEq] at he
      exact ih (fun a b h => hv a b (by simp [h])) v' he.2 (fun a b h => hv' a b (by simp [h]))

theorem withinTests_values (e : Expression) (op : CmpOp) (v r : List RangeListItem) (hv : ∀ a b, RangeListItem.range a b ∉ v) :
    withinTests e op (v ++ r) = withinTests e op r := by
  induction v with
  | nil => rfl
  | cons x v ih =>
    cases x with
    | value k => exact ih fun a b h => hv a b (by simp [h])
    | range a b => exact absurd (List.mem_cons_self ..) (hv a b)

theorem exists_firstRange (l : List RangeListItem) (h : ∃ lo hi, RangeListItem.range lo hi ∈ l) : ∃ lo hi, Actual.FirstRange l lo hi := by
  induction l with
  | nil => simp at h
  | cons x l ih =>
    cases x with
    | range a b => exact ⟨a, b, [], l, rfl, by simp⟩
    | value k =>
      obtain ⟨lo, hi, h⟩ := h
      obtain ⟨a, b, v, r, rfl, hv⟩ := ih ⟨lo, hi, by simpa using h⟩
      exact ⟨a, b, .value k :: v, r, rfl, by simpa using hv⟩

/-- The two tests of a range of within. -/
theorem within_actual {N : Prop} {po : PluralOperands} {d : Dec} (h : Represents N po d) (e : Expression)
    (hm : e.modulus ≠ some 0) (lo hi : Nat) (rest : List RangeListItem) (hN : e.operand = .N → N)
    (hk : e.operand = .N → e.modulus = none → lo < 2 ^ 53 ∧ hi < 2 ^ 53) :
    (∃ b, EvAll po (withinTests e .le (.range lo hi :: rest)) b ∧
      (b = true ↔ (lo : ℚ) ≤ Actual.withinSide d e ∧ Actual.withinSide d e ≤ hi)) ∧
    (∃ b, EvAll po (withinTests e .gt (.range lo hi :: rest)) b ∧
      (b = true ↔ Actual.withinSide d e < lo ∧ hi < Actual.withinSide d e)) := by
  obtain ⟨o, m⟩ := e
  cases m with
  | some m =>
    have hm0 : m ≠ 0 := by rintro rfl; exact hm rfl
    have hi' : (RExpr.rem (.field .I) (.int m)).eval po = some (.int (d.i % m)) := by
      simp [RExpr.eval, readField, h.i, hm0]
    have hT : ∀ op, withinTests ⟨o, some m⟩ op (.range lo hi :: rest) =
        [.cmp op (.int lo) (.rem (.field .I) (.int m)), .cmp op (.rem (.field .I) (.int m)) (.int hi)] := by
      intro op; cases o <;> rfl
    simp only [hT]
    refine ⟨⟨_, EvAll.cons (ev_cmp_int .le rfl hi') (EvAll.single (ev_cmp_int .le hi' rfl)), ?_⟩,
      ⟨_, EvAll.cons (ev_cmp_int .gt rfl hi') (EvAll.single (ev_cmp_int .gt hi' rfl)), ?_⟩⟩
    · simp [Actual.withinSide, cmpInt]
    · simp [Actual.withinSide, cmpInt]
  | none =>
    by_cases ho : o = .N
    · subst ho
      obtain ⟨h1, h2⟩ := hk rfl rfl
      have hN := hN rfl
      have e1 := flt_ge_iff h hN lo h1
      have e2 := flt_le_iff h hN hi h2
      obtain ⟨x, hx, hc⟩ := h.n hN
      have g1 : Flt.lt po.n (Flt.ofNat b64 lo) = true ↔ d.value < lo := by
        rw [← not_le, ← e1, hx, ofNat_exact lo h1]
        simp [Flt.lt]
      have g2 : Flt.lt (Flt.ofNat b64 hi) po.n = true ↔ (hi : ℚ) < d.value := by
        rw [← not_le, ← e2, hx, ofNat_exact hi h2]
        simp [Flt.lt]
      refine ⟨⟨_, EvAll.cons
            (a := Flt.le (Flt.ofNat b64 lo) po.n) (by simp [Ev, RExpr.eval, readField, cmpFlt]) (EvAll.single
            (b := Flt.le po.n (Flt.ofNat b64 hi)) (by simp [Ev, RExpr.eval, readField, cmpFlt])), ?_⟩,
        ⟨_, EvAll.cons
            (a := Flt.lt po.n (Flt.ofNat b64 lo)) (by simp [Ev, RExpr.eval, readField, cmpFlt]) (EvAll.single
            (b := Flt.lt (Flt.ofNat b64 hi) po.n) (by simp [Ev, RExpr.eval, readField, cmpFlt])), ?_⟩⟩
      · rw [Bool.and_eq_true, e1, e2]; rfl
      · rw [Bool.and_eq_true, g1, g2]; rfl
    · have hi' := eval_leftSide h o ho none (by simp)
      have hx : Actual.withinSide d ⟨o, none⟩ = ((intExpr d ⟨o, none⟩ : Nat) : ℚ) := by
        have : exprValue d ⟨o, none⟩ = ((intExpr d ⟨o, none⟩ : Nat) : ℚ) := by rw [exprValue_eq_nat]; simp [ho]
        exact this
      have hT : ∀ op, withinTests ⟨o, none⟩ op (.range lo hi :: rest) =
          [.cmp op (.int lo) (leftSide o none), .cmp op (leftSide o none) (.int hi)] := by
        intro op; cases o <;> first | contradiction | rfl
      simp only [hT]
      refine ⟨⟨_, EvAll.cons (ev_cmp_int .le rfl hi') (EvAll.single (ev_cmp_int .le hi' rfl)), ?_⟩,
        ⟨_, EvAll.cons (ev_cmp_int .gt rfl hi') (EvAll.single (ev_cmp_int .gt hi' rfl)), ?_⟩⟩
      · simp [hx, cmpInt]
      · simp [hx, cmpInt]

/-- One relation. -/
theorem relation_actual {N : Prop} {po : PluralOperands} {d : Dec} (h : Represents N po d) (r : Relation)
    (hm : r.expression.modulus ≠ some 0) (hN : r.expression.operand = .N → N) (hl : Listed r) (hx : Actual.Exact r) :
    relationTests r ≠ [] ∧ ∃ b, EvAll po (relationTests r) b ∧ (b = true ↔ Actual.RelationHolds d r) := by
  obtain ⟨e, op, l⟩ := r
  simp only [Listed, Actual.Exact] at hl hx hm hN
  have hne : ordered l ≠ [] := by
    intro h0
    have := length_ordered l
    rw [h0] at this
    cases l <;> simp at *
  have items : (∀ k, .value k ∈ l → e.operand = .N → e.modulus = none → k < 2 ^ 53) → ∀ positive, ∀ x ∈ ordered l,
      itemTests e positive x ≠ [] ∧ ∃ b, EvAll po (itemTests e positive x) b ∧
        (b = true ↔ if positive then Actual.Accepts d e x else Actual.Rejects d e x) := by
    intro hv positive x hx
    rw [mem_ordered] at hx
    exact itemTests_actual h e hm positive x hN fun h1 h2 k hk => hv k (hk ▸ hx) h1 h2
  have pos : (∀ k, .value k ∈ l → e.operand = .N → e.modulus = none → k < 2 ^ 53) →
      (match (ordered l).map (itemTests e true) with
        | [] => []
        | [tests] => tests
        | several => (anyOf (several.filterMap allOf)).toList) ≠ [] ∧
      ∃ b, EvAll po (match (ordered l).map (itemTests e true) with
        | [] => []
        | [tests] => tests
        | several => (anyOf (several.filterMap allOf)).toList) b ∧
        (b = true ↔ ∃ item ∈ l, Actual.Accepts d e item) := by
    intro hv
    have := positive_sem (po := po) (ordered l) (itemTests e true) (fun x => Actual.Accepts d e x) hne
      fun x hx => by simpa using items hv true x hx
    simp only [mem_ordered] at this
    exact this
  have neg : (∀ k, .value k ∈ l → e.operand = .N → e.modulus = none → k < 2 ^ 53) →
      ((ordered l).map (itemTests e false)).flatten ≠ [] ∧
      ∃ b, EvAll po ((ordered l).map (itemTests e false)).flatten b ∧ (b = true ↔ ∀ item ∈ l, Actual.Rejects d e item) := by
    intro hv
    have := negative_sem (po := po) (ordered l) (itemTests e false) (fun x => ¬ Actual.Rejects d e x) hne
      fun x hx => by simpa using items hv false x hx
    simpa only [mem_ordered, not_exists, not_and, not_not] using this
  have wit : (IsWithin op → ∀ lo hi, .range lo hi ∈ l → e.operand = .N → e.modulus = none → lo < 2 ^ 53 ∧ hi < 2 ^ 53) →
      IsWithin op →
      ((withinTests e .le l ≠ [] ∧ withinTests e .gt l ≠ []) ∧
      (∃ b, EvAll po (withinTests e .le l) b ∧ (b = true ↔ ∃ lo hi, Actual.FirstRange l lo hi ∧ (lo : ℚ) ≤ Actual.withinSide d e ∧ Actual.withinSide d e ≤ hi)) ∧
      (∃ b, EvAll po (withinTests e .gt l) b ∧ (b = true ↔ ∃ lo hi, Actual.FirstRange l lo hi ∧ Actual.withinSide d e < lo ∧ hi < Actual.withinSide d e))) := by
    intro hv hw
    obtain ⟨lo, hi, hfr⟩ := exists_firstRange l (hl.2 hw)
    have hfr' := hfr
    obtain ⟨v, rest, rfl, hvv⟩ := hfr'
    rw [withinTests_values e .le v _ hvv, withinTests_values e .gt v _ hvv]
    obtain ⟨⟨b1, h1, h2⟩, b2, h3, h4⟩ := within_actual h e hm lo hi rest hN fun h1 h2 => hv hw lo hi (by simp) h1 h2
    refine ⟨?_, ⟨b1, h1, ?_⟩, b2, h3, ?_⟩
    · obtain ⟨o, m⟩ := e
      constructor <;> cases o <;> cases m <;> simp [withinTests]
    · rw [h2]
      constructor
      · intro h; exact ⟨lo, hi, hfr, h⟩
      · rintro ⟨lo', hi', hf, h⟩
        obtain ⟨rfl, rfl⟩ := firstRange_unique hfr hf
        exact h
    · rw [h4]
      constructor
      · intro h; exact ⟨lo, hi, hfr, h⟩
      · rintro ⟨lo', hi', hf, h⟩
        obtain ⟨rfl, rfl⟩ := firstRange_unique hfr hf
        exact h
  cases op
  case In => exact pos fun k hk h1 h2 => hx h1 h2 k hk
  case Is => exact pos fun k hk h1 h2 => hx h1 h2 k hk
  case EQ => exact pos fun k hk h1 h2 => hx h1 h2 k hk
  case NotIn => exact neg fun k hk h1 h2 => hx h1 h2 k hk
  case IsNot => exact neg fun k hk h1 h2 => hx h1 h2 k hk
  case NotEQ => exact neg fun k hk h1 h2 => hx h1 h2 k hk
  case Within =>
    obtain ⟨h1, h2, -⟩ := wit (fun _ lo hi hr h1 h2 => hx h1 h2 lo hi hr) (.inl rfl)
    exact ⟨h1.1, h2⟩
  case NotWithin =>
    obtain ⟨h1, -, h2⟩ := wit (fun _ lo hi hr h1 h2 => hx h1 h2 lo hi hr) (.inr rfl)
    exact ⟨h1.2, h2⟩

/-- A condition. -/
theorem condition_actual {N : Prop} {po : PluralOperands} {d : Dec} (h : Represents N po d) (c : Condition) (hc : c ≠ [])
    (hr : ∀ a ∈ c, a ≠ [] ∧ ∀ r ∈ a, r.expression.modulus ≠ some 0 ∧ (r.expression.operand = .N → N) ∧ Listed r ∧ Actual.Exact r) :
    ∃ e b, condition c = some e ∧ Ev po e b ∧ (b = true ↔ Actual.Holds d c) := by
  classical
  have hrel : ∀ a ∈ c, ∀ r ∈ a, relationTests r ≠ [] ∧ EvAll po (relationTests r) (decide (Actual.RelationHolds d r)) := by
    intro a ha r hra
    obtain ⟨h1, h2, h3, h4⟩ := (hr a ha).2 r hra
    obtain ⟨h5, b, h6, h7⟩ := relation_actual h r h1 h2 h3 h4
    refine ⟨h5, ?_⟩
    have : b = decide (Actual.RelationHolds d r) := by rw [Bool.eq_iff_iff, h7]; simp
    rwa [← this]
  have hand : ∀ a ∈ c, (a.map relationTests).flatten ≠ [] ∧
      EvAll po (a.map relationTests).flatten (a.all fun r => decide (Actual.RelationHolds d r)) := by
    intro a ha
    refine ⟨?_, evAll_groups a relationTests _ fun r hra => (hrel a ha r hra).2⟩
    match a, (hr a ha).1, hrel a ha with
    | r :: l, _, h => 
      simp only [List.map_cons, List.flatten_cons]
      intro h0
      exact (h r (by simp)).1 (List.append_eq_nil_iff.1 h0).1
  obtain ⟨h1, h2⟩ := evAny_groups c (fun a => (a.map relationTests).flatten) _ hand
  obtain ⟨e, h3, h4⟩ := h1.anyOf (by
    intro h0; rw [h0] at h2; cases c <;> simp at *)
  refine ⟨e, _, ?_, h4, ?_⟩
  · rw [← h3, condition, List.filterMap_map]; rfl
  · simp [Actual.Holds]

end Verif.Sem
