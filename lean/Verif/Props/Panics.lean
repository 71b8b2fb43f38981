import Verif.Props.Generator

/-!
# C84: when generated code panics

The only operation of generated code that can panic is the remainder.  Not every `% 0` of a rule gets into the code, and what is in
the code may not be reached.
-/

namespace Verif.Props
open Verif Api Rust Uts35 Spec Verif.Parser Verif.Grammar GenPr GenRs Generate RulesRead Gen PluralOperands Sem Prec Eval Intended

/-- The relation has modulus zero, and the modulus gets into its code: it is lost only for `n` and a list of ranges. -/
def DividesByZero (r : Relation) : Prop :=
  r.expression.modulus = some 0 ∧ (r.expression.operand ≠ .N ∨ IsWithin r.operator ∨ ∃ k, RangeListItem.value k ∈ r.rangeList)

/-! ## Chains with panics -/

/-- A panic or a boolean. -/
def IsTest (v : Option Val) : Prop := v = none ∨ ∃ b, v = some (.bool b)

/-- A well-typed expression panics or has a value of its type. -/
theorem eval_ty (po : PluralOperands) (e : RExpr) (τ : Ty) (hτ : e.ty = some τ) :
    e.eval po = none ∨ ∃ v, e.eval po = some v ∧ hasTy τ v := by
  cases h : e.eval po with
  | none => exact .inl rfl
  | some v =>
    refine .inr ⟨v, rfl, ?_⟩
    induction e generalizing τ v with
    | int k => simp [RExpr.ty] at hτ; simp [RExpr.eval] at h; subst hτ h; trivial
    | flt k => simp [RExpr.ty] at hτ; simp [RExpr.eval] at h; subst hτ h; trivial
    | field x => simp [RExpr.ty] at hτ; simp [RExpr.eval] at h; subst hτ h; cases x <;> trivial
    | rem a b iha ihb =>
      simp only [RExpr.ty] at hτ
      simp only [RExpr.eval] at h
      split at h
      · split at h
        · simp at h
        · rename_i x y hx hy _
          simp only [Option.some.injEq] at h; subst h
          cases ha : a.ty with
          | none => simp [ha] at hτ
          | some s =>
            cases hb : b.ty with
            | none => simp [ha, hb] at hτ
            | some u =>
              simp only [ha, hb] at hτ
              obtain ⟨-, -, -, -, hk⟩ := unifyInt_int hτ (iha s ha _ hx) (ihb u hb _ hy)
              exact hk _
      · simp at h
    | cmp op a b iha ihb =>
      have : τ = .bool := by
        simp only [RExpr.ty] at hτ
        split at hτ
        · simpa using hτ.symm
        · simp only [Option.map_eq_some_iff] at hτ
          obtain ⟨_, _, h⟩ := hτ
          exact h.symm
        · simp at hτ
      subst this
      simp only [RExpr.eval] at h
      split at h <;> simp at h <;> subst h <;> trivial
    | not a iha =>
      have : τ = .bool := by
        simp only [RExpr.ty] at hτ
        split at hτ <;> simp_all
      subst this
      simp only [RExpr.eval] at h
      split at h <;> simp at h; subst h; trivial
    | and a b iha ihb =>
      have : τ = .bool := by
        simp only [RExpr.ty] at hτ
        split at hτ <;> simp_all
      subst this
      simp only [RExpr.eval] at h
      split at h
      · simp at h; subst h; trivial
      · split at h <;> simp at h; subst h; trivial
      · simp at h
    | or a b iha ihb =>
      have : τ = .bool := by
        simp only [RExpr.ty] at hτ
        split at hτ <;> simp_all
      subst this
      simp only [RExpr.eval] at h
      split at h
      · simp at h; subst h; trivial
      · split at h <;> simp at h; subst h; trivial
      · simp at h
    | contains lo hi a iha =>
      have : τ = .bool := by
        simp only [RExpr.ty] at hτ
        split at hτ <;> simp_all
      subst this
      simp only [RExpr.eval] at h
      split at h <;> simp at h; subst h; trivial

theorem isTest_of_ty {po : PluralOperands} {e : RExpr} (h : e.ty = some .bool) : IsTest (e.eval po) := by
  rcases eval_ty po e _ h with h | ⟨v, h, hv⟩
  · exact .inl h
  · obtain ⟨b, rfl⟩ := hasTy_bool hv
    exact .inr ⟨b, h⟩

/-- Tests in order: until one is false. -/
def seqAnd : List (Option Val) → Option Val
  | [] => some (.bool true)
  | some (.bool true) :: l => seqAnd l
  | some (.bool false) :: _ => some (.bool false)
  | _ :: _ => none

/-- Tests in order: until one is true. -/
def seqOr : List (Option Val) → Option Val
  | [] => some (.bool false)
  | some (.bool false) :: l => seqOr l
  | some (.bool true) :: _ => some (.bool true)
  | _ :: _ => none

theorem seqAnd_isTest (l : List (Option Val)) : IsTest (seqAnd l) := by
  fun_induction seqAnd l with
  | case1 => exact .inr ⟨_, rfl⟩
  | case2 _ ih => exact ih
  | case3 => exact .inr ⟨_, rfl⟩
  | case4 => exact .inl rfl

theorem seqAnd_cons_test {v : Option Val} (h : IsTest v) (l : List (Option Val)) :
    seqAnd (v :: l) = if v = some (.bool true) then seqAnd l else v := by
  rcases h with rfl | ⟨b, rfl⟩
  · rfl
  · cases b <;> rfl

theorem seqOr_cons_test {v : Option Val} (h : IsTest v) (l : List (Option Val)) :
    seqOr (v :: l) = if v = some (.bool false) then seqOr l else v := by
  rcases h with rfl | ⟨b, rfl⟩
  · rfl
  · cases b <;> rfl

theorem eval_and {po : PluralOperands} {a b : RExpr} (ha : IsTest (a.eval po)) (hb : IsTest (b.eval po)) :
    (RExpr.and a b).eval po = if a.eval po = some (.bool true) then b.eval po else a.eval po := by
  simp only [RExpr.eval]
  rcases ha with h | ⟨x, h⟩ <;> rcases hb with h' | ⟨y, h'⟩ <;> (try cases x) <;> simp [h, h']

theorem eval_or {po : PluralOperands} {a b : RExpr} (ha : IsTest (a.eval po)) (hb : IsTest (b.eval po)) :
    (RExpr.or a b).eval po = if a.eval po = some (.bool false) then b.eval po else a.eval po := by
  simp only [RExpr.eval]
  rcases ha with h | ⟨x, h⟩ <;> rcases hb with h' | ⟨y, h'⟩ <;> (try cases x) <;> simp [h, h']

theorem foldl_and_eval {po : PluralOperands} (l : List RExpr) (e : RExpr) (he : IsTest (e.eval po))
    (hl : ∀ t ∈ l, IsTest (t.eval po)) : (l.foldl .and e).eval po = seqAnd (e.eval po :: l.map (·.eval po)) := by
  induction l generalizing e with
  | nil => rw [seqAnd_cons_test he]; simp only [List.foldl, List.map, seqAnd]; split <;> simp_all
  | cons t l ih =>
    have ht := hl t (by simp)
    have hand := eval_and he ht
    have hat : IsTest ((RExpr.and e t).eval po) := by rw [hand]; split <;> assumption
    simp only [List.foldl, List.map]
    rw [ih _ hat fun t ht => hl t (by simp [ht]), seqAnd_cons_test hat, seqAnd_cons_test he, seqAnd_cons_test ht, hand]
    split
    · rfl
    · simp

theorem foldl_or_eval {po : PluralOperands} (l : List RExpr) (e : RExpr) (he : IsTest (e.eval po))
    (hl : ∀ t ∈ l, IsTest (t.eval po)) : (l.foldl .or e).eval po = seqOr (e.eval po :: l.map (·.eval po)) := by
  induction l generalizing e with
  | nil => rw [seqOr_cons_test he]; simp only [List.foldl, List.map, seqOr]; split <;> simp_all
  | cons t l ih =>
    have ht := hl t (by simp)
    have hor := eval_or he ht
    have hat : IsTest ((RExpr.or e t).eval po) := by rw [hor]; split <;> assumption
    simp only [List.foldl, List.map]
    rw [ih _ hat fun t ht => hl t (by simp [ht]), seqOr_cons_test hat, seqOr_cons_test he, seqOr_cons_test ht, hor]
    split
    · rfl
    · simp

theorem seqAnd_flatten (ll : List (List (Option Val))) (h : ∀ l ∈ ll, ∀ v ∈ l, IsTest v) :
    seqAnd ll.flatten = seqAnd (ll.map seqAnd) := by
  induction ll with
  | nil => rfl
  | cons l ll ih =>
    have ih := ih fun l' hl' => h l' (by simp [hl'])
    have hl := h l (by simp)
    simp only [List.flatten_cons, List.map_cons]
    rw [seqAnd_cons_test (seqAnd_isTest l), ← ih]
    clear ih h
    induction l with
    | nil => simp [seqAnd]
    | cons v l ih =>
      have hv := hl v (by simp)
      rw [List.cons_append, seqAnd_cons_test hv, seqAnd_cons_test hv, ih fun v hv => hl v (by simp [hv])]
      rcases hv with rfl | ⟨b, rfl⟩
      · simp
      · cases b <;> simp

/-- The value of the code of a relation. -/
def relValue (po : PluralOperands) (r : Relation) : Option Val := seqAnd ((relationTests r).map (·.eval po))

theorem relationTests_isTest (po : PluralOperands) (r : Relation) : ∀ t ∈ relationTests r, IsTest (t.eval po) :=
  fun t ht => isTest_of_ty (relationTests_ty r t ht)

theorem allOf_eval {po : PluralOperands} {l : List RExpr} {e : RExpr} (h : allOf l = some e) (hl : ∀ t ∈ l, IsTest (t.eval po)) :
    e.eval po = seqAnd (l.map (·.eval po)) := by
  cases l with
  | nil => simp [allOf] at h
  | cons a l =>
    simp only [allOf, Option.some.injEq] at h; subst h
    exact foldl_and_eval l a (hl a (by simp)) fun t ht => hl t (by simp [ht])

theorem anyOf_eval {po : PluralOperands} {l : List RExpr} {e : RExpr} (h : anyOf l = some e) (hl : ∀ t ∈ l, IsTest (t.eval po)) :
    e.eval po = seqOr (l.map (·.eval po)) := by
  cases l with
  | nil => simp [anyOf] at h
  | cons a l =>
    simp only [anyOf, Option.some.injEq] at h; subst h
    exact foldl_or_eval l a (hl a (by simp)) fun t ht => hl t (by simp [ht])

theorem andCondition_eval {po : PluralOperands} {a : AndCondition} {e : RExpr} (h : andCondition a = some e) :
    e.eval po = seqAnd (a.map (relValue po)) := by
  rw [allOf_eval h]
  · rw [List.map_flatten, seqAnd_flatten]
    · rw [List.map_map, List.map_map]; rfl
    · intro l hl v hv
      simp only [List.map_map, List.mem_map, Function.comp] at hl
      obtain ⟨r, -, rfl⟩ := hl
      obtain ⟨t, ht, rfl⟩ := List.mem_map.1 hv
      exact relationTests_isTest po r t ht
  · intro t ht
    obtain ⟨g, hg, ht⟩ := List.mem_flatten.1 ht
    obtain ⟨r, -, rfl⟩ := List.mem_map.1 hg
    exact relationTests_isTest po r t ht

theorem condition_eval {po : PluralOperands} {c : Condition} {e : RExpr} (hc : ∀ a ∈ c, ∃ e, andCondition a = some e)
    (h : condition c = some e) : e.eval po = seqOr (c.map fun a => seqAnd (a.map (relValue po))) := by
  have hfm : (c.filterMap andCondition).map (·.eval po) = c.map fun a => seqAnd (a.map (relValue po)) := by
    clear h
    induction c with
    | nil => rfl
    | cons a c ih =>
      obtain ⟨f, hf⟩ := hc a (by simp)
      simp only [List.filterMap_cons, hf, List.map_cons]
      rw [ih fun a ha => hc a (by simp [ha]), andCondition_eval hf]
  rw [anyOf_eval h, hfm]
  intro t ht
  obtain ⟨a, -, ha⟩ := List.mem_filterMap.1 ht
  rw [andCondition_eval ha]
  exact seqAnd_isTest _

theorem relationTests_ne {r : Relation} (h : Listed r) : relationTests r ≠ [] := by
  intro h0
  obtain ⟨e, -, he⟩ := code_of_condition [[r]] ⟨by simp, by simpa using h⟩
  simp [condition, Intended.andCondition, h0, allOf, anyOf] at he

theorem andCondition_some {a : AndCondition} (ha : a ≠ []) (h : ∀ r ∈ a, Listed r) : ∃ e, andCondition a = some e := by
  cases a with
  | nil => contradiction
  | cons r a =>
    have := relationTests_ne (h r (by simp))
    cases ht : relationTests r with
    | nil => contradiction
    | cons t l => exact ⟨_, by simp only [Intended.andCondition, List.map_cons, ht, List.flatten_cons, List.cons_append, allOf]; rfl⟩

theorem code_unique {c : Condition} {e e' : RExpr} (h : Code c e) (h' : Code c e') : e = e' := by
  obtain ⟨ts, h1, h2⟩ := h
  obtain ⟨ts', h3, h4⟩ := h'
  rw [h1] at h3; cases h3
  rw [h2] at h4; cases h4
  rfl

theorem code_eval {c : Condition} (hc : AllRelations Listed c) {e : RExpr} (h : Code c e) (po : PluralOperands) :
    e.eval po = seqOr (c.map fun a => seqAnd (a.map (relValue po))) := by
  obtain ⟨e', h1, h2⟩ := code_of_condition c hc
  cases code_unique h h1
  exact condition_eval (fun a ha => andCondition_some (hc.2 a ha).1 (hc.2 a ha).2) h2

theorem seqOr_single {v : Option Val} (h : IsTest v) : seqOr [v] = v := by
  rcases h with rfl | ⟨b, rfl⟩
  · rfl
  · cases b <;> rfl

theorem seqAnd_single {v : Option Val} (h : IsTest v) : seqAnd [v] = v := by
  rcases h with rfl | ⟨b, rfl⟩
  · rfl
  · cases b <;> rfl

/-- The code of a relation alone. -/
theorem code_rel {r : Relation} (hr : Listed r) (po : PluralOperands) (v : Val) :
    (∃ e, Code [[r]] e ∧ e.eval po = some v) ↔ relValue po r = some v := by
  have hc : AllRelations Listed [[r]] := ⟨by simp, by simpa using hr⟩
  obtain ⟨e, h1, -⟩ := code_of_condition [[r]] hc
  have := code_eval hc h1 po
  simp only [List.map_cons, List.map_nil, seqOr_single (seqAnd_isTest _)] at this
  rw [seqAnd_single (v := relValue po r) (seqAnd_isTest _)] at this
  rw [← this]
  exact ⟨fun ⟨e', h, hv⟩ => by cases code_unique h h1; exact hv, fun h => ⟨e, h1, h⟩⟩

/-- The code of an and-condition alone. -/
theorem code_and {a : AndCondition} (ha : a ≠ []) (hr : ∀ r ∈ a, Listed r) (po : PluralOperands) (v : Val) :
    (∃ e, Code [a] e ∧ e.eval po = some v) ↔ seqAnd (a.map (relValue po)) = some v := by
  have hc : AllRelations Listed [a] := ⟨by simp, by simpa using ⟨ha, hr⟩⟩
  obtain ⟨e, h1, -⟩ := code_of_condition [a] hc
  have := code_eval hc h1 po
  simp only [List.map_cons, List.map_nil, seqOr_single (seqAnd_isTest _)] at this
  rw [← this]
  exact ⟨fun ⟨e', h, hv⟩ => by cases code_unique h h1; exact hv, fun h => ⟨e, h1, h⟩⟩

/-! ## Relations -/

theorem ordered_value {l : List RangeListItem} {k : Nat} (h : RangeListItem.value k ∈ l) : ∃ k' l', ordered l = .value k' :: l' := by
  have : RangeListItem.value k ∈ l.filter isValue := List.mem_filter.2 ⟨h, rfl⟩
  cases hl : l.filter isValue with
  | nil => rw [hl] at this; simp at this
  | cons x l' =>
    have hx : isValue x = true := (List.mem_filter.1 (hl ▸ List.mem_cons_self : x ∈ l.filter isValue)).2
    cases x with
    | value k' => exact ⟨k', l' ++ l.filter (fun x => !isValue x), by simp only [ordered, hl, List.cons_append]⟩
    | range _ _ => simp [isValue] at hx

/-- Every test of the first item panics. -/
theorem itemTests_zero (po : PluralOperands) (o : Operand) (x : RangeListItem) (b : Bool) (h : o ≠ .N ∨ isValue x = true) :
    ∃ t l, itemTests ⟨o, some 0⟩ b x = t :: l ∧ t.eval po = none := by
  cases x with
  | value k =>
    by_cases hN : o = .N
    · subst hN; exact ⟨_, [], rfl, by simp [valueTest, RExpr.eval, readField]⟩
    · exact ⟨_, [], rfl, by cases o <;> simp_all [valueTest, RExpr.eval, readField, leftSide]⟩
  | range lo hi =>
    have hN : o ≠ .N := by simpa [isValue] using h
    exact ⟨_, [], by simp only [itemTests, rangeTests, if_neg hN]; rfl, by
      cases b <;> cases o <;> simp_all [RExpr.eval, readField, leftSide]⟩

theorem withinTests_zero (po : PluralOperands) (o : Operand) (op : CmpOp) (l : List RangeListItem)
    (h : ∃ lo hi, RangeListItem.range lo hi ∈ l) : ∃ t l', withinTests ⟨o, some 0⟩ op l = t :: l' ∧ t.eval po = none := by
  induction l with
  | nil => simp at h
  | cons x l ih =>
    cases x with
    | value k =>
      simp only [List.mem_cons, reduceCtorEq, false_or] at h
      exact ih h
    | range lo hi => cases o <;> exact ⟨_, _, rfl, by simp [RExpr.eval, readField]⟩

theorem relValue_zero (po : PluralOperands) (r : Relation) (hr : Listed r) (h : DividesByZero r) : relValue po r = none := by
  obtain ⟨⟨o, m⟩, op, l⟩ := r
  obtain ⟨h1, h2⟩ := h
  simp only at h1 h2
  subst h1
  have key : (∃ t l', relationTests ⟨⟨o, some 0⟩, op, l⟩ = t :: l' ∧ t.eval po = none) → relValue po ⟨⟨o, some 0⟩, op, l⟩ = none := by
    rintro ⟨t, l', h, ht⟩
    simp only [relValue, h, List.map_cons, ht]
    rfl
  apply key
  by_cases hw : IsWithin op
  · have hl := hr.2 hw
    rcases hw with rfl | rfl <;> exact withinTests_zero po o _ l hl
  · have first : ∃ x l', ordered l = x :: l' ∧ (o ≠ .N ∨ isValue x = true) := by
      rcases h2 with h2 | h2 | ⟨k, h2⟩
      · cases ho : ordered l with
        | nil =>
          exfalso
          apply hr.1
          have : ∀ x ∈ l, x ∈ ordered l := fun x hx => by
            cases hv : isValue x <;> simp [ordered, hv, hx]
          cases l with
          | nil => rfl
          | cons x l => have := this x (by simp); rw [ho] at this; simp at this
        | cons x l' => exact ⟨x, l', rfl, .inl h2⟩
      · contradiction
      · obtain ⟨k', l', h⟩ := ordered_value h2
        exact ⟨_, l', h, .inr rfl⟩
    obtain ⟨x, l', ho, hx⟩ := first
    have pos : ∃ t l'', (match (ordered l).map (itemTests ⟨o, some 0⟩ true) with
        | [] => []
        | [tests] => tests
        | several => (anyOf (several.filterMap allOf)).toList) = t :: l'' ∧ t.eval po = none := by
      obtain ⟨t, lt, h1, h2⟩ := itemTests_zero po o x true hx
      rw [ho]
      cases l' with
      | nil => exact ⟨t, lt, by simp only [List.map_cons, List.map_nil, h1], h2⟩
      | cons y l' =>
        refine ⟨_, [], by simp only [List.map_cons, h1, List.filterMap_cons, allOf, anyOf, Option.toList]; rfl, ?_⟩
        have hlt : ∀ t' ∈ lt, IsTest (t'.eval po) := fun t' ht' =>
          isTest_of_ty (itemTests_ty ⟨o, some 0⟩ true x t' (by rw [h1]; simp [ht']))
        have hfirst : ((lt.foldl .and t).eval po) = none := by
          rw [foldl_and_eval lt t (.inl h2) hlt, h2]; rfl
        rw [foldl_or_eval _ _ (.inl hfirst)]
        · rw [hfirst]; rfl
        · intro t' ht'
          have : ∀ t' ∈ ((y :: l').map (itemTests ⟨o, some 0⟩ true)).filterMap allOf, IsTest (t'.eval po) := by
            intro t' ht'
            obtain ⟨g, hg, hge⟩ := List.mem_filterMap.1 ht'
            obtain ⟨z, -, rfl⟩ := List.mem_map.1 hg
            exact isTest_of_ty (allOf_ty (itemTests_ty _ true z) hge)
          exact this t' ht'
    have neg : ∃ t l'', ((ordered l).map (itemTests ⟨o, some 0⟩ false)).flatten = t :: l'' ∧ t.eval po = none := by
      obtain ⟨t, lt, h1, h2⟩ := itemTests_zero po o x false hx
      exact ⟨t, _, by rw [ho, List.map_cons, List.flatten_cons, h1]; rfl, h2⟩
    cases op with
    | Within => exact absurd (.inl rfl) hw
    | NotWithin => exact absurd (.inr rfl) hw
    | In => exact pos
    | Is => exact pos
    | EQ => exact pos
    | NotIn => exact neg
    | IsNot => exact neg
    | NotEQ => exact neg

theorem seqAnd_total {po : PluralOperands} {l : List RExpr} {b : Bool} (h : EvAll po l b) :
    ∃ b, seqAnd (l.map (·.eval po)) = some (.bool b) := by
  induction h with
  | nil => exact ⟨_, rfl⟩
  | cons h _ ih =>
    rename_i e a l b _
    unfold Ev at h
    simp only [List.map_cons, h]
    cases a
    · exact ⟨_, rfl⟩
    · exact ih

theorem relValue_total (po : PluralOperands) (r : Relation) (h : ¬ DividesByZero r) : ∃ b, relValue po r = some (.bool b) := by
  by_cases hm : r.expression.modulus = some 0
  · obtain ⟨⟨o, m⟩, op, l⟩ := r
    simp only at hm
    subst hm
    simp only [DividesByZero, true_and, not_or, not_not, not_exists] at h
    obtain ⟨rfl, hw, hv⟩ := h
    have hmap : ∀ b, (ordered l).map (itemTests ⟨.N, some 0⟩ b) = (ordered l).map (itemTests ⟨.N, some 1⟩ b) := by
      intro b
      refine List.map_congr_left fun x hx => ?_
      cases x with
      | value k =>
        have : RangeListItem.value k ∈ l := by
          simp only [ordered, List.mem_append, List.mem_filter] at hx
          rcases hx with hx | hx <;> exact hx.1
        exact absurd this (hv k)
      | range _ _ => rfl
    have : relationTests ⟨⟨.N, some 0⟩, op, l⟩ = relationTests ⟨⟨.N, some 1⟩, op, l⟩ := by
      cases op <;> simp [IsWithin] at hw <;> simp only [relationTests, hmap]
    obtain ⟨b, hb⟩ := evAll_total po _ (relationTests_ty ⟨⟨.N, some 1⟩, op, l⟩) (relationTests_noZero ⟨⟨.N, some 1⟩, op, l⟩ (by simp))
    simp only [relValue, this]
    exact seqAnd_total hb
  · obtain ⟨b, hb⟩ := evAll_total po _ (relationTests_ty r) (relationTests_noZero r hm)
    exact seqAnd_total hb

theorem seqAnd_none (l : List (Option Val)) (h : ∀ v ∈ l, IsTest v) :
    seqAnd l = none ↔ ∃ before after, l = before ++ none :: after ∧ ∀ v ∈ before, v = some (.bool true) := by
  induction l with
  | nil => simp [seqAnd]
  | cons v l ih =>
    have ih := ih fun v hv => h v (by simp [hv])
    rw [seqAnd_cons_test (h v (by simp))]
    constructor
    · intro h0
      split at h0
      · rename_i hv
        obtain ⟨p, q, rfl, hp⟩ := ih.1 h0
        exact ⟨v :: p, q, rfl, by simpa using ⟨hv, hp⟩⟩
      · subst h0; exact ⟨[], l, rfl, by simp⟩
    · rintro ⟨p, q, hpq, hp⟩
      cases p with
      | nil => simp at hpq; simp [hpq.1]
      | cons w p =>
        simp only [List.cons_append, List.cons.injEq] at hpq
        rw [if_pos (hpq.1 ▸ hp w (by simp))]
        exact ih.2 ⟨p, q, hpq.2, fun v hv => hp v (by simp [hv])⟩

theorem seqOr_none (l : List (Option Val)) (h : ∀ v ∈ l, IsTest v) :
    seqOr l = none ↔ ∃ before after, l = before ++ none :: after ∧ ∀ v ∈ before, v = some (.bool false) := by
  induction l with
  | nil => simp [seqOr]
  | cons v l ih =>
    have ih := ih fun v hv => h v (by simp [hv])
    rw [seqOr_cons_test (h v (by simp))]
    constructor
    · intro h0
      split at h0
      · rename_i hv
        obtain ⟨p, q, rfl, hp⟩ := ih.1 h0
        exact ⟨v :: p, q, rfl, by simpa using ⟨hv, hp⟩⟩
      · subst h0; exact ⟨[], l, rfl, by simp⟩
    · rintro ⟨p, q, hpq, hp⟩
      cases p with
      | nil => simp at hpq; simp [hpq.1]
      | cons w p =>
        simp only [List.cons_append, List.cons.injEq] at hpq
        rw [if_pos (hpq.1 ▸ hp w (by simp))]
        exact ih.2 ⟨p, q, hpq.2, fun v hv => hp v (by simp [hv])⟩

theorem map_split {α β : Type} (f : α → β) (l : List α) (p q : List β) (b : β) :
    l.map f = p ++ b :: q ↔ ∃ p' a q', l = p' ++ a :: q' ∧ p'.map f = p ∧ f a = b ∧ q'.map f = q := by
  constructor
  · intro h
    obtain ⟨p', r, rfl, rfl, hr⟩ := List.map_eq_append_iff.1 h
    obtain ⟨a, q', rfl, rfl, rfl⟩ := List.map_eq_cons_iff.1 hr
    exact ⟨p', a, q', rfl, rfl, rfl, rfl⟩
  · rintro ⟨p', a, q', rfl, rfl, rfl, rfl⟩
    simp

/-! ## The theorems -/

/-- C84: the code of a condition gives a boolean or panics, on any operands, and it panics exactly if it comes to a relation that
divides by zero: the and-conditions before are false, and so are not the relations before in the same and-condition. -/
theorem C84_panics_iff (c : Condition) (hc : AllRelations Listed c) (po : PluralOperands) :
    ∃ e, Code c e ∧ (e.eval po = none ∨ ∃ b, e.eval po = some (.bool b)) ∧
      (e.eval po = none ↔ ∃ before a after, c = before ++ a :: after ∧
        (∀ a' ∈ before, ∃ e', Code [a'] e' ∧ e'.eval po = some (.bool false)) ∧
        ∃ front r back, a = front ++ r :: back ∧ (∀ r' ∈ front, ∃ e', Code [[r']] e' ∧ e'.eval po = some (.bool true)) ∧
          DividesByZero r) := by
  obtain ⟨e, he, hi⟩ := code_of_condition c hc
  refine ⟨e, he, isTest_of_ty (condition_ty hi), ?_⟩
  rw [code_eval hc he, seqOr_none _ (by
    intro v hv
    obtain ⟨a, -, rfl⟩ := List.mem_map.1 hv
    exact seqAnd_isTest _)]
  have hand : ∀ a : AndCondition, (∀ r ∈ a, Listed r) → (seqAnd (a.map (relValue po)) = none ↔
      ∃ front r back, a = front ++ r :: back ∧ (∀ r' ∈ front, ∃ e', Code [[r']] e' ∧ e'.eval po = some (.bool true)) ∧
          DividesByZero r) := by
    intro a ha
    rw [seqAnd_none _ (by
      intro v hv
      obtain ⟨r, -, rfl⟩ := List.mem_map.1 hv
      exact seqAnd_isTest _)]
    constructor
    · rintro ⟨p, q, hpq, hp⟩
      obtain ⟨p', r, q', rfl, rfl, hr, rfl⟩ := (map_split _ _ _ _ _).1 hpq
      refine ⟨p', r, q', rfl, fun r' hr' => (code_rel (ha r' (by simp [hr'])) po _).2 (hp _ (List.mem_map_of_mem hr')), ?_⟩
      by_contra hz
      obtain ⟨b, hb⟩ := relValue_total po r hz
      rw [hr] at hb
      cases hb
    · rintro ⟨p', r, q', rfl, hp, hr⟩
      refine ⟨p'.map (relValue po), q'.map (relValue po), (map_split _ _ _ _ _).2 ⟨p', r, q', rfl, rfl,
        relValue_zero po r (ha r (by simp)) hr, rfl⟩, fun v hv => ?_⟩
      obtain ⟨r', hr', rfl⟩ := List.mem_map.1 hv
      exact (code_rel (ha r' (by simp [hr'])) po _).1 (hp r' hr')
  constructor
  · rintro ⟨p, q, hpq, hp⟩
    obtain ⟨p', a, q', rfl, rfl, ha, rfl⟩ := (map_split _ _ _ _ _).1 hpq
    exact ⟨p', a, q', rfl, fun a' ha' => (code_and (hc.2 a' (by simp [ha'])).1 (hc.2 a' (by simp [ha'])).2 po _).2
      (hp _ (List.mem_map_of_mem (f := fun a => seqAnd (a.map (relValue po))) ha')), (hand a (hc.2 a (by simp)).2).1 ha⟩
  · rintro ⟨p', a, q', rfl, hp, ha⟩
    refine ⟨_, _, (map_split _ _ _ _ _).2 ⟨p', a, q', rfl, rfl, (hand a (hc.2 a (by simp)).2).2 ha, rfl⟩, fun v hv => ?_⟩
    obtain ⟨a', ha', rfl⟩ := List.mem_map.1 hv
    exact (code_and (hc.2 a' (by simp [ha'])).1 (hc.2 a' (by simp [ha'])).2 po _).1 (hp a' ha')

/-- C84: without such a relation the code panics on no operands, not even on those that no number has. -/
theorem C84_never (c : Condition) (hc : AllRelations Listed c) (hz : ∀ a ∈ c, ∀ r ∈ a, ¬ DividesByZero r) :
    ∃ e, Code c e ∧ ∀ po, ∃ b, e.eval po = some (.bool b) := by
  obtain ⟨e, he, -⟩ := code_of_condition c hc
  refine ⟨e, he, fun po => ?_⟩
  obtain ⟨e', he', h1, h2⟩ := C84_panics_iff c hc po
  cases code_unique he he'
  refine h1.resolve_left fun h => ?_
  obtain ⟨p, a, q, rfl, -, f, r, b, rfl, -, hr⟩ := h2.1 h
  exact hz (f ++ r :: b) (by simp) r (by simp) hr

example : ∃ e, Code [[⟨⟨.N, some 0⟩, .EQ, [.range 2 4]⟩, ⟨⟨.I, some 10⟩, .EQ, [.value 2]⟩]] e ∧ ∀ po, ∃ b, e.eval po = some (.bool b) :=
  C84_never _ (by simp [AllRelations, Listed, IsWithin]) (by simp [DividesByZero, IsWithin])

/-- C84: if the first relation is one, the code panics on all operands. -/
theorem C84_always (r : Relation) (a : AndCondition) (c : Condition) (hc : AllRelations Listed ((r :: a) :: c)) (hr : DividesByZero r) :
    ∃ e, Code ((r :: a) :: c) e ∧ ∀ po, e.eval po = none := by
  obtain ⟨e, he, -⟩ := code_of_condition _ hc
  refine ⟨e, he, fun po => ?_⟩
  obtain ⟨e', he', -, h2⟩ := C84_panics_iff _ hc po
  cases code_unique he he'
  exact h2.2 ⟨[], _, c, rfl, by simp, [], r, a, rfl, by simp, hr⟩

example : ∃ e, Code [[⟨⟨.I, some 0⟩, .EQ, [.range 2 4]⟩], [⟨⟨.V, none⟩, .EQ, [.value 0]⟩]] e ∧ ∀ po, e.eval po = none :=
  C84_always _ _ _ (by simp [AllRelations, Listed, IsWithin]) (by simp [DividesByZero])

theorem evalArms_never {po : PluralOperands} {arms : List (RExpr × PluralCategory)} {d : PluralCategory}
    (h : ∀ a ∈ arms, ∃ b, a.1.eval po = some (.bool b)) : ∃ c, evalArms po arms d = some c := by
  induction arms with
  | nil => exact ⟨d, rfl⟩
  | cons a l ih =>
    obtain ⟨e, c⟩ := a
    obtain ⟨b, hb⟩ := h (e, c) (by simp)
    simp only at hb
    cases b
    · simp only [evalArms, hb]; exact ih fun a ha => h a (by simp [ha])
    · simp only [evalArms, hb]; exact ⟨c, rfl⟩

/-- C84: a generated function panics on no operands if no rule but that of OTHER divides by zero. -/
theorem C84_function (id : LangId) (hid : Writable id) (rules : RuleObj) (set : List (PluralCategory × List Tok))
    (hg : genLocaleRules (btree rules) = some set)
    (hl : ∀ name text part c, LastOf rules name text → ThirdPart name part → part ∈ categoryNames →
      ConditionOf 64 text c → AllRelations Listed c)
    (hz : ∀ name text c cond, LastOf rules name text → c ≠ .OTHER → ThirdPart name (cldrName c) →
      ConditionOf 64 text cond → ∀ a ∈ cond, ∀ r ∈ a, ¬ DividesByZero r) :
    ∃ f, readEntry (genMid id set) = some (id, f) ∧ ∀ po, ∃ c, f.call po = some c := by
  obtain ⟨f, h1, h2, -⟩ := C49_other_default id hid rules set hg hl
  refine ⟨f, h1, fun po => evalArms_never fun a ha => ?_⟩
  obtain ⟨e, c⟩ := a
  obtain ⟨hc, name, text, cond, h3, h4, h5, h6⟩ := (h2 e c).1 ha
  have hcat : cldrName c ∈ categoryNames := by cases c <;> first | contradiction | decide
  obtain ⟨e', h7, h8⟩ := C84_never cond (hl name text _ cond h3 h4 hcat h5) (hz name text c cond h3 hc h4 h5)
  cases code_unique h6 h7
  exact h8 po

/-- The value of the code of the condition that a text is read as. -/
def codeValue (text : Str) (po : PluralOperands) : Option (Option Val) :=
  (parsePluralCondition 64 text).toOption.bind fun c => (genPr c).bind fun ts => (parseExpr ts).map fun e => e.eval po

/-- Whether it panics, for 1 and for 1.5. -/
def panicsOn (text : Str) : Option (Bool × Bool) :=
  (codeValue text (fromUnsigned 1)).bind fun a =>
    ((tryFromStr c!"1.5").toOption.bind fun po => codeValue text po).map fun b => (a.isNone, b.isNone)

example : panicsOn c!"i % 0 = 1" = some (true, true) := by decide +kernel
example : panicsOn c!"n % 0 = 1" = some (true, true) := by decide +kernel
/-- The modulus is lost. -/
example : panicsOn c!"n % 0 = 1..5" = some (false, false) := by decide +kernel
example : panicsOn c!"n % 0 != 1..5, 7" = some (true, true) := by decide +kernel
/-- Not reached if `v = 0`. -/
example : panicsOn c!"v = 0 or i % 0 = 1" = some (false, true) := by decide +kernel
example : panicsOn c!"v = 0 and i % 0 = 1" = some (true, false) := by decide +kernel
example : panicsOn c!"n % 0 within 1..5" = some (true, true) := by decide +kernel

/-- What the generated function of rules for English answers: `some none` is a panic. -/
def answers (rules : RuleObj) (po : PluralOperands) : Option (Option PluralCategory) :=
  (genLocaleRules (btree rules)).bind fun set => (LangId.parse c!"en").bind fun id =>
    (readEntry (genMid id set)).map fun x => x.2.call po

/-- A rule of OTHER that divides by zero does not matter (C84_function), nor does a modulus that is lost. -/
def zeroInOther : RuleObj := [(c!"pluralRule-count-one", c!"n % 0 = 1..5"), (c!"pluralRule-count-other", c!"i % 0 = 1")]

/-- A rule that panics unless an earlier one holds: FEW is tested first. -/
def zeroInOne : RuleObj := [(c!"pluralRule-count-one", c!"i % 0 = 1"), (c!"pluralRule-count-few", c!"i = 7")]

example : answers zeroInOther (fromUnsigned 3) = some (some .ONE) ∧ answers zeroInOther (fromUnsigned 8) = some (some .OTHER) := by
  decide +kernel
example : answers zeroInOne (fromUnsigned 3) = some none ∧ answers zeroInOne (fromUnsigned 7) = some (some .FEW) := by
  decide +kernel

end Verif.Props
