import Verif.Library
import Verif.Lemmas.Entry
import Verif.Lemmas.Conditions
import Verif.Lemmas.Eval

/-! Helper lemmas: entries that are no Rust code, and zero divisors of generated code. -/

namespace Verif.Lib
open Verif Rust Api Verif.Parser GenPr GenRs Generate RulesRead Gen Prec Eval Intended Spec

/-! ## Code that is not an expression -/

theorem brace_none (k : Nat) (r : List Tok) : pCmp k (symLBrace :: r) = none := by
  have hp : ∀ k, pPrimary k (symLBrace :: r) = none := by
    intro k
    cases k with
    | zero => rfl
    | succ k =>
      have h0 : rangeHead (symLBrace :: r) = none := rangeHead_none _ _ (by decide)
      unfold pPrimary
      rw [h0]
      rfl
  have hu : ∀ k, pUnary k (symLBrace :: r) = none := by
    intro k
    cases k with
    | zero => rfl
    | succ k => rw [← hp k]; rfl
  have hr : ∀ k, pRem k (symLBrace :: r) = none := by
    intro k
    cases k with
    | zero => rfl
    | succ k => rw [pRem, hu k]
  cases k with
  | zero => rfl
  | succ k => rw [pCmp, hr k]

/-- No expression, whatever comes after the block. -/
def NoExpr (ts : List Tok) : Prop := ∀ rest k, 10 * ts.length + 20 ≤ k → pOr k (ts ++ symLBrace :: rest) = none

theorem noExpr_of_not_full (c : Condition) (ts : List Tok) (h : genPr c = some ts) (hf : ¬ Full c) : NoExpr ts := by
  intro rest k hk0
  have eOr : ∀ k ts, pOr (k + 1) ts = match pAnd k ts with
    | none => none
    | some (a, r) => pOrTail k a r := fun _ _ => rfl
  have eAnd : ∀ k r, pAnd (k + 1) r = match pCmp k r with
    | none => none
    | some (a, r) => pAndTail k a r := fun _ _ => rfl
  obtain ⟨k, rfl⟩ : ∃ j, k = j + 2 := ⟨k - 2, by omega⟩
  by_cases hc : c = []
  · subst hc
    simp only [genPr, createCondition, mapPanic, Option.map_some, Option.some.injEq] at h
    subst h
    show pOr (k + 1 + 1) (symLBrace :: rest) = none
    rw [eOr, eAnd, brace_none]
  simp only [genPr, createCondition, Option.map_eq_some_iff] at h
  obtain ⟨v, hv, rfl⟩ := h
  have hbad : ∃ a ∈ c, a = [] ∨ ∃ r ∈ a, Empty r := by
    by_contra hcon
    refine hf ⟨hc, fun a ha => ⟨fun h => hcon ⟨a, ha, .inl h⟩, fun r hr hw hn => hcon ⟨a, ha, .inr ⟨r, hr, hw, hn⟩⟩⟩⟩
  have key : ∀ (c : Condition) (v : List (List Tok)), List.Forall₂ (fun r b => createAndCondition r = some b) c v →
      (∃ a ∈ c, a = [] ∨ ∃ r ∈ a, Empty r) → ∃ (l : Tests) (bad : List Tok) (n : Nat), (∀ p ∈ l, IsAnd p.1 p.2) ∧
        (∀ k rest, n ≤ k → pAnd k (bad ++ rest) = none) ∧
        sepBy symOr v = (match l with | [] => [] | _ => sepBy symOr (l.map (·.1)) ++ [symOr]) ++ bad ∧
        n ≤ 10 * bad.length + 11 := by
    intro c v hf
    induction hf with
    | nil => simp
    | @cons a b c v h1 hv ih =>
      intro he
      by_cases ha : a = [] ∨ ∃ r ∈ a, Empty r
      · refine ⟨[], sepBy symOr (b :: v), 10 * b.length + 11, by simp, ?_, rfl, ?_⟩
        · intro k rest hk
          obtain ⟨k, rfl⟩ : ∃ j, k = j + 1 := ⟨k - 1, by omega⟩
          rw [eAnd, sepBy_cons, List.append_assoc, and_bad a b h1 ha k (by omega)]
        · rw [sepBy_cons]; simp only [List.length_append]; omega
      · have he' : ∃ a ∈ c, a = [] ∨ ∃ r ∈ a, Empty r := by
          obtain ⟨r', hr', he'⟩ := he
          rcases List.mem_cons.1 hr' with rfl | hr'
          · exact absurd he' ha
          · exact ⟨r', hr', he'⟩
        obtain ⟨l, bad, n, g1, g2, g3, g4⟩ := ih he'
        obtain ⟨e, f1, f2, f3⟩ := and_tokens a b h1 (fun h => ha (.inl h)) (fun r hr hw hn => ha (.inr ⟨r, hr, hw, hn⟩))
        have hv' : v ≠ [] := by
          rintro rfl
          obtain ⟨r', hr', -⟩ := he'
          cases hv
          simp at hr'
        refine ⟨(b, e) :: l, bad, n, ?_, g2, ?_, g4⟩
        · intro p hp
          rcases List.mem_cons.1 hp with rfl | hp
          · exact f2.isAnd
          · exact g1 p hp
        · have hb : sepBy symOr (b :: v) = b ++ symOr :: sepBy symOr v := by
            cases v with
            | nil => contradiction
            | cons x v => rfl
          rw [hb, g3]
          cases l with
          | nil => simp [sepBy]
          | cons q l => simp [sepBy_cons, seps]
  obtain ⟨l, bad, n, g1, g2, g3, g4⟩ := key c v (mapPanic_some hv) hbad
  rw [g3] at hk0 ⊢
  cases l with
  | nil =>
    simp only [List.nil_append] at hk0 ⊢
    rw [eOr, g2 _ _ (by omega)]
  | cons p l =>
    simp only [List.map_cons, sepBy_cons, List.length_append, List.append_assoc, List.length_cons, List.length_nil] at hk0 ⊢
    have hst : Stops (seps symOr (l.map (·.1)) ++ ([symOr] ++ (bad ++ symLBrace :: rest))) ∧
        (seps symOr (l.map (·.1)) ++ ([symOr] ++ (bad ++ symLBrace :: rest))).head? ≠ some symAnd := by
      cases l with
      | nil => exact ⟨by simpa [seps] using stops_or _, by simp [seps]; decide⟩
      | cons q l => exact ⟨by simpa [seps] using stops_or _, by simp [seps]; decide⟩
    rw [eOr, g1 p (by simp) (k + 1) _ (by omega) hst.1 hst.2]
    exact orTail_bad l (fun q hq => g1 q (by simp [hq])) _ n (fun k hk => g2 k _ hk) _ _ (by omega)

theorem pChain_bad (set : List (PluralCategory × List Tok))
    (h : ∀ q ∈ set, (∃ e, IsOr q.2 e) ∨ NoExpr q.2) (c : PluralCategory) (ts : List Tok)
    (ht : (∃ e, IsOr ts e) ∨ NoExpr ts) (hb : NoExpr ts ∨ ∃ q ∈ set, NoExpr q.2) (k : Nat) (acc : List (RExpr × PluralCategory)) :
    pChain k (ts ++ (qCat c ++ restTokens set)) acc = none := by
  induction set generalizing c ts k acc with
  | nil =>
    have hn : NoExpr ts := by simpa using hb
    cases k with
    | zero => rfl
    | succ k =>
      have : pOr (fuelFor (ts ++ (qCat c ++ restTokens []))) (ts ++ (qCat c ++ restTokens [])) = none :=
        hn _ _ (by simp only [fuelFor, List.length_append]; omega)
      rw [pChain, this]
  | cons q set ih =>
    cases k with
    | zero => rfl
    | succ k =>
      have hbad : NoExpr ts → pChain (k + 1) (ts ++ (qCat c ++ restTokens (q :: set))) acc = none := by
        intro hn
        have : pOr (fuelFor (ts ++ (qCat c ++ restTokens (q :: set)))) (ts ++ (qCat c ++ restTokens (q :: set))) = none :=
          hn _ _ (by simp only [fuelFor, List.length_append]; omega)
        rw [pChain, this]
      rcases ht with ⟨e, he⟩ | hn
      · by_cases hn : NoExpr ts
        · exact hbad hn
        have hp : pOr (fuelFor (ts ++ (qCat c ++ restTokens (q :: set)))) (ts ++ (qCat c ++ restTokens (q :: set))) =
            some (e, qCat c ++ restTokens (q :: set)) := by
          refine he _ _ ?_ (Prec.stops_brace _) ?_ ?_
          · simp only [fuelFor, List.length_append]
            have : (qCat c).length = 5 := rfl
            omega
          · simp [qCat, symLBrace, symAnd]
          · simp [qCat, symLBrace, symOr]
        simp only [pChain, hp, pBlock_qCat]
        simp only [restTokens, and_self, if_true]
        refine ih (fun q hq => h q (by simp [hq])) q.1 q.2 (h q (by simp)) ?_ _ _
        rcases hb with hb | ⟨q', hq', hb⟩
        · exact absurd hb hn
        · rcases List.mem_cons.1 hq' with rfl | hq'
          · exact .inl hb
          · exact .inr ⟨q', hq', hb⟩
      · exact hbad hn

theorem parseBody_bad (set : List (PluralCategory × List Tok)) (hc : ∀ q ∈ set, q.1 ≠ .OTHER)
    (h : ∀ q ∈ set, (∃ e, IsOr q.2 e) ∨ NoExpr q.2) (hb : ∃ q ∈ set, NoExpr q.2) : parseBody (ruleTokens set) = none := by
  cases set with
  | nil => simp at hb
  | cons q rest =>
    rw [ruleTokens_cons q rest hc]
    have e : parseBody (Tok.id c!"if" :: (q.2 ++ (qCat q.1 ++ restTokens rest))) =
        pChain (Tok.id c!"if" :: (q.2 ++ (qCat q.1 ++ restTokens rest))).length (q.2 ++ (qCat q.1 ++ restTokens rest)) [] := by
      simp only [parseBody, if_true]
    rw [e]
    refine pChain_bad rest (fun q hq => h q (by simp [hq])) _ _ (h q (by simp)) ?_ _ _
    obtain ⟨q', hq', hb⟩ := hb
    rcases List.mem_cons.1 hq' with rfl | hq'
    · exact .inl hb
    · exact .inr ⟨q', hq', hb⟩

/-! ## Entries of identifiers with variants, and without a language -/

theorem genMid_variants (id : LangId) (set : List (PluralCategory × List Tok)) :
    genMid id set = genMid { id with variants := none } set := rfl

theorem readEntry_parsed {s : Str} {id : LangId} (h : LangId.parse s = some id) (hl : id.language ≠ none)
    (set : List (PluralCategory × List Tok)) :
    readEntry (genMid id set) = (parseBody (ruleTokens set)).map fun f => ({ id with variants := none }, f) := by
  rw [genMid_variants]
  have key := parse_ascii h
  obtain ⟨l, hl'⟩ := Option.ne_none_iff_exists'.1 hl
  exact readEntry_spec { id with variants := none } ⟨⟨l, hl', key.1 l hl'⟩, key.2.1, key.2.2, rfl⟩ set

theorem readEntry_und (id : LangId) (hl : id.language = none) (set : List (PluralCategory × List Tok)) :
    readEntry (genMid id set) = none := by
  obtain ⟨l, s, r, v⟩ := id
  simp only at hl
  subst hl
  have e : ∃ ts, genMid ⟨none, s, r, v⟩ set = [symOpen] ++ ([.id c!"langid", symNot, symOpen] ++ (.id c!"None" :: ts)) := by
    simp only [genMid, genLangid]
    exact ⟨_, by simp only [List.cons_append, List.nil_append, List.append_assoc]; rfl⟩
  obtain ⟨ts, e⟩ := e
  unfold readEntry
  rw [e, expect_append]
  simp only [readLangid, expect_append, readRaw]
  have : expect [.id c!"subtags", symPath, .id c!"Language", symPath, .id c!"from_raw_unchecked", symOpen] (.id c!"None" :: ts) = none := by
    simp [expect]
  rw [this]

/-! ## Predicates on expressions -/

theorem foldl_pred {f : RExpr → Bool} {op : RExpr → RExpr → RExpr} (h : ∀ a b, f (op a b) = (f a && f b)) (l : List RExpr)
    (e : RExpr) : f (l.foldl op e) = (f e && l.all f) := by
  induction l generalizing e with
  | nil => simp
  | cons x l ih => rw [List.foldl_cons, ih, h, List.all_cons, Bool.and_assoc]

theorem allOf_pred {f : RExpr → Bool} (h : ∀ a b, f (.and a b) = (f a && f b)) {l : List RExpr} {e : RExpr}
    (he : allOf l = some e) : f e = l.all f := by
  cases l with
  | nil => simp [allOf] at he
  | cons x l =>
    simp only [allOf, Option.some.injEq] at he; subst he
    rw [foldl_pred h, List.all_cons]

theorem anyOf_pred {f : RExpr → Bool} (h : ∀ a b, f (.or a b) = (f a && f b)) {l : List RExpr} {e : RExpr}
    (he : anyOf l = some e) : f e = l.all f := by
  cases l with
  | nil => simp [anyOf] at he
  | cons x l =>
    simp only [anyOf, Option.some.injEq] at he; subst he
    rw [foldl_pred h, List.all_cons]

theorem condition_pred {f : RExpr → Bool} (hand : ∀ a b, f (.and a b) = (f a && f b)) (hor : ∀ a b, f (.or a b) = (f a && f b))
    {c : Condition} {e : RExpr} (he : condition c = some e) :
    f e = true ↔ ∀ a ∈ c, ∀ r ∈ a, ∀ t ∈ relationTests r, f t = true := by
  rw [anyOf_pred hor he, List.all_eq_true]
  have key : ∀ (a : AndCondition) (x : RExpr), andCondition a = some x →
      (f x = true ↔ ∀ r ∈ a, ∀ t ∈ relationTests r, f t = true) := by
    intro a x hx
    rw [allOf_pred hand hx, List.all_eq_true]
    constructor
    · intro h r hr t ht
      exact h t (List.mem_flatten.2 ⟨_, List.mem_map.2 ⟨r, hr, rfl⟩, ht⟩)
    · intro h t ht
      obtain ⟨g, hg, ht⟩ := List.mem_flatten.1 ht
      obtain ⟨r, hr, rfl⟩ := List.mem_map.1 hg
      exact h r hr t ht
  constructor
  · intro h a ha r hr t ht
    cases hx : andCondition a with
    | none =>
      have h0 : (a.map relationTests).flatten = [] := by
        unfold Intended.andCondition allOf at hx
        split at hx
        · assumption
        · simp at hx
      have : t ∈ (a.map relationTests).flatten := List.mem_flatten.2 ⟨_, List.mem_map.2 ⟨r, hr, rfl⟩, ht⟩
      rw [h0] at this; simp at this
    | some x => exact (key a x hx).1 (h x (List.mem_filterMap.2 ⟨a, ha, hx⟩)) r hr t ht
  · intro h x hx
    obtain ⟨a, ha, hx⟩ := List.mem_filterMap.1 hx
    exact (key a x hx).2 (h a ha)

theorem tests_pred {f : RExpr → Bool} (hand : ∀ a b, f (.and a b) = (f a && f b)) (hor : ∀ a b, f (.or a b) = (f a && f b))
    (r : Relation) (h : ∀ b, ∀ x ∈ r.rangeList, ∀ t ∈ itemTests r.expression b x, f t = true)
    (hw : ∀ op, ∀ t ∈ withinTests r.expression op r.rangeList, f t = true) : ∀ t ∈ relationTests r, f t = true := by
  obtain ⟨e, op, l⟩ := r
  simp only at h hw
  have ho : ∀ x ∈ ordered l, x ∈ l := fun x hx => by
    simp only [ordered, List.mem_append, List.mem_filter] at hx
    rcases hx with hx | hx <;> exact hx.1
  have hp : ∀ t ∈ (match (ordered l).map (itemTests e true) with
      | [] => []
      | [tests] => tests
      | several => (anyOf (several.filterMap allOf)).toList), f t = true := by
    have hi : ∀ g ∈ (ordered l).map (itemTests e true), ∀ t ∈ g, f t = true := by
      intro g hg
      obtain ⟨x, hx, rfl⟩ := List.mem_map.1 hg
      exact h true x (ho x hx)
    generalize (ordered l).map (itemTests e true) = T at hi
    intro t ht
    match T, hi with
    | [], _ => simp at ht
    | [tests], hi => exact hi tests (by simp) t ht
    | x :: y :: T, hi =>
      simp only [Option.mem_toList] at ht
      rw [anyOf_pred hor ht, List.all_eq_true]
      intro s hs
      obtain ⟨g, hg, hge⟩ := List.mem_filterMap.1 hs
      rw [allOf_pred hand hge, List.all_eq_true]
      exact hi g hg
  have hn : ∀ t ∈ ((ordered l).map (itemTests e false)).flatten, f t = true := by
    intro t ht
    obtain ⟨g, hg, ht⟩ := List.mem_flatten.1 ht
    obtain ⟨x, hx, rfl⟩ := List.mem_map.1 hg
    exact h false x (ho x hx) t ht
  cases op with
  | Within => exact hw _
  | NotWithin => exact hw _
  | In => exact hp
  | Is => exact hp
  | EQ => exact hp
  | NotIn => exact hn
  | IsNot => exact hn
  | NotEQ => exact hn

/-! ## Remainders -/

/-- Every divisor is a literal. -/
def remLit : RExpr → Bool
  | .int _ => true
  | .flt _ => true
  | .field _ => true
  | .rem a (.int _) => remLit a
  | .rem _ _ => false
  | .cmp _ a b => remLit a && remLit b
  | .not a => remLit a
  | .and a b => remLit a && remLit b
  | .or a b => remLit a && remLit b
  | .contains _ _ a => remLit a

theorem noZero_of_remLit (e : RExpr) (h : remLit e = true) : noZeroDivisor e = noZeroRem e := by
  induction e with
  | int | flt | field => rfl
  | rem a b iha ihb =>
    cases b with
    | int k =>
      simp only [remLit] at h
      simp only [noZeroDivisor, noZeroRem, iha h, Bool.and_true]
      by_cases hk : k = 0
      · subst hk; simp
      · have : (RExpr.int k != RExpr.int 0) = true := by simpa using hk
        simp [this, hk]
    | _ => simp [remLit] at h
  | cmp op a b iha ihb =>
    simp only [remLit, Bool.and_eq_true] at h
    simp only [noZeroDivisor, noZeroRem, iha h.1, ihb h.2]
  | not a iha => exact iha h
  | and a b iha ihb =>
    simp only [remLit, Bool.and_eq_true] at h
    simp only [noZeroDivisor, noZeroRem, iha h.1, ihb h.2]
  | or a b iha ihb =>
    simp only [remLit, Bool.and_eq_true] at h
    simp only [noZeroDivisor, noZeroRem, iha h.1, ihb h.2]
  | contains lo hi a iha => exact iha h

theorem leftSide_remLit (o : Operand) (m : Option Nat) : remLit (leftSide o m) = true := by cases m <;> rfl

theorem itemTests_remLit (e : Expression) (positive : Bool) (x : RangeListItem) :
    ∀ t ∈ itemTests e positive x, remLit t = true := by
  obtain ⟨o, m⟩ := e
  have h1 := leftSide_remLit o m
  have h2 := leftSide_remLit .I m
  intro t ht
  by_cases hN : o = .N
  · subst hN
    cases x <;> cases m <;> cases positive <;> simp [itemTests, valueTest, rangeTests] at ht <;>
      first
        | (subst ht; simp_all [remLit, leftSide])
        | (rcases ht with ht | ht <;> subst ht <;> simp_all [remLit, leftSide])
  · cases x with
    | value k =>
      simp only [itemTests, valueTest, hN, if_false, List.mem_singleton] at ht
      subst ht; simp [remLit, h1]
    | range lo hi =>
      simp only [itemTests, rangeTests, hN, if_false, List.mem_singleton] at ht
      subst ht
      cases positive <;> simp [remLit, h1]

theorem withinTests_remLit (e : Expression) (op : CmpOp) (l : List RangeListItem) :
    ∀ t ∈ withinTests e op l, remLit t = true := by
  obtain ⟨o, m⟩ := e
  induction l with
  | nil => simp [withinTests]
  | cons x l ih =>
    cases x with
    | value k => exact ih
    | range lo hi =>
      intro t ht
      cases o <;> cases m <;> simp [withinTests] at ht <;> rcases ht with rfl | rfl <;> rfl

theorem relationTests_remLit (r : Relation) : ∀ t ∈ relationTests r, remLit t = true :=
  tests_pred (fun _ _ => rfl) (fun _ _ => rfl) r (fun b x _ => itemTests_remLit _ b x) fun op => withinTests_remLit _ op _

end Verif.Lib
