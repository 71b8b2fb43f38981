import Verif.Props.Categories

/-!
# C26: trailing zeros
-/

namespace Verif.Props
open Verif Api Rust Uts35 Spec Sem Grammar PluralOperands Strings

/-! ## Specification -/

/-- The locales that see trailing zeros, with the digits before and after the point of a number that gets another category
when one zero is added. -/
def visibleZeros : PluralRuleType → List (Str × List (Fin 10) × List (Fin 10))
  | .CARDINAL => [(c!"ast", [1], []), (c!"bs", [1], []), (c!"ca", [1], []), (c!"ceb", [4], []), (c!"cs", [0], []),
      (c!"de", [1], []), (c!"dsb", [1], []), (c!"en", [1], []), (c!"et", [1], []), (c!"fi", [1], []), (c!"fil", [4], []),
      (c!"fy", [1], []), (c!"gl", [1], []), (c!"gv", [0], []), (c!"he", [1], []), (c!"hr", [1], []), (c!"hsb", [1], []),
      (c!"ia", [1], []), (c!"io", [1], []), (c!"it", [1], []), (c!"iw", [1], []), (c!"ji", [1], []), (c!"lv", [0], [1]),
      (c!"mk", [1], []), (c!"mo", [1], []), (c!"nl", [1], []), (c!"pl", [0], []), (c!"prg", [0], [1]), (c!"pt-PT", [1], []),
      (c!"ro", [1], []), (c!"ru", [0], []), (c!"sc", [1], []), (c!"scn", [1], []), (c!"sh", [1], []), (c!"si", [0], [1]),
      (c!"sk", [0], []), (c!"sl", [0], []), (c!"sr", [1], []), (c!"sv", [1], []), (c!"sw", [1], []), (c!"tl", [4], []),
      (c!"uk", [0], []), (c!"ur", [1], []), (c!"yi", [1], [])]
  | .ORDINAL => []

/-! ## Proofs -/

/-- The expression does not read `v`, and reads `f` only to compare it with 0. -/
def blind : RExpr → Bool
  | .field o => o != .V && o != .F
  | .int _ => true
  | .flt _ => true
  | .rem a b => blind a && blind b
  | .cmp op a b => ((op == .eq || op == .ne) && a == .field .F && b == .int 0) || (blind a && blind b)
  | .not a => blind a
  | .contains _ _ a => blind a
  | .and a b => blind a && blind b
  | .or a b => blind a && blind b

/-- The operands differ only in `v` and in the value of `f`. -/
structure SameBut (p q : PluralOperands) : Prop where
  n : p.n = q.n
  i : p.i = q.i
  w : p.w = q.w
  t : p.t = q.t
  f : p.f = 0 ↔ q.f = 0

theorem blind_eval {p q : PluralOperands} (h : SameBut p q) (e : RExpr) (hb : blind e = true) : e.eval p = e.eval q := by
  induction e with
  | field o =>
    cases o <;> simp [blind] at hb <;> simp [RExpr.eval, readField, h.n, h.i, h.w, h.t]
  | int => rfl
  | flt => rfl
  | rem a b iha ihb =>
    simp only [blind, Bool.and_eq_true] at hb
    simp only [RExpr.eval, iha hb.1, ihb hb.2]
  | cmp op a b iha ihb =>
    simp only [blind, Bool.or_eq_true, Bool.and_eq_true, beq_iff_eq] at hb
    rcases hb with ⟨⟨hop, rfl⟩, rfl⟩ | hb
    · have hf : (p.f == 0) = (q.f == 0) := by rw [Bool.eq_iff_iff]; simpa using h.f
      rcases hop with rfl | rfl <;> simp only [RExpr.eval, readField, cmpInt, Option.some.injEq, Val.bool.injEq]
      · exact hf
      · simp only [bne, hf]
    · simp only [RExpr.eval, iha hb.1, ihb hb.2]
  | not a ih =>
    simp only [blind] at hb
    simp only [RExpr.eval, ih hb]
  | and a b iha ihb =>
    simp only [blind, Bool.and_eq_true] at hb
    simp only [RExpr.eval, iha hb.1, ihb hb.2]
  | or a b iha ihb =>
    simp only [blind, Bool.and_eq_true] at hb
    simp only [RExpr.eval, iha hb.1, ihb hb.2]
  | contains lo hi a ih =>
    simp only [blind] at hb
    simp only [RExpr.eval, ih hb]

theorem blind_call {p q : PluralOperands} (h : SameBut p q) (f : Closure) (hb : f.arms.all (fun a => blind a.1) = true) :
    f.call p = f.call q := by
  simp only [Closure.call]
  obtain ⟨arms, last⟩ := f
  simp only at hb ⊢
  induction arms with
  | nil => rfl
  | cons a arms ih =>
    simp only [List.all_cons, Bool.and_eq_true] at hb
    obtain ⟨e, c⟩ := a
    simp only [evalArms, blind_eval h e hb.1, ih hb.2]

theorem blind_checked : ∀ t : PluralRuleType, (table t).all (fun e =>
    ((visibleZeros t).map (·.1)).contains (keyOf e.1) || e.2.arms.all fun a => blind a.1) = true := by
  intro t; cases t <;> decide +kernel

attribute [local irreducible] Flt.ofRat Flt.roundMag in
theorem eq_decOperands {po : PluralOperands} {ip fp : List (Fin 10)} (h : OperandsOf po (decOf ip fp)) : po = decOperands ip fp := by
  have h6 := h.n_eq
  obtain ⟨n, i, v, w, f, t⟩ := po
  obtain ⟨h1, h2, h3, h4, h5, -⟩ := h
  simp only at h1 h2 h3 h4 h5 h6
  simp only [decOperands, PluralOperands.mk.injEq]
  exact ⟨h6, h1, h2, h3, h4, h5⟩

theorem plain_decOperands (sign : Str) (hs : sign = [] ∨ sign = ['-']) (ip fp : List (Fin 10)) (hi : ip ≠ [])
    (hb : fp = [] → digitsNum ip ≤ 2 ^ 53) (po : PluralOperands) (h : tryFromStr (sign ++ plainText ip fp) = .ok po) :
    po = decOperands ip fp := by
  by_cases he : fp = []
  · subst he
    have h' := C12_integer sign hs ip hi (hb rfl)
    rw [plainText, if_pos rfl] at h
    have h3 := Except.ok.inj (h'.symm.trans h)
    clear h h'
    subst h3
    exact eq_decOperands (C08_operands (digitsNum ip))
  · rw [plainText, if_neg he, decText, sign_cases sign hs _ hi, ← decText, tryFromStr_dec _ _ hi] at h
    split_ifs at h
    exact (Except.ok.inj h).symm

theorem zeros_sameBut (sign : Str) (hs : sign = [] ∨ sign = ['-']) (ip fp : List (Fin 10)) (hi : ip ≠ [])
    (hb : fp = [] → digitsNum ip ≤ 2 ^ 53) (k : Nat) (po po' : PluralOperands)
    (h1 : tryFromStr (sign ++ plainText ip fp) = .ok po)
    (h2 : tryFromStr (sign ++ plainText ip (fp ++ List.replicate k 0)) = .ok po') : SameBut po po' := by
  have e1 := plain_decOperands sign hs ip fp hi hb po h1
  have e2 := plain_decOperands sign hs ip (fp ++ List.replicate k 0) hi (fun h => hb (List.append_eq_nil_iff.1 h).1) po' h2
  have e : digitsNum (fp ++ List.replicate k 0) = digitsNum fp * 10 ^ k := by
    rw [digitsNum_append, digitsNum_zeros]; simp
  subst e1; subst e2
  refine ⟨?_, rfl, ?_, ?_, ?_⟩
  · have e3 : allDigits (decOf ip (fp ++ List.replicate k 0)) = allDigits (decOf ip fp) * 10 ^ k := by
      simp only [allDigits, decOf, Dec.i, Dec.v, Dec.f, e, List.length_append, List.length_replicate, pow_add]; ring
    simp only [decOperands, e3, List.length_append, List.length_replicate, pow_add]
    unfold Flt.ofRat
    rw [Flt.roundMag_scale _ _ _ _ (by positivity)]
  · simp only [decOperands, dropTrailing_append]
  · simp only [decOperands, dropTrailing_append]
  · simp [decOperands, e]

/-- C26: but in the listed locales, zeros added after the fraction digits do not change the category. -/
theorem C26_blind (t : PluralRuleType) (id : LangId) (pr : PluralRules) (h : create id t = .ok pr)
    (hreg : ∀ x ∈ visibleZeros t, LangId.parse x.1 ≠ some id) (sign : Str) (hs : sign = [] ∨ sign = ['-'])
    (ip fp : List (Fin 10)) (hi : ip ≠ []) (hb : fp = [] → digitsNum ip ≤ 2 ^ 53) (k : Nat) (po po' : PluralOperands)
    (h1 : tryFromStr (sign ++ plainText ip fp) = .ok po)
    (h2 : tryFromStr (sign ++ plainText ip (fp ++ List.replicate k 0)) = .ok po') :
    select (ε := OpsErr) pr (.ok po) = select (ε := OpsErr) pr (.ok po') := by
  have hmem := ((C02_create_own_rule id t pr).1 h).2
  have hd := List.all_eq_true.1 (declares_checked t) _ hmem
  have he := List.all_eq_true.1 (blind_checked t) _ hmem
  simp only [Bool.or_eq_true] at he
  have hbl := he.resolve_left fun hc => by
    obtain ⟨x, hx, hx'⟩ := List.mem_map.1 (List.contains_iff_mem.1 hc)
    simp only [declaresCheck] at hd
    split at hd
    · simp at hd
    · rename_i p hp
      have hk := List.find?_some hp
      simp only [Bool.and_eq_true, beq_iff_eq] at hd hk
      exact hreg x hx (by rw [hx', ← hk]; exact hd.1)
  simp only [select, blind_call (zeros_sameBut sign hs ip fp hi hb k po po' h1 h2) _ hbl]

/-- C26: the listed locales all see a trailing zero. -/
theorem C26_visible (t : PluralRuleType) : ∀ x ∈ visibleZeros t, ∃ id pr c c', LangId.parse x.1 = some id ∧
    create id t = .ok pr ∧ select pr (tryFromStr (plainText x.2.1 x.2.2)) = some (.ok c) ∧
    select pr (tryFromStr (plainText x.2.1 (x.2.2 ++ [0]))) = some (.ok c') ∧ c ≠ c' := by
  have h : (visibleZeros t).all (fun x =>
      match LangId.parse x.1, (tryFromStr (plainText x.2.1 x.2.2)).toOption,
        (tryFromStr (plainText x.2.1 (x.2.2 ++ [0]))).toOption with
      | some id, some po, some po' =>
        match (table t).find? fun e => e.1 == id with
        | some e => match e.2.call po, e.2.call po' with
          | some c, some c' => c != c'
          | _, _ => false
        | none => false
      | _, _, _ => false) = true := by
    cases t <;> decide +kernel
  intro x hx
  have hx := List.all_eq_true.1 h x hx
  split at hx
  · rename_i id po po' hid hpo hpo'
    split at hx
    · rename_i e he
      split at hx
      · rename_i c c' hc hc'
        have hi := List.find?_some he
        simp only [beq_iff_eq] at hi
        have hok : ∀ s p, (tryFromStr s).toOption = some p → tryFromStr s = .ok p := by
          intro s p hp
          cases hq : tryFromStr s with
          | error e => rw [hq] at hp; simp [Except.toOption] at hp
          | ok q => rw [hq] at hp; simp [Except.toOption] at hp; rw [hp]
        refine ⟨id, ⟨id, e.2⟩, c, c', hid, ?_, ?_, ?_, by simpa using hx⟩
        · have := List.mem_of_find?_eq_some he
          exact (C02_create_own_rule id t _).2 ⟨rfl, by rw [← hi]; exact this⟩
        · rw [hok _ _ hpo]; simp only [select, hc]
        · rw [hok _ _ hpo']; simp only [select, hc']
      · simp at hx
    · simp at hx
  · simp at hx

/-- C26: a locale of the tables whose rules read only n, i, w and t is not one of the listed ones. -/
theorem C26_rules (t : PluralRuleType) (key : Str) (rules : List (Str × Str)) (h : (key, rules) ∈ cldrData t)
    (hr : ∀ c text condition samples, (c!"pluralRule-count-" ++ cldrName c, text) ∈ rules →
      RuleText 64 text ⟨condition, samples⟩ → ∀ a ∈ condition, ∀ r ∈ a, r.expression.operand ≠ .V ∧ r.expression.operand ≠ .F) :
    ∀ x ∈ visibleZeros t, x.1 ≠ key := by
  have hc : (visibleZeros t).all (fun x =>
      match (cldrData t).find? fun p => p.1 == x.1 with
      | some p => match GenPr.mapPanic readRule p.2 with
        | some l => l.any fun y => y.2.any fun a => a.any fun r => r.expression.operand == .V || r.expression.operand == .F
        | none => false
      | none => false) = true := by
    cases t <;> decide +kernel
  rintro x hx rfl
  have hx := List.all_eq_true.1 hc x hx
  split at hx
  · rename_i p hp
    have hk := List.find?_some hp
    simp only [beq_iff_eq] at hk
    have hpm := List.mem_of_find?_eq_some hp
    have hp2 : p = (x.1, rules) := List.inj_on_of_nodup_map (C21_locales_are_keys t).2.2 hpm h hk
    subst hp2
    split at hx
    · rename_i l hl
      simp only [List.any_eq_true, Bool.or_eq_true, beq_iff_eq] at hx
      obtain ⟨⟨c, cond⟩, hy, a, ha, r, hr', hv⟩ := hx
      obtain ⟨⟨k, text⟩, hm, hrd⟩ := (mapPanic_mem hl).2 _ hy
      obtain ⟨hk', samples, ht⟩ := (readRule_iff _ c cond).1 hrd
      simp only at hk'; subst hk'
      have := hr c text cond samples hm ht a ha r hr'
      rcases hv with hv | hv
      · exact this.1 hv
      · exact this.2 hv
    · simp at hx
  · simp at hx

/-- A number and a locale of each kind. -/
example : (∀ x ∈ visibleZeros .CARDINAL, LangId.parse x.1 ≠ LangId.parse c!"fr") ∧
    (tryFromStr (plainText [1] [5])).toOption.map (·.v) = some 1 ∧
    (tryFromStr (plainText [1] ([5] ++ List.replicate 3 0))).toOption.map (·.v) = some 4 := by decide +kernel

end Verif.Props
