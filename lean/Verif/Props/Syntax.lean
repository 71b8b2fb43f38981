import Verif.Lemmas.UtsSyntax
import Verif.Props.Parser
import Verif.Props.Select

/-!
# C79: the parser and the published syntax of UTS #35

/repo/README.md:26 says that the parser "is fully compliant with UTS #35 version 33".  `UtsSyntax.UtsRule` is the published grammar.
-/

namespace Verif.Props
open Verif Verif.Parser Grammar Spec Uts35 Nom UtsSyntax

variable (bits : Nat)

/-- C79: the published syntax is unambiguous, and white space does not change the rule. -/
theorem C79_unique (s t : Str) (r r' : Rule) (h : UtsRule s r) (h' : UtsRule t r') (e : strip s = strip t) : r = r' :=
  rule_unique_strip h h' e

/-- C79: a published text that the parser accepts is read as published, except that samples without a condition are dropped. -/
theorem C79_reads (s : Str) (r r' : Rule) (h : UtsRule s r) (hp : parsePluralRule bits s = .ok r') :
    r' = if r.condition = [] then ⟨[], none⟩ else r := by
  cases parsePluralRule_ok.1 hp with
  | empty hn => rw [if_pos (noCondition_not_uts hn h)]
  | openCond ho => exact (open_not_uts ho h).elim
  | cond hc =>
    obtain rfl := rule_same h (.inl ⟨hc, rfl⟩)
    rw [if_neg (CondText.ok hc).1]
  | full hc ht =>
    obtain rfl := rule_same h (.inr ⟨_, _, _, rfl, hc, ht, rfl⟩)
    rw [if_neg (CondText.ok hc).1]

/-- A published text. -/
def publishedText : Str := c!"n % 10 = 1..3,\t5 and i is not 11 or v within 0 @integer 1~3, 5, … @decimal 1.5"

def publishedRule : Rule :=
  { condition := [[⟨⟨.N, some 10⟩, .EQ, [.range 1 3, .value 5]⟩, ⟨⟨.I, none⟩, .IsNot, [.value 11]⟩], [⟨⟨.V, none⟩, .Within, [.value 0]⟩]]
    samples := some ⟨some ⟨[⟨⟨1, none⟩, some ⟨3, none⟩⟩, ⟨⟨5, none⟩, none⟩], true⟩, some ⟨[⟨⟨1, some 5⟩, none⟩], false⟩⟩ }

theorem publishedText_ok : parsePluralRule 64 publishedText = .ok publishedRule := by with_unfolding_all rfl

/-- A relation of the published syntax has a list, and after `is` and `is not` it is one number. -/
def PublishedRelation (x : Relation) : Prop :=
  x.rangeList ≠ [] ∧ (x.operator = .Is ∨ x.operator = .IsNot → ∃ k, x.rangeList = [.value k])

/-- C79: what is accepted beyond the published syntax: relations without list, and lists and ranges after `is` and `is not`;
(for texts without a condition see C33: anything after `@`.) -/
theorem C79_extra (s : Str) (r : Rule) (hp : parsePluralRule bits s = .ok r) (hne : r.condition ≠ []) :
    (∃ r', UtsRule s r') ↔ ∀ a ∈ r.condition, ∀ x ∈ a, PublishedRelation x := by
  constructor
  · rintro ⟨r', h⟩
    have e := C79_reads bits s r' r h hp
    split at e
    · rw [e] at hne; simp at hne
    · subst e
      exact rule_published h
  · intro h
    have h1 : ∀ a ∈ r.condition, ∀ x ∈ a, IsOne x := fun a ha x hx => (h a ha x hx).2
    cases parsePluralRule_ok.1 hp with
    | empty => simp at hne
    | openCond ho =>
      obtain ⟨A, B, e, op, rfl, -, -⟩ := OpenCondText.shape ho
      exact absurd rfl (h (B ++ [⟨e, op, []⟩]) (by simp) ⟨e, op, []⟩ (by simp)).1
    | cond hc => exact ⟨_, rule_uts (x := ⟨_, none⟩) (.inl ⟨hc, rfl⟩) h1⟩
    | full hc ht => exact ⟨_, rule_uts (x := ⟨_, some _⟩) (.inr ⟨_, _, _, rfl, hc, ht, rfl⟩) h1⟩

theorem publishedText_uts : UtsRule publishedText publishedRule := by
  obtain ⟨r, h⟩ := (C79_extra 64 _ _ publishedText_ok (by simp [publishedRule])).2 (by
    simp [publishedRule, PublishedRelation])
  have e := C79_reads 64 _ _ _ h publishedText_ok
  split at e
  · exact absurd (congrArg Rule.condition e) (by simp [publishedRule])
  · rwa [e]

/-- Accepted, but not published: `is` with a list, a list missing. -/
example : (parsePluralRule 64 c!"n is 1..2,4").toOption = some ⟨[[⟨⟨.N, none⟩, .Is, [.range 1 2, .value 4]⟩]], none⟩ ∧
    ¬ ∃ r, UtsRule c!"n is 1..2,4" r := by
  have h : parsePluralRule 64 c!"n is 1..2,4" = .ok ⟨[[⟨⟨.N, none⟩, .Is, [.range 1 2, .value 4]⟩]], none⟩ := by with_unfolding_all rfl
  refine ⟨by rw [h]; rfl, fun hr => ?_⟩
  have := (C79_extra 64 _ _ h (by simp)).1 hr
  simp [PublishedRelation] at this

example : ¬ ∃ r, UtsRule c!"i =" r := fun hr => by
  have := (C79_extra 64 _ _ (C35_empty_list 64) (by simp)).1 hr
  simp [PublishedRelation] at this

/-- C79: every published text with a condition, its numbers below `2 ^ bits`, is read as published once its white space is changed. -/
theorem C79_respaced (s : Str) (r : Rule) (h : UtsRule s r) (hne : r.condition ≠ []) (hb : ruleNumbers (· < 2 ^ bits) r) :
    ∃ s', strip s' = strip s ∧ parsePluralRule bits s' = .ok r := by
  obtain ⟨s', h1, h2⟩ := rule_spaced h hne hb
  exact ⟨s', h2, parsePluralRule_ok.2 h1⟩

example : ∃ s', strip s' = strip publishedText ∧ parsePluralRule 64 s' = .ok publishedRule :=
  C79_respaced 64 _ _ publishedText_uts (by simp [publishedRule]) (C34_numbers 64 _ _ publishedText_ok)

/-- `n%10=1` is published syntax; the parser wants a blank before `10`. -/
example : UtsRule c!"n%10=1" ⟨[[⟨⟨.N, some 10⟩, .EQ, [.value 1]⟩]], none⟩ ∧
    (parsePluralRule 64 c!"n%10=1").toOption = none ∧ (parsePluralRule 64 c!"n% 10=1").isOk = true := by
  refine ⟨?_, by decide +kernel, by decide +kernel⟩
  have w : White [] := white_nil
  have h : Rel White ((c!"n" ++ (c!"%" ++ c!"10")) ++ (c!"=" ++ c!"1")) ⟨⟨.N, some 10⟩, .EQ, [.value 1]⟩ :=
    .list (.modulo (o := .N) ⟨[], w, rfl⟩ (.inr ⟨[], w, rfl⟩) ⟨[1, 0], by simp, ⟨[], w, by decide⟩, by decide⟩) (.eq ⟨[], w, rfl⟩)
      (.last (.value ⟨[1], by simp, ⟨[], w, by decide⟩, by decide⟩))
  exact RuleOf.cond (t := []) w (.last (.last h)) .none

/-- C79: but the parser is not fully compliant: no published text with a condition is accepted with white space before or after it. -/
theorem C79_rejected (s a : Str) (r : Rule) (h : UtsRule s r) (hne : r.condition ≠ []) (ha : White a) (ha' : a ≠ []) :
    UtsRule (a ++ s) r ∧ (∃ e, parsePluralRule bits (a ++ s) = .error e) ∧
    UtsRule (s ++ a) r ∧ (∃ e, parsePluralRule bits (s ++ a) = .error e) := by
  have key : ∀ t, UtsRule t r → ¬ (∃ x, RuleText bits t x) → ∃ e, parsePluralRule bits t = .error e := by
    intro t _ ht
    cases hp : parsePluralRule bits t with
    | error e => exact ⟨e, rfl⟩
    | ok x => exact (ht ⟨x, parsePluralRule_ok.1 hp⟩).elim
  have h1 := rule_pre ha h
  have h2 := rule_app ha h
  refine ⟨h1, key _ h1 ?_, h2, key _ h2 ?_⟩
  · rintro ⟨x, hx⟩
    obtain ⟨c, t, rfl⟩ := List.exists_cons_of_ne_nil ha'
    rcases rule_head hx with hn | ⟨o, u, e⟩
    · exact hne (noCondition_not_uts hn h1)
    · have hc := ha c (by simp)
      obtain ⟨rfl, -⟩ : c = operandLetter o ∧ _ := by simpa using e
      cases o <;> simp [operandLetter] at hc <;> revert hc <;> decide
  · rintro ⟨x, hx⟩
    obtain ⟨t, c, rfl⟩ := (List.eq_nil_or_concat' a).resolve_left ha'
    have hc := ha c (by simp)
    have hend : EndsIn (· = c) (s ++ (t ++ [c])) := ⟨s ++ t, c, by simp, rfl⟩
    have bad : ¬ EndsIn RuleEnd (s ++ (t ++ [c])) := by
      intro h
      obtain ⟨d, hd, rfl⟩ := endsIn_unique h hend
      exact ruleEnd_not_white hd hc
    generalize s ++ (t ++ [c]) = u at *
    cases hx with
    | empty hn => exact hne (noCondition_not_uts hn h2)
    | openCond ho => exact open_not_uts ho h2
    | cond h => exact bad (condText_ends h)
    | full _ h => exact bad ((samplesText_ends h).prepend _)

example : (parsePluralRule 64 (publishedText ++ c!" ")).toOption = none ∧ (parsePluralRule 64 (c!"\n" ++ publishedText)).toOption = none := by
  obtain ⟨-, -, -, e, h⟩ := C79_rejected 64 _ c!" " _ publishedText_uts (by simp [publishedRule]) (by simp [White, patternWhite]) (by simp)
  obtain ⟨-, ⟨e', h'⟩, -⟩ := C79_rejected 64 _ c!"\n" _ publishedText_uts (by simp [publishedRule]) (by simp [White, patternWhite]) (by simp)
  rw [h, h']
  exact ⟨rfl, rfl⟩

/-- C79: and where white space is not a blank or a tab the condition parser, which is the one that the code generator uses, drops the
rest without an error: `or` after a line break. -/
theorem C79_truncated_line (s t : Str) (c d : Condition) (hs : CondText bits s c) (ht : CondText bits t d)
    (hp : ∀ a ∈ c ++ d, ∀ x ∈ a, PublishedRelation x) :
    UtsRule (s ++ (c!"\nor " ++ t)) ⟨c ++ d, none⟩ ∧ parsePluralCondition bits (s ++ (c!"\nor " ++ t)) = .ok c := by
  constructor
  · have h1 := cond_uts hs (a := c!"\n") (fun a ha x hx => (hp a (by simp [ha]) x hx).2) (by simp [White, patternWhite])
    have h2 := cond_uts ht (fun a ha x hx => (hp a (by simp [ha]) x hx).2) white_nil
    rw [List.append_nil] at h2
    have h3 := RuleOf.cond (t := []) white_nil (sepText_join h1 (m := c!"or ") ⟨c!" ", by simp [White]; decide, rfl⟩ h2) .none
    simpa [UtsRule] using h3
  · refine C31_ignores bits s _ c hs ⟨?_, ?_⟩
    · intro c t e
      obtain ⟨rfl, -⟩ : '\n' = c ∧ _ := by simpa using e
      exact ⟨by decide, by decide⟩
    · intro c t sp hsp e
      cases sp with
      | nil =>
        obtain ⟨rfl, -⟩ : '\n' = c ∧ _ := by simpa using e
        exact ⟨by decide, by decide, by decide⟩
      | cons x sp =>
        obtain ⟨rfl, -⟩ : '\n' = x ∧ _ := by simpa using e
        rcases hsp '\n' (by simp) with h | h <;> cases h

/-- `n = 1` and `n = 2` on two lines. -/
example : (parsePluralCondition 64 c!"n = 1\nor n = 2").toOption = some [[⟨⟨.N, none⟩, .EQ, [.value 1]⟩]] ∧
    UtsRule c!"n = 1\nor n = 2" ⟨[[⟨⟨.N, none⟩, .EQ, [.value 1]⟩], [⟨⟨.N, none⟩, .EQ, [.value 2]⟩]], none⟩ := by
  have h : ∀ k, k < 2 ^ 64 → CondText 64 (c!"n = " ++ printNat k) [[⟨⟨.N, none⟩, .EQ, [.value k]⟩]] := fun k hk => by
    have := RelText.mk (bits := 64) (ExprText.plain .N) (a := c!" ") (by simp [Spaces]) .eq (b := c!" ") (by simp [Spaces])
      (.last (.value (printNat_text hk)))
    exact .last (.last (by simpa [operandLetter] using this))
  have e : printNat 1 = c!"1" ∧ printNat 2 = c!"2" := by decide +kernel
  have h1 := h 1 (by decide)
  have h2 := h 2 (by decide)
  rw [e.1] at h1
  rw [e.2] at h2
  obtain ⟨h3, h4⟩ := C79_truncated_line 64 _ _ _ _ h1 h2 (by simp [PublishedRelation])
  exact ⟨by rw [show c!"n = 1\nor n = 2" = c!"n = " ++ c!"1" ++ (c!"\nor " ++ (c!"n = " ++ c!"2")) from rfl, h4]; rfl, h3⟩

/-- C79: a range with blanks around the dots is read as its first number. -/
theorem C79_truncated_range (o : Operand) (a b : Nat) (ha : a < 2 ^ bits) :
    UtsRule (operandLetter o :: (c!" = " ++ (printNat a ++ (c!" .. " ++ printNat b)))) ⟨[[⟨⟨o, none⟩, .EQ, [.range a b]⟩]], none⟩ ∧
    parsePluralCondition bits (operandLetter o :: (c!" = " ++ (printNat a ++ (c!" .. " ++ printNat b)))) =
      .ok [[⟨⟨o, none⟩, .EQ, [.value a]⟩]] := by
  have w : White c!" " := by simp [White]; decide
  have num : ∀ (k : Nat) (u : Str), White u → UtsSyntax.Value White (printNat k ++ u) k := fun k u hu => by
    obtain ⟨bb, hbb⟩ : ∃ bb, k < 2 ^ bb := ⟨k, Nat.lt_two_pow_self⟩
    exact value_uts (printNat_text hbb) hu
  constructor
  · have hb := num b [] white_nil
    rw [List.append_nil] at hb
    have h1 : Item White ((printNat a ++ c!" ") ++ ((c!".." ++ c!" ") ++ printNat b)) (.range a b) :=
      .range (num a _ w) ⟨_, w, rfl⟩ hb
    have h2 : Rel White (([operandLetter o] ++ c!" ") ++ ((c!"=" ++ c!" ") ++ ((printNat a ++ c!" ") ++ ((c!".." ++ c!" ") ++ printNat b))))
        ⟨⟨o, none⟩, .EQ, [.range a b]⟩ := .list (.plain ⟨_, w, rfl⟩) (.eq ⟨_, w, rfl⟩) (.last h1)
    have h3 := RuleOf.cond (t := []) white_nil (.last (.last h2)) .none
    simpa [UtsRule] using h3
  · have hs : CondText bits (operandLetter o :: (c!" = " ++ printNat a)) [[⟨⟨o, none⟩, .EQ, [.value a]⟩]] := by
      have := RelText.mk (bits := bits) (ExprText.plain o) (a := c!" ") (by simp [Spaces]) .eq (b := c!" ") (by simp [Spaces])
        (.last (.value (printNat_text ha)))
      exact .last (.last (by simpa using this))
    have := C31_ignores bits _ (c!" .. " ++ printNat b) _ hs ⟨?_, ?_⟩
    · simpa using this
    · intro c t e
      obtain ⟨rfl, -⟩ : ' ' = c ∧ _ := by simpa using e
      exact ⟨by decide, by decide⟩
    · intro c t sp hsp e
      match sp with
      | [] =>
        obtain ⟨rfl, -⟩ : ' ' = c ∧ _ := by simpa using e
        exact ⟨by decide, by decide, by decide⟩
      | [x] =>
        obtain ⟨-, rfl, -⟩ : ' ' = x ∧ '.' = c ∧ _ := by simpa using e
        exact ⟨by decide, by decide, by decide⟩
      | x :: y :: sp =>
        obtain ⟨-, rfl, -⟩ : ' ' = x ∧ '.' = y ∧ _ := by simpa using e
        rcases hsp '.' (by simp) with h | h <;> cases h

/-- The published meaning of the text holds of 3, that of the parsed condition does not. -/
example : (parsePluralCondition 64 c!"n = 2 .. 4").toOption = some [[⟨⟨.N, none⟩, .EQ, [.value 2]⟩]] := by decide +kernel

/-! ## The shipped data -/

def publishedRelation (x : Relation) : Bool :=
  !x.rangeList.isEmpty && (!(x.operator == .Is || x.operator == .IsNot) ||
    match x.rangeList with
    | [.value _] => true
    | _ => false)

theorem publishedRelation_ok {x : Relation} (h : publishedRelation x = true) : PublishedRelation x := by
  obtain ⟨e, op, l⟩ := x
  simp only [publishedRelation, Bool.and_eq_true, Bool.or_eq_true, Bool.not_eq_true'] at h
  refine ⟨by simpa using h.1, fun hop => ?_⟩
  rcases h.2 with h | h
  · rcases hop with rfl | rfl <;> simp at h
  · simp only at h ⊢
    split at h
    · exact ⟨_, rfl⟩
    · cases h

def publishedCheck (text : Str) : Bool :=
  match parsePluralRule 64 text with
  | .error _ => false
  | .ok r =>
    if r.condition.isEmpty then
      match Verif.Parser.samples 64 text with
      | some ([], _) => true
      | _ => false
    else r.condition.all fun a => a.all publishedRelation

/-- C79: all rules of the shipped data are published syntax and are accepted. -/
theorem C79_shipped (t : Api.PluralRuleType) (key : Str) (rules : List (Str × Str)) (h : (key, rules) ∈ cldrData t) (name text : Str)
    (hr : (name, text) ∈ rules) :
    ∃ r, UtsRule text r ∧ parsePluralRule 64 text = .ok (if r.condition = [] then ⟨[], none⟩ else r) := by
  have hc : ∀ t, ((cldrData t).all fun p => p.2.all fun x => publishedCheck x.2) = true := by
    intro t; cases t <;> decide +kernel
  have hc := List.all_eq_true.1 (List.all_eq_true.1 (hc t) _ h) _ hr
  simp only [publishedCheck] at hc
  split at hc
  · cases hc
  · rename_i r hp
    split at hc
    · rename_i he
      have he : r.condition = [] := by simpa using he
      split at hc
      · rename_i x hx
        have hu : UtsRule text ⟨[], x⟩ := by
          rcases samples_sound hx with ⟨rfl, rfl⟩ | ⟨u, y, rfl, rfl, hs⟩
          · exact RuleOf.other (a := []) (t := []) white_nil .none
          · obtain ⟨b, v, hb, rfl, hv⟩ := samples_uts hs
            rw [List.append_nil]
            exact .other hb hv
        have e := C79_reads 64 _ _ _ hu hp
        exact ⟨_, hu, e ▸ hp⟩
      · cases hc
    · rename_i hne
      have hne : r.condition ≠ [] := by simpa using hne
      obtain ⟨r', h⟩ := (C79_extra 64 _ _ hp hne).2 fun a ha x hx => publishedRelation_ok (List.all_eq_true.1 (List.all_eq_true.1 hc a ha) x hx)
      have e := C79_reads 64 _ _ _ h hp
      exact ⟨r', h, e ▸ hp⟩

end Verif.Props
