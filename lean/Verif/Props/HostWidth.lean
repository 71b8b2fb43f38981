import Verif.Lemmas.Width
import Verif.Lemmas.Generate
import Verif.Props.Longest
import Verif.Props.Tables

/-!
# C90: the machine that runs the generator
-/

namespace Verif.Props
open Verif Rust Spec Uts35 Verif.Parser Verif.Grammar Generate GenPr GenRs Resource Maps Strings

/-- Every number written in the text is below the bound. -/
def NumbersBelow (bound : Nat) (s : Str) : Prop := ∀ a l z, s = a ++ digitText l ++ z → digitsNum l < bound

/-- If the text is a version number then it fits `isize` with `w` bits. -/
def VersionFits (w : Nat) (s : Str) : Prop := ∀ l,
  (s = digitText l ∨ s = '+' :: digitText l → digitsNum l < 2 ^ (w - 1)) ∧ (s = '-' :: digitText l → digitsNum l ≤ 2 ^ (w - 1))

/-- The version and all numbers in rules fit a machine with pointers of `w` bits. -/
def FileFits (w : Nat) (r : Generate.Resource) : Prop :=
  VersionFits w r.cldrVersion ∧ ∀ obj, r.cardinal = some obj ∨ r.ordinal = some obj →
    ∀ p ∈ obj, ∀ rule ∈ p.2, NumbersBelow (2 ^ w) rule.2

/-- C90: the parsers read a text in the same way on two machines if its numbers fit both. -/
theorem C90_parse (w w' : Nat) (s : Str) (h : NumbersBelow (2 ^ w) s) (h' : NumbersBelow (2 ^ w') s) :
    parsePluralCondition w s = parsePluralCondition w' s ∧ parsePluralRule w s = parsePluralRule w' s :=
  have hs := fun a l z e => And.intro (h a l z e) (h' a l z e)
  ⟨Width.condition_agree hs, Width.rule_agree hs⟩

theorem below_mono {w : Nat} (hw : w ≤ 64) {s : Str} (h : NumbersBelow (2 ^ w) s) : NumbersBelow (2 ^ 64) s :=
  fun a l z e => Nat.lt_of_lt_of_le (h a l z e) (Nat.pow_le_pow_right (by decide) hw)

theorem mapPanic_congr {f g : α → Option β} {l : List α} (h : ∀ a ∈ l, f a = g a) : mapPanic f l = mapPanic g l := by
  induction l with
  | nil => rfl
  | cons a l ih => simp only [mapPanic, h a (by simp), ih fun b hb => h b (by simp [hb])]

theorem lastOf_mem {m : List (Str × α)} {k : Str} {v : α} (h : LastOf m k v) : (k, v) ∈ m := by
  obtain ⟨b, a, rfl, -⟩ := h; simp

theorem genTypeRsOn_eq {w : Nat} (hw : w ≤ 64) (parseId : Str → Option LangId) (obj : TypeObj)
    (h : ∀ p ∈ obj, ∀ rule ∈ p.2, NumbersBelow (2 ^ w) rule.2) : genTypeRsOn w parseId obj = genTypeRs parseId obj := by
  unfold genTypeRsOn genTypeRs genTypeEntries
  cases hk : parseKeys parseId (btree (obj.map fun p => (p.1, btree p.2))) with
  | none => rfl
  | some rules =>
    simp only
    rw [mapPanic_congr (g := fun p => (genLocaleRules p.2).map fun s => (p.1, s)) fun p hp => ?_]
    have hp := (sortById_perm rules).mem_iff.1 hp
    obtain ⟨k, hm, -⟩ := (Gen.mem_parseKeys parseId hk p.1 p.2).1 hp
    have hm := lastOf_mem (((btree_spec _).2 _ _).1 hm)
    obtain ⟨q, hq, e⟩ := List.mem_map.1 hm
    have e := congrArg Prod.snd e
    simp only at e
    have : genLocaleRulesOn w (btree q.2) = genLocaleRules (btree q.2) := by
      unfold genLocaleRulesOn genLocaleRules
      rw [mapPanic_congr (g := genRule) fun rule hr => ?_]
      have hr := h q hq rule (lastOf_mem (((btree_spec _).2 rule.1 rule.2).1 hr))
      unfold genRuleOn genRule
      rw [(C90_parse w 64 rule.2 hr (below_mono hw hr)).1]
      rfl
    simp only [← e, this]

theorem parseSigned_fits {w : Nat} (hw : w ≤ 64) {s : Str} (h : VersionFits w s) : parseSigned w s = parseSigned 64 s := by
  have hp : (2 : Nat) ^ (w - 1) ≤ 2 ^ (64 - 1) := Nat.pow_le_pow_right (by decide) (by omega)
  unfold parseSigned
  by_cases he : (splitSign s).2.isEmpty
  · simp only [he, if_true]
  · by_cases ha : (splitSign s).2.all isDigit
    · obtain ⟨l, hl⟩ := all_digits _ ha
      obtain ⟨h1, h2⟩ := h l
      simp only [hl, digitsVal_digitText]
      have hcase : (s = digitText l ∨ s = '+' :: digitText l) ∧ (splitSign s).1 = false ∨ s = '-' :: digitText l ∧ (splitSign s).1 = true := by
        cases s with
        | nil => simp [splitSign] at hl he
        | cons c t =>
          unfold splitSign at hl ⊢
          dsimp only at hl ⊢
          by_cases c1 : c = '+'
          · rw [if_pos c1] at hl ⊢; simp only at hl; subst hl; subst c1; simp
          · rw [if_neg c1] at hl ⊢
            by_cases c2 : c = '-'
            · rw [if_pos c2] at hl ⊢; simp only at hl; subst hl; subst c2; simp
            · rw [if_neg c2] at hl ⊢; simp only at hl; rw [hl]; simp
      rcases hcase with ⟨e, hsgn⟩ | ⟨e, hsgn⟩
      · have := h1 e
        simp only [hsgn, this, Nat.lt_of_lt_of_le this hp]
        rfl
      · have := h2 e
        simp only [hsgn, this, Nat.le_trans this hp, if_true]
    · simp only [he, ha]; rfl

/-- C90: the generator writes the same text (or panics, as it does on a machine with pointers of 64 bits) on every
narrower machine on which the numbers of the files fit. -/
theorem C90_same (w : Nat) (hw : w ≤ 64) (parseId : Str → Option LangId) (rs : List Generate.Resource) (h : ∀ r ∈ rs, FileFits w r) :
    generateRsOn w parseId rs = generateRs parseId rs := by
  have hadd : ∀ old (x : Option TypeObj), (∀ obj, x = some obj → ∀ p ∈ obj, ∀ rule ∈ p.2, NumbersBelow (2 ^ w) rule.2) →
      addTypeOn w parseId old x = addType parseId old x := by
    intro old x hx
    cases x with
    | none => rfl
    | some obj =>
      simp only [addTypeOn, addType, genTypeRsOn_eq hw parseId obj (hx obj rfl)]
      rfl
  have hloop : ∀ rs s, (∀ r ∈ rs, FileFits w r) → genLoopOn w parseId s rs = genLoop parseId s rs := by
    intro rs
    induction rs with
    | nil => intro s _; rfl
    | cons r rs ih =>
      intro s hr
      have e : genStepOn w parseId s r = genStep parseId s r := by
        have hf := (hr r (by simp)).2
        simp only [genStepOn, genStep, hadd _ r.cardinal fun obj ho => hf obj (.inl ho),
          hadd _ r.ordinal fun obj ho => hf obj (.inr ho)]
        rfl
      have ih : ∀ s, genLoopOn w parseId s rs = genLoop parseId s rs := fun s => ih s fun x hx => hr x (by simp [hx])
      simp only [genLoopOn, genLoop, e, ih]
      rfl
  have hver : ∀ rs s t, genLoop parseId s rs = some t → ∀ v, t.version = some v → s.version = some v ∨ ∃ r ∈ rs, r.cldrVersion = v := by
    intro rs
    induction rs with
    | nil => rintro s t ⟨⟩ v hv; exact .inl hv
    | cons r rs ih =>
      intro s t ht v hv
      unfold genLoop at ht
      cases hs : genStep parseId s r with
      | none => simp [hs] at ht
      | some s' =>
        simp only [hs] at ht
        rcases ih s' t ht v hv with h1 | ⟨r', h1, h2⟩
        · refine .inr ⟨r, by simp, ?_⟩
          unfold genStep at hs
          split at hs
          · cases hs
          · cases h3 : addType parseId s.cardinal r.cardinal with
            | none => simp [h3] at hs
            | some c =>
              cases h4 : addType parseId s.ordinal r.ordinal with
              | none => simp [h3, h4] at hs
              | some o => simp only [h3, h4, Option.some.injEq] at hs; subst hs; exact Option.some.inj h1
        · exact .inr ⟨r', by simp [h1], h2⟩
  unfold generateRsOn generateRs generateTokens
  rw [hloop rs _ h]
  cases hl : genLoop parseId { version := none, cardinal := none, ordinal := none } rs with
  | none => rfl
  | some s =>
    simp only
    cases hv : s.version with
    | none => rfl
    | some v =>
      rcases hver rs _ s hl v hv with h1 | ⟨r, h1, rfl⟩
      · cases h1
      · simp only
        split
        · rfl
        · simp only [genFnOn, genFn, parseSigned_fits hw (h r h1).1]
          rfl

/-- The number at the front of the text does not fit. -/
theorem value_lost {w : Nat} {l : List (Fin 10)} (h : 2 ^ w ≤ digitsNum l) (u : Str) : value w (digitText l ++ u) = none := by
  have key : ∀ l : List (Fin 10), ∀ u, Nom.NoHead isDigit u → 2 ^ w ≤ digitsNum l → value w (digitText l ++ u) = none := by
    intro l u hu h
    have e := takeWhile_digits l u hu
    have hp : parseUnsigned w (digitText l) = none := by rw [parseUnsigned_digits, if_neg fun x => Nat.not_lt.2 h x.2]
    simp only [value, Nom.mapRes, Nom.digit1, e.1]
    split
    · rename_i heq
      split at heq
      · cases heq
      · cases heq; rw [hp]
    · rfl
  obtain ⟨l', hl'⟩ := all_digits (u.takeWhile isDigit) (by simp)
  have eu : u = digitText l' ++ u.dropWhile isDigit := by rw [← hl', List.takeWhile_append_dropWhile]
  rw [eu, ← List.append_assoc, ← digitText_append]
  refine key _ _ ?_ (Nat.le_trans h ?_)
  · intro c t e
    have := List.head?_dropWhile_not isDigit u
    rw [e] at this
    simpa using this
  · rw [digitsNum_append]
    exact Nat.le_trans (Nat.le_mul_of_pos_right _ (Nat.pow_pos (by decide))) (Nat.le_add_right _ _)

/-- C90: a number that does not fit is lost without an error: the condition before it is read, its last relation has an
empty list, and the text after the number is not looked at. -/
theorem C90_lost (w : Nat) (t : Str) (c : Condition) (ht : OpenCondText w t c) (l : List (Fin 10)) (h : 2 ^ w ≤ digitsNum l) (u : Str) :
    parsePluralCondition w (t ++ (digitText l ++ u)) = .ok c := by
  have hl : l ≠ [] := by rintro rfl; have := Nat.two_pow_pos w; simp [digitsNum] at h
  have hv := value_lost h u
  obtain ⟨d, l', rfl⟩ := List.exists_cons_of_ne_nil hl
  have e : digitText (d :: l') ++ u = digitChar d :: (digitText l' ++ u) := by rw [digitText_cons]; rfl
  have hd := isDigit_digitChar d
  have hs : Nom.NoHead Nom.isSpace (digitText (d :: l') ++ u) := by rw [e]; exact Nom.noHead_cons.2 (isDigit_not_space hd)
  have hn : Nom.NoHead (· == 'n') (digitText (d :: l') ++ u) := by rw [e]; exact Nom.noHead_cons.2 (digit_ne_n hd)
  generalize digitText (d :: l') ++ u = r at hv hs hn
  have hr : rangeList w r = some (r, []) := by
    simp [rangeList, Nom.separatedList, rangeListItem, Nom.alt, Nom.map, range, Nom.separatedPair, Nom.pair, hv]
  have hrel : ∀ s x, OpenText w s x → relation w (s ++ r) = some (r, x) := by
    intro s x hx
    obtain @⟨s, a, o, b, ex, op, h1, h2, h3, h4⟩ := hx
    have k1 := expr_complete (r := b ++ r) h1 h2 h3
    have k2 : Nom.space0 (a ++ (o ++ (b ++ r))) = some (o ++ (b ++ r), a) := by
      refine Nom.space0_of h2 ?_
      obtain ⟨ch, v, rfl, hc⟩ := h3.head
      exact Nom.noHead_cons.2 (opHead_cases hc).1
    obtain ⟨r1, y, k3, k4⟩ := op_complete h3 h4 hs hn
    have e' : (s ++ (a ++ (o ++ b))) ++ r = s ++ (a ++ (o ++ (b ++ r))) := by simp
    rw [e']
    exact Nom.map_of (Nom.pair_of k1 (Nom.pair_of k2 (Nom.pair_of k3 (Nom.pair_of k4 hr))))
  have hand : ∀ s x, OpenAnd w s x → andCondition w (s ++ r) = some (r, x) := fun s x hx =>
    and_list_complete hrel (fun _ _ h => h.head) (word_none_head hs) hx
  have hc : conditionList w (t ++ r) = some (r, c) :=
    cond_list_complete hand (fun _ _ h => OpenAnd.head h) (word_none_head hs) ht
  unfold parsePluralCondition
  rw [parseCondition_list (cond_not_blank (.inr ht)), hc]

/-- Numbers that are too large in the first and in the second relation; what follows is lost too. -/
example (l : List (Fin 10)) (h : 2 ^ 32 ≤ digitsNum l) :
    parsePluralCondition 32 (c!"i = " ++ (digitText l ++ c!" and n = 1")) = .ok [[⟨⟨.I, none⟩, .EQ, []⟩]] ∧
    parsePluralCondition 32 (c!"n = 1 or i != " ++ (digitText l ++ c!",3")) =
      .ok [[⟨⟨.N, none⟩, .EQ, [.value 1]⟩], [⟨⟨.I, none⟩, .NotEQ, []⟩]] := by
  have hs : Spaces c!" " := by simp [Spaces]
  have h1 : ValueText 32 c!"1" 1 := ⟨[1], by simp, by decide, by decide, by decide⟩
  have h2 : RelText 32 c!"n = 1" ⟨⟨.N, none⟩, .EQ, [.value 1]⟩ :=
    .mk (s := c!"n") (a := c!" ") (o := c!"=") (b := c!" ") (t := c!"1") (.plain .N) hs .eq hs (.last (.value h1))
  have h3 : OpenText 32 c!"i = " ⟨⟨.I, none⟩, .EQ, []⟩ :=
    .mk (s := c!"i") (a := c!" ") (o := c!"=") (b := c!" ") (.plain .I) hs .eq hs
  have h4 : OpenText 32 c!"i != " ⟨⟨.I, none⟩, .NotEQ, []⟩ :=
    .mk (s := c!"i") (a := c!" ") (o := c!"!=") (b := c!" ") (.plain .I) hs .ne hs
  refine ⟨C90_lost 32 _ _ (.last (.last h3)) l h _, C90_lost 32 _ _ ?_ l h _⟩
  exact SepText.cons (s := c!"n = 1") (m := c!" or ") (.last h2) ⟨c!" ", c!" ", ⟨hs, by simp⟩, ⟨hs, by simp⟩, rfl⟩ (.last (.last h4))

theorem parseSigned_versionFits {w : Nat} {s : Str} {n : Int} (h : parseSigned w s = some n) : VersionFits w s := by
  have hdig : ∀ l : List (Fin 10), splitSign (digitText l) = (false, digitText l) := by
    intro l
    cases l with
    | nil => rfl
    | cons d l => 
      obtain ⟨h1, h2⟩ := (by decide : ∀ d : Fin 10, digitChar d ≠ '+' ∧ digitChar d ≠ '-') d
      rw [digitText_cons]; simp [splitSign, h1, h2]
  have hall : ∀ l : List (Fin 10), (digitText l).all isDigit = true := by
    intro l; simp [digitText, isDigit_digitChar]
  intro l
  refine ⟨?_, ?_⟩
  · intro e
    have e : splitSign s = (false, digitText l) := by
      rcases e with rfl | rfl
      · exact hdig l
      · rfl
    simp only [parseSigned, e, hall, digitsVal_digitText] at h
    by_contra hc
    simp [hc] at h
  · rintro rfl
    have e : splitSign ('-' :: digitText l) = (true, digitText l) := rfl
    simp only [parseSigned, e, hall, digitsVal_digitText] at h
    by_contra hc
    simp [hc] at h

/-- C90: a version that does not fit makes the generator panic. -/
theorem C90_version (w : Nat) (parseId : Str → Option LangId) (rs : List Generate.Resource) (r : Generate.Resource) (hr : r ∈ rs)
    (h : ¬ VersionFits w r.cldrVersion) : generateRsOn w parseId rs = none := by
  have hstep : ∀ s r s', genStepOn w parseId s r = some s' → s'.version = some r.cldrVersion ∧ ∀ v, s.version = some v → v = r.cldrVersion := by
    intro s r s' hs
    unfold genStepOn at hs
    split at hs
    · cases hs
    · rename_i hcond
      refine ⟨?_, ?_⟩
      · cases h3 : addTypeOn w parseId s.cardinal r.cardinal with
        | none => simp [h3] at hs
        | some c =>
          cases h4 : addTypeOn w parseId s.ordinal r.ordinal with
          | none => simp [h3, h4] at hs
          | some o => simp only [h3, h4, Option.some.injEq] at hs; subst hs; rfl
      · intro v hv
        rw [hv] at hcond
        simpa using hcond
  have hloop : ∀ rs s t, genLoopOn w parseId s rs = some t →
      (∀ v, s.version = some v → t.version = some v) ∧ ∀ r ∈ rs, t.version = some r.cldrVersion := by
    intro rs
    induction rs with
    | nil => intro s t ht; cases ht; exact ⟨fun _ h => h, by simp⟩
    | cons r rs ih =>
      intro s t ht
      unfold genLoopOn at ht
      cases hs : genStepOn w parseId s r with
      | none => rw [hs] at ht; cases ht
      | some s' =>
        rw [hs] at ht
        obtain ⟨h1, h2⟩ := hstep _ _ _ hs
        obtain ⟨h3, h4⟩ := ih s' t ht
        refine ⟨fun v hv => ?_, fun r' hr' => ?_⟩
        · rw [h2 v hv]; exact h3 _ h1
        · rcases List.mem_cons.1 hr' with rfl | hr'
          · exact h3 _ h1
          · exact h4 _ hr'
  unfold generateRsOn
  cases hl : genLoopOn w parseId { version := none, cardinal := none, ordinal := none } rs with
  | none => rfl
  | some s =>
    simp only
    rw [(hloop rs _ s hl).2 r hr]
    simp only
    split
    · rfl
    · cases hp : parseSigned w r.cldrVersion with
      | some n => exact absurd (parseSigned_versionFits hp) h
      | none => simp only [genFnOn, hp]; rfl

example : ¬ VersionFits 32 c!"2147483648" := fun h =>
  absurd ((h [2, 1, 4, 7, 4, 8, 3, 6, 4, 8]).1 (.inl rfl)) (by decide)

/-! ## The shipped files -/

/-- A check of the numbers of a text; `acc` is the number that ends where the text begins. -/
def numbersBelow (bound : Nat) : Nat → Str → Bool
  | _, [] => true
  | acc, c :: t =>
    if isDigit c then
      let acc := acc * 10 + digitVal c
      acc < bound && numbersBelow bound acc t
    else numbersBelow bound 0 t

theorem numbersBelow_mono (bound : Nat) (s : Str) : ∀ a b, b ≤ a → numbersBelow bound a s = true → numbersBelow bound b s = true := by
  induction s with
  | nil => intro a b _ _; rfl
  | cons c t ih =>
    intro a b hb h
    unfold numbersBelow at h ⊢
    split at h
    · rename_i hc
      rw [if_pos hc]
      simp only [Bool.and_eq_true, decide_eq_true_eq] at h ⊢
      exact ⟨by omega, ih _ _ (by omega) h.2⟩
    · rename_i hc
      rw [if_neg hc]; exact h

theorem numbersBelow_run (bound : Nat) (l : List (Fin 10)) (z : Str) : ∀ a, a < bound → numbersBelow bound a (digitText l ++ z) = true →
    (digitText l).foldl (fun a c => a * 10 + digitVal c) a < bound := by
  induction l with
  | nil => intro a ha _; exact ha
  | cons d l ih =>
    intro a ha h
    rw [digitText_cons, List.cons_append] at h
    unfold numbersBelow at h
    rw [if_pos (isDigit_digitChar d)] at h
    simp only [Bool.and_eq_true, decide_eq_true_eq] at h
    rw [digitText_cons, List.foldl_cons]
    exact ih _ h.1 h.2

theorem numbersBelow_spec {bound : Nat} (hb : 0 < bound) {s : Str} (h : numbersBelow bound 0 s = true) : NumbersBelow bound s := by
  rintro a l z rfl
  have key : ∀ (a : Str) acc, numbersBelow bound acc (a ++ (digitText l ++ z)) = true → numbersBelow bound 0 (digitText l ++ z) = true := by
    intro a
    induction a with
    | nil => intro acc h; exact numbersBelow_mono _ _ _ _ (Nat.zero_le _) h
    | cons c a ih =>
      intro acc h
      rw [List.cons_append] at h
      unfold numbersBelow at h
      split at h
      · simp only [Bool.and_eq_true] at h; exact ih _ h.2
      · exact ih _ h
  rw [← digitsVal_digitText]
  exact numbersBelow_run bound l z 0 hb (key a 0 (by rw [← List.append_assoc]; exact h))

def objBelow (bound : Nat) (obj : TypeObj) : Bool := obj.all fun p => p.2.all fun rule => numbersBelow bound 0 rule.2

theorem shipped_below : (∃ obj, CldrData.cardinalResource.cardinal = some obj ∧ objBelow (2 ^ 20) obj = true) ∧
    CldrData.cardinalResource.ordinal = none ∧
    (∃ obj, CldrData.ordinalResource.ordinal = some obj ∧ objBelow (2 ^ 20) obj = true) ∧
    CldrData.ordinalResource.cardinal = none ∧ CldrData.cardinalResource.cldrVersion = c!"37" ∧
    CldrData.ordinalResource.cldrVersion = c!"37" :=
  ⟨⟨_, rfl, by decide +kernel⟩, rfl, ⟨_, rfl, by decide +kernel⟩, rfl, rfl, rfl⟩

theorem fits_37 {w : Nat} (hw : 20 ≤ w) : VersionFits w c!"37" := by
  intro l
  constructor
  · rintro (h | h)
    · have e : digitText l = digitText [3, 7] := h.symm
      rw [digitText_inj e]
      exact Nat.lt_of_lt_of_le (by decide : _ < 2 ^ 19) (Nat.pow_le_pow_right (by decide) (by omega))
    · cases h
  · intro h; cases h

/-- C90: the shipped data gives the same text on all machines with pointers of 20 to 64 bits. -/
theorem C90_shipped (w : Nat) (h1 : 20 ≤ w) (h2 : w ≤ 64) :
    generateRsOn w LangId.parse [CldrData.cardinalResource, CldrData.ordinalResource] =
      generateRs LangId.parse [CldrData.cardinalResource, CldrData.ordinalResource] := by
  obtain ⟨⟨o1, a1, a2⟩, a3, ⟨o2, b1, b2⟩, b3, v1, v2⟩ := shipped_below
  have key : ∀ obj, objBelow (2 ^ 20) obj = true → ∀ p ∈ obj, ∀ rule ∈ p.2, NumbersBelow (2 ^ w) rule.2 := by
    intro obj h p hp rule hr
    have := numbersBelow_spec (by decide) (List.all_eq_true.1 (List.all_eq_true.1 h p hp) rule hr)
    exact fun a l z e => Nat.lt_of_lt_of_le (this a l z e) (Nat.pow_le_pow_right (by decide) h1)
  refine C90_same w h2 _ _ fun r hr => ?_
  simp only [List.mem_cons, List.not_mem_nil, or_false] at hr
  rcases hr with rfl | rfl
  · refine ⟨v1 ▸ fits_37 h1, ?_⟩
    rw [a1, a3]
    rintro obj (h | h)
    · cases h; exact key _ a2
    · cases h
  · refine ⟨v2 ▸ fits_37 h1, ?_⟩
    rw [b1, b3]
    rintro obj (h | h)
    · cases h
    · cases h; exact key _ b2

/-- Rules and a version that fit 64 bits but not 32. -/
def wide (version rule : Str) : List Generate.Resource := [⟨version, some [(c!"en", [(c!"pluralRule-count-one", rule)])], none⟩]

/-- C90: with larger numbers the texts differ, without a panic; a larger version makes the generator panic. -/
theorem C90_differs : (∃ out out', generateRsOn 32 LangId.parse (wide c!"37" c!"i = 4294967296") = some out ∧
      generateRs LangId.parse (wide c!"37" c!"i = 4294967296") = some out' ∧ out ≠ out') ∧
    generateRsOn 32 LangId.parse (wide c!"2147483648" c!"i = 1") = none ∧
    generateRs LangId.parse (wide c!"2147483648" c!"i = 1") ≠ none := by
  have h : ((generateRsOn 32 LangId.parse (wide c!"37" c!"i = 4294967296")).bind fun a =>
      (generateRs LangId.parse (wide c!"37" c!"i = 4294967296")).map fun b => decide (a ≠ b)) = some true := by decide +kernel
  refine ⟨?_, by decide +kernel, by decide +kernel⟩
  obtain ⟨a, ha, h⟩ := Option.bind_eq_some_iff.1 h
  obtain ⟨b, hb, h⟩ := Option.map_eq_some_iff.1 h
  exact ⟨a, b, ha, hb, of_decide_eq_true h⟩

/-- A file with numbers that fit 32 bits, and one with a number that does not. -/
example : FileFits 32 ⟨c!"2147483647", some [(c!"en", [(c!"pluralRule-count-one", c!"i % 4294967295 = 1")])], none⟩ ∧
    ¬ FileFits 32 ⟨c!"37", some [(c!"en", [(c!"pluralRule-count-one", c!"i = 4294967296")])], none⟩ := by
  constructor
  · refine ⟨fun l => ⟨?_, ?_⟩, ?_⟩
    · rintro (h | h)
      · have e : digitText l = digitText [2, 1, 4, 7, 4, 8, 3, 6, 4, 7] := h.symm
        rw [digitText_inj e]; decide
      · cases h
    · intro h; cases h
    · rintro obj (h | h) p hp rule hr
      · cases h
        cases List.mem_singleton.1 hp
        cases List.mem_singleton.1 hr
        exact numbersBelow_spec (by decide) (by decide +kernel)
      · cases h
  · intro h
    have := h.2 _ (.inl rfl) _ List.mem_cons_self _ List.mem_cons_self c!"i = " [4, 2, 9, 4, 9, 6, 7, 2, 9, 6] [] rfl
    exact absurd this (by decide)

end Verif.Props
