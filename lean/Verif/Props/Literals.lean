import Verif.Props.Output

/-!
# C88: the number literals of generated files
-/

namespace Verif.Props
open Verif Api Rust Spec Generate GenPr GenRs Resource Verif.Grammar

/-- A literal that is in the range of its type: without suffix (an index of `u64` or `usize`, or the integer part of a float) or
with suffix `u64` below 2^64, with suffix `u32` below 2^32. -/
def FitsType (n : Nat) (suffix : Str) : Prop := ((suffix = [] ∨ suffix = c!"u64") ∧ n < 2 ^ 64) ∨ (suffix = c!"u32" ∧ n < 2 ^ 32)

def Fit (ts : List Tok) : Prop := ∀ n s, Tok.lit n s ∈ ts → FitsType n s

theorem fit_append {a b : List Tok} (ha : Fit a) (hb : Fit b) : Fit (a ++ b) := fun n s h =>
  (List.mem_append.1 h).elim (ha n s) (hb n s)

theorem fit_cons {t : Tok} {b : List Tok} (ht : ∀ n s, t = .lit n s → FitsType n s) (hb : Fit b) : Fit (t :: b) := fun n s h =>
  (List.mem_cons.1 h).elim (fun h => ht n s h.symm) (hb n s)

theorem fit_nil : Fit [] := fun _ _ h => by cases h

/-- Tokens without literals. -/
def noLit : Tok → Bool
  | .lit _ _ => false
  | _ => true

theorem fit_noLit {ts : List Tok} (h : ts.all noLit = true) : Fit ts := fun n s hm => by
  have := List.all_eq_true.1 h _ hm
  cases this

theorem noLit_ne {t : Tok} (h : noLit t = true) : ∀ n s, t = .lit n s → FitsType n s := by rintro n s rfl; cases h

theorem fit_sepBy {sep : Tok} (hs : noLit sep = true) {l : List (List Tok)} (h : ∀ x ∈ l, Fit x) : Fit (sepBy sep l) := by
  induction l with
  | nil => exact fit_nil
  | cons x l ih =>
    cases l with
    | nil => exact h x (by simp)
    | cons y l =>
      exact fit_append (h x (by simp)) (fit_cons (noLit_ne hs) (ih fun z hz => h z (by simp [List.mem_cons] at hz ⊢; tauto)))

theorem fit_number {k : Nat} (h : k < 2 ^ 64) : ∀ n s, convertLiteral k = .lit n s → FitsType n s := by
  rintro n s ⟨⟩; exact .inl ⟨.inl rfl, h⟩

theorem fit_one {k : Nat} (h : k < 2 ^ 64) : Fit [convertLiteral k] := fit_cons (fit_number h) fit_nil
theorem fit_float {k : Nat} (h : k < 2 ^ 64) : Fit (qFloat (convertLiteral k)) :=
  fit_cons (fit_number h) (fit_cons (by rintro n s ⟨⟩) (fit_one (k := 0) (by decide)))
theorem fit_field (o : Operand) : Fit (qField o) := fit_noLit (by cases o <;> rfl)
theorem fit_fieldMod (o : Operand) {m : Nat} (h : m < 2 ^ 64) : Fit (qFieldMod o (convertLiteral m)) :=
  fit_append (fit_field o) (fit_cons (by rintro n s ⟨⟩) (fit_one h))
theorem noLit_operator (o : Operator) : noLit (getOperatorSymbol o) = true := by cases o <;> rfl

theorem fit_values {l : List RangeListItem} (h : ∀ x ∈ l, itemNumbers (· < 2 ^ 64) x) :
    (∀ t ∈ (convertRangl l).1, ∃ n, t = convertLiteral n ∧ n < 2 ^ 64) ∧
    (∀ p ∈ (convertRangl l).2, ∃ a b, p = (convertLiteral a, convertLiteral b) ∧ a < 2 ^ 64 ∧ b < 2 ^ 64) := by
  induction l with
  | nil => exact ⟨by simp [convertRangl], by simp [convertRangl]⟩
  | cons x l ih =>
    have ih := ih fun y hy => h y (by simp [hy])
    have hx := h x (by simp)
    cases x with
    | value x =>
      refine ⟨fun t ht => ?_, ih.2⟩
      simp only [convertRangl, List.mem_cons] at ht
      rcases ht with rfl | ht
      · exact ⟨x, rfl, hx⟩
      · exact ih.1 t ht
    | range a b =>
      refine ⟨ih.1, fun t ht => ?_⟩
      simp only [convertRangl, List.mem_cons] at ht
      rcases ht with rfl | ht
      · exact ⟨a, b, rfl, hx⟩
      · exact ih.2 t ht

theorem fit_relation {r : Relation} (hr : relNumbers (· < 2 ^ 64) r) {ts : List Tok} (h : createRelation r = some ts) : Fit ts := by
  obtain ⟨hm, hl⟩ := hr
  obtain ⟨h1, h2⟩ := fit_values hl
  obtain ⟨⟨x, m⟩, o, l⟩ := r
  have ho := noLit_ne (noLit_operator o)
  have hn : ∀ t : Tok, noLit t = true → ∀ n s, t = .lit n s → FitsType n s := fun t => noLit_ne
  simp only at hm h1 h2
  unfold createRelation at h
  simp only at h
  split at h
  · cases hw : withinTokens ⟨x, m⟩ o (convertRangl l).2 with
    | none => simp [hw] at h
    | some t =>
      simp only [hw, Option.map_some, Option.some.injEq, sepBy] at h
      subst h
      cases hc : (convertRangl l).2 with
      | nil => simp [hc, withinTokens] at hw
      | cons p rest =>
        obtain ⟨a, b, rfl, ha, hb⟩ := h2 p (by simp [hc])
        have key : ∀ f g s, Fit f → Fit g → Fit s → Fit (f ++ getOperatorSymbol o :: s ++ symAnd :: s ++ getOperatorSymbol o :: g) :=
          fun f g s hf hg hs => fit_append (fit_append (fit_append hf (fit_cons ho hs)) (fit_cons (hn _ rfl) hs)) (fit_cons ho hg)
        rw [hc] at hw
        unfold withinTokens at hw
        cases m <;> by_cases hx : x = .N <;> simp only [hx, if_true, if_false, Option.some.injEq] at hw <;> subst hw
        · exact key _ _ _ (fit_float ha) (fit_float hb) (fit_field _)
        · exact key _ _ _ (fit_one ha) (fit_one hb) (fit_field _)
        · exact key _ _ _ (fit_one ha) (fit_one hb) (fit_fieldMod _ (hm _ rfl))
        · exact key _ _ _ (fit_one ha) (fit_one hb) (fit_fieldMod _ (hm _ rfl))
  · have hall : ∀ y ∈ (convertRangl l).1.map (valueTokens ⟨x, m⟩ o) ++ (convertRangl l).2.map (rangeTokens ⟨x, m⟩ o), Fit y := by
      intro y hy
      rcases List.mem_append.1 hy with hy | hy
      · obtain ⟨t, ht, rfl⟩ := List.mem_map.1 hy
        obtain ⟨n, rfl, hn⟩ := h1 t ht
        unfold valueTokens
        cases m <;> by_cases hx : x = .N <;> simp only [hx, if_true, if_false]
        · exact fit_append (fit_field _) (fit_cons ho (fit_float hn))
        · exact fit_append (fit_field _) (fit_cons ho (fit_one hn))
        · exact fit_append (fit_fieldMod _ (hm _ rfl)) (fit_cons ho (fit_one hn))
        · exact fit_append (fit_fieldMod _ (hm _ rfl)) (fit_cons ho (fit_one hn))
      · obtain ⟨p, hp, rfl⟩ := List.mem_map.1 hy
        obtain ⟨a, b, rfl, ha, hb⟩ := h2 p hp
        have kc : ∀ s, Fit s → Fit (qContains (convertLiteral a) (convertLiteral b) s) := fun s hs =>
          fit_cons (hn _ rfl) (fit_cons (fit_number ha) (fit_cons (hn _ rfl) (fit_cons (fit_number hb)
            (fit_append (a := [symClose, symDot, .id c!"contains", symOpen, symAmp, symOpen]) (fit_noLit rfl)
              (fit_append hs (fit_noLit rfl))))))
        have key : ∀ s p, Fit s → Fit p → Fit (if isPositive o then qContains (convertLiteral a) (convertLiteral b) s ++ p
            else symNot :: qContains (convertLiteral a) (convertLiteral b) s ++ p) := by
          intro s p hs hp
          split
          · exact fit_append (kc s hs) hp
          · exact fit_append (fit_cons (hn _ rfl) (kc s hs)) hp
        have hperim : Fit qPerim :=
          fit_append (a := [symAnd, .id c!"po", symDot, .id c!"f", .sym c!"=="]) (fit_noLit rfl) (fit_one (k := 0) (by decide))
        unfold rangeTokens
        cases m <;> by_cases hx : x = .N <;> simp only [hx, if_true, if_false]
        · exact key _ _ (fit_field _) hperim
        · exact key _ _ (fit_field _) fit_nil
        · exact key _ _ (fit_field _) fit_nil
        · exact key _ _ (fit_fieldMod _ (hm _ rfl)) fit_nil
    split at h
    · split at h
      · cases h; exact fit_append (fit_cons (hn _ rfl) (fit_sepBy rfl hall)) (fit_noLit rfl)
      · cases h; exact fit_sepBy rfl hall
    · cases h; exact fit_sepBy rfl hall

theorem fit_condition {c : Condition} (hc : ∀ a ∈ c, ∀ r ∈ a, relNumbers (· < 2 ^ 64) r) {ts : List Tok} (h : genPr c = some ts) : Fit ts := by
  unfold genPr createCondition at h
  obtain ⟨l, hl, rfl⟩ := Option.map_eq_some_iff.1 h
  refine fit_sepBy rfl fun x hx => ?_
  obtain ⟨a, ha, he⟩ := (mapPanic_mem hl).2 x hx
  obtain ⟨v, hv, rfl⟩ := Option.map_eq_some_iff.1 he
  refine fit_append (fit_cons (noLit_ne rfl) (fit_sepBy rfl fun y hy => ?_)) (fit_noLit rfl)
  obtain ⟨r, hr, he⟩ := (mapPanic_mem hv).2 y hy
  exact fit_relation (hc a ha r hr) he

theorem condition_numbers {s : Str} {c : Condition} (h : Verif.Parser.parsePluralCondition 64 s = .ok c) :
    ∀ a ∈ c, ∀ r ∈ a, relNumbers (· < 2 ^ 64) r := by
  unfold Verif.Parser.parsePluralCondition at h
  cases hp : Verif.Parser.parseCondition 64 s with
  | none => simp [hp] at h
  | some x =>
    obtain ⟨rest, c'⟩ := x
    simp only [hp, Except.ok.injEq] at h
    subst h
    by_cases hn : NoCondition s
    · rw [Verif.Parser.parseCondition_blank hn] at hp
      cases hp
      simp
    · rw [Verif.Parser.parseCondition_list hn] at hp
      obtain ⟨t, -, ht | ⟨ht, -⟩⟩ := Verif.Parser.conditionList_sound hp
      · exact (RuleText.cond ht).numbers.1
      · exact (RuleText.openCond ht).numbers.1

theorem fit_rules {r : List (Str × Str)} {set : List (PluralCategory × List Tok)} (h : genLocaleRules r = some set) : ∀ q ∈ set, Fit q.2 := by
  obtain ⟨l, hl, rfl⟩ := Option.map_eq_some_iff.1 h
  intro q hq
  obtain ⟨o, ho, hq⟩ := List.mem_filterMap.1 hq
  obtain ⟨p, -, hp⟩ := (mapPanic_mem hl).2 o ho
  rw [id_eq] at hq
  subst hq
  obtain ⟨_, cond, -, -, -, hc, hg⟩ := Gen.genRule_some p q hp
  exact fit_condition (condition_numbers hc) hg

theorem fit_cat (c : PluralCategory) : Fit (qCat c) := fit_noLit (by cases c <;> rfl)

theorem fit_return (c : PluralCategory) {e : List Tok} (h : Fit e) : Fit (createReturn c e) := by
  cases c <;> first | exact fit_cat _ | exact fit_append (fit_cons (noLit_ne rfl) h) (fit_cat _)

theorem fit_chain {set : List (PluralCategory × List Tok)} (h : ∀ q ∈ set, Fit q.2) : Fit (ruleTokens set) := by
  cases set with
  | nil => exact fit_cat _
  | cons p rest =>
    have key : ∀ (rest : List (PluralCategory × List Tok)) acc, (∀ q ∈ rest, Fit q.2) → Fit acc →
        Fit (rest.foldl (fun tokens q => tokens ++ .id c!"else" :: createReturn q.1 q.2) acc) := by
      intro rest
      induction rest with
      | nil => intro acc _ h; exact h
      | cons q rest ih =>
        intro acc hq ha
        exact ih _ (fun x hx => hq x (by simp [hx]))
          (fit_append ha (fit_cons (noLit_ne rfl) (fit_return _ (hq q (by simp)))))
    exact fit_append (key rest _ (fun q hq => h q (by simp [hq])) (fit_return _ (h p (by simp))))
      (fit_cons (noLit_ne rfl) (fit_cat _))

theorem fit_langid {s : Str} {id : LangId} (h : LangId.parse s = some id) : Fit (genLangid id) := by
  obtain ⟨h1, h2, h3⟩ := Gen.parse_ascii h
  have key : ∀ (kind : Str) (x : Str) (suf : Str), FitsType (LangId.rawOf x) suf →
      Fit (qPath [c!"subtags", kind, c!"from_raw_unchecked"] ++ [symOpen, .lit (LangId.rawOf x) suf, symClose]) := fun kind x suf hx =>
    fit_append (fit_noLit rfl) (fit_cons (noLit_ne rfl) (fit_cons (by rintro n s ⟨⟩; exact hx) (fit_noLit rfl)))
  have key' : ∀ (kind : Str) (x : Str), Ascii 4 x →
      Fit (.id c!"Some" :: symOpen :: qPath [c!"subtags", kind, c!"from_raw_unchecked"] ++
        [symOpen, .lit (LangId.rawOf x) c!"u32", symClose, symClose]) := fun kind x hx =>
    fit_append (fit_noLit rfl) (fit_cons (noLit_ne rfl) (fit_cons
      (by rintro n s ⟨⟩; exact .inr ⟨rfl, Gen.rawOf_lt 4 x hx⟩) (fit_noLit rfl)))
  have hnone : Fit [Tok.id c!"None"] := fit_noLit rfl
  obtain ⟨l, sc, r, v⟩ := id
  refine fit_append (fit_append (fit_append (fit_append (a := [.id c!"langid", symNot, symOpen]) (fit_noLit rfl) ?_)
    (fit_cons (noLit_ne rfl) ?_)) (fit_cons (noLit_ne rfl) ?_)) (fit_noLit rfl)
  · cases l with
    | none => exact hnone
    | some x => exact key _ x _ (.inl ⟨.inr rfl, Gen.rawOf_lt 8 x (h1 x rfl)⟩)
  · cases sc with
    | none => exact hnone
    | some x => exact key' _ x (h2 x rfl)
  · cases r with
    | none => exact hnone
    | some x => exact key' _ x (h3 x rfl)

theorem fit_entry {s : Str} {id : LangId} (h : LangId.parse s = some id) {set : List (PluralCategory × List Tok)}
    (hs : ∀ q ∈ set, Fit q.2) : Fit (genMid id set) :=
  fit_append (fit_append (fit_cons (noLit_ne rfl) (fit_langid h)) (fit_append
    (a := [.sym c!",", .sym c!"|", .id c!"po", .sym c!"|", symLBrace]) (fit_noLit rfl) (fit_chain hs))) (fit_noLit rfl)

theorem fit_streams {obj : TypeObj} {l : List (List Tok)} (h : genTypeRs LangId.parse obj = some l) : ∀ ts ∈ l, Fit ts := by
  obtain ⟨es, he, rfl⟩ := Option.map_eq_some_iff.1 h
  intro ts hts
  obtain ⟨p, hp, rfl⟩ := List.mem_map.1 hts
  unfold genTypeEntries at he
  cases hk : parseKeys LangId.parse (btree (obj.map fun p => (p.1, btree p.2))) with
  | none => simp [hk] at he
  | some rules =>
    simp only [hk] at he
    obtain ⟨q, hq, hg⟩ := (mapPanic_mem he).2 p hp
    obtain ⟨set, hset, rfl⟩ := Option.map_eq_some_iff.1 hg
    have hq' : q ∈ rules := (Maps.sortById_perm rules).mem_iff.1 hq
    unfold parseKeys at hk
    obtain ⟨k, -, hk⟩ := (mapPanic_mem hk).2 q hq'
    obtain ⟨id, hid, rfl⟩ := Option.map_eq_some_iff.1 hk
    exact fit_entry hid (fit_rules hset)

theorem fit_type (ty : RuleType) {l : List (List Tok)} (h : ∀ ts ∈ l, Fit ts) : Fit (createPrType ty l) :=
  fit_append (fit_append (fit_noLit (by cases ty <;> rfl)) (fit_sepBy rfl h)) (fit_noLit rfl)

theorem fit_head {n : Nat} (h : n < 2 ^ 64) : Fit (head n) := by
  intro k s hm
  have : Tok.lit k s ∈ head n → k = n ∧ s = [] := by
    simp [head, clippyAttr, qPath, symOpen, symClose, symNot, symPath, symAmp, symLBrace, symRBrace]
  obtain ⟨rfl, rfl⟩ := this hm
  exact .inl ⟨.inl rfl, h⟩

/-- C88: every number literal of a generated file is in the range of its type, so none overflows (on a target with 64-bit
pointers, if the generator ran on one). -/
theorem C88_literals (texts : List Str) (out : Str) (h : generateText LangId.parse texts = some out) (n : Nat) (suffix : Str)
    (hm : Tok.lit n suffix ∈ lex out) : FitsType n suffix := by
  unfold generateText at h
  cases hr : mapPanic parseResource texts with
  | none => simp [hr] at h
  | some rs =>
    simp only [hr] at h
    cases hg : generateTokens LangId.parse rs with
    | none => simp [generateRs, hg] at h
    | some toks =>
      obtain ⟨h1, h2⟩ := C58_lexes_back LangId.parse rs toks hg
      rw [h1, Option.some.injEq] at h
      rw [← h, h2] at hm
      obtain ⟨s, v, num, hl, hv, hn, -, -, rfl⟩ := Lemmas.generateTokens_parts LangId.parse rs toks hg
      obtain ⟨f1, f2, -⟩ := Lemmas.genLoop_from LangId.parse rs _ s hl
      have key : ∀ data (o : Option (List (List Tok))), Lemmas.From LangId.parse data none o → ∀ l, o = some l → ∀ ts ∈ l, Fit ts := by
        rintro data o (⟨-, rfl⟩ | ⟨obj, l', -, -, hobj, rfl⟩) l hl
        · cases hl
        · cases hl; exact fit_streams hobj
      refine fit_append (fit_head ?_) ?_ n suffix hm
      · unfold isizeAsU64; omega
      · intro n suffix hm
        obtain ⟨ts, hts, hm⟩ := List.mem_flatten.1 hm
        rcases List.mem_append.1 hts with hts | hts
        · obtain ⟨l, hl, rfl⟩ := List.mem_map.1 hts
          exact fit_type _ (key _ _ f1 l (Option.mem_toList.1 hl)) n suffix hm
        · obtain ⟨l, hl, rfl⟩ := List.mem_map.1 hts
          exact fit_type _ (key _ _ f2 l (Option.mem_toList.1 hl)) n suffix hm

/-- The largest literals of each kind: a negative version, eight letters, a script and a region, the largest number in a rule; one more
is not read as a number, so the list is empty, and the text is cut there. -/
example : ((generateText LangId.parse [c!"{\"supplemental\":{\"version\":{\"_number\":\"\",\"_unicodeVersion\":\"\",\"_cldrVersion\":\"-1\"},\"plurals-type-cardinal\":{\"zzzzzzzz-zzzz-zz\":{\"pluralRule-count-one\":\"i = 18446744073709551615\",\"pluralRule-count-two\":\"i = 18446744073709551616\"}}}}"]).map fun out =>
    (lex out).filterMap fun t => match t with | .lit n s => some (n, s) | _ => none) =
    some [(18446744073709551615, []), (0x7A7A7A7A7A7A7A7A, c!"u64"), (0x7A7A7A5A, c!"u32"), (0x5A5A, c!"u32"),
      (18446744073709551615, [])] := by decide +kernel

end Verif.Props
