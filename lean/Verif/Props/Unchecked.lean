import Verif.Props.Literals
import Verif.Props.Identifiers
import Verif.Props.Select
import Verif.Lemmas.Utf8
import Verif.Lemmas.Ids

/-!
# C110: what the unchecked constructors are given

Generated files build their identifiers in an `unsafe` block with constructors that do not check the subtags, which are integers whose
bytes are the characters, the first one lowest.
-/

namespace Verif.Props
open Verif Api Rust RulesRead Spec Generate GenPr GenRs Resource Verif.Grammar

/-- The bytes of the integer, from the lowest, are the characters of the text, and then zeros. -/
def Encodes (n : Nat) (s : Str) : Prop := ∀ i, n / 256 ^ i % 256 = (s[i]?.map Char.toNat).getD 0

/-- For instance. -/
example : Encodes 0x6C70 c!"pl" := by
  intro i
  rcases i with _ | _ | i
  · decide
  · decide
  · simp [Nat.div_eq_of_lt (show 0x6C70 < 256 ^ (i + 2) from lt_of_lt_of_le (by decide) (Nat.pow_le_pow_right (by decide) (by omega : 2 ≤ i + 2)))]

/-- The subtags as they are stored. -/
def StoredLanguage (s : Str) : Prop := LanguageTag s ∧ lower s = s ∧ s ≠ c!"und"
def StoredScript (s : Str) : Prop := ScriptTag s ∧ title s = s
def StoredRegion (s : Str) : Prop := RegionTag s ∧ upper s = s

/-- An integer that `subtags::Kind::from_raw_unchecked` may be given, with its type. -/
def Allowed (kind : Str) (n : Nat) (suffix : Str) : Prop := ∃ s, Encodes n s ∧
  (kind = c!"Language" ∧ suffix = c!"u64" ∧ StoredLanguage s ∨ kind = c!"Script" ∧ suffix = c!"u32" ∧ StoredScript s ∨
    kind = c!"Region" ∧ suffix = c!"u32" ∧ StoredRegion s)

/-- Wherever `from_raw_unchecked` is in the tokens, it is called on an integer that it may be given. -/
def CallsAllowed (ts : List Tok) : Prop := ∀ pre post, ts = pre ++ .id c!"from_raw_unchecked" :: post →
  ∃ pre' kind n suffix post', pre = pre' ++ [.id c!"subtags", symPath, .id kind, symPath] ∧
    post = symOpen :: .lit n suffix :: symClose :: post' ∧ Allowed kind n suffix

/-! ## Proofs -/

/-- Not one of the names. -/
def plain : Tok → Bool
  | .id x => x != c!"from_raw_unchecked" && x != c!"from_raw_parts_unchecked" && x != c!"unsafe"
  | _ => true

/-- Tokens outside the macro. -/
def Body (ts : List Tok) : Prop := CallsAllowed ts ∧ Tok.id c!"unsafe" ∉ ts ∧ Tok.id c!"from_raw_parts_unchecked" ∉ ts

theorem calls_append {a b : List Tok} (ha : CallsAllowed a) (hb : CallsAllowed b) : CallsAllowed (a ++ b) := by
  intro pre post h
  rcases List.append_eq_append_iff.1 h with ⟨p, h1, h2⟩ | ⟨p, h1, h2⟩
  · subst h1
    obtain ⟨pre', kind, n, suffix, post', rfl, h3⟩ := hb p post h2
    exact ⟨a ++ pre', kind, n, suffix, post', by simp, h3⟩
  · cases p with
    | nil =>
      rw [List.append_nil] at h1
      rw [List.nil_append] at h2
      obtain ⟨pre', kind, n, suffix, post', h3, -⟩ := hb [] post h2.symm
      simp at h3
    | cons t p =>
      simp only [List.cons_append, List.cons.injEq] at h2
      obtain ⟨rfl, rfl⟩ := h2
      obtain ⟨pre', kind, n, suffix, post', h3, h4, h5⟩ := ha pre p h1
      exact ⟨pre', kind, n, suffix, post' ++ b, h3, by simp [h4], h5⟩

theorem body_append {a b : List Tok} (ha : Body a) (hb : Body b) : Body (a ++ b) :=
  ⟨calls_append ha.1 hb.1, by simp [ha.2.1, hb.2.1], by simp [ha.2.2, hb.2.2]⟩

theorem calls_plain {ts : List Tok} (h : ∀ t ∈ ts, t ≠ .id c!"from_raw_unchecked") : CallsAllowed ts := fun pre post he =>
  absurd rfl (h (.id c!"from_raw_unchecked") (by rw [he]; simp))

theorem body_plain {ts : List Tok} (h : ∀ t ∈ ts, plain t = true) : Body ts :=
  ⟨calls_plain fun t ht he => by have := h t ht; rw [he] at this; exact absurd this (by decide),
    fun ht => absurd (h _ ht) (by decide), fun ht => absurd (h _ ht) (by decide)⟩

theorem body_all {ts : List Tok} (h : ts.all plain = true) : Body ts := body_plain (List.all_eq_true.1 h)

theorem body_cons {t : Tok} {b : List Tok} (ht : plain t = true) (hb : Body b) : Body (t :: b) :=
  body_append (a := [t]) (body_plain (by simpa using ht)) hb

theorem body_nil : Body [] := body_plain (by simp)

theorem body_sepBy {sep : Tok} (hs : plain sep = true) {l : List (List Tok)} (h : ∀ x ∈ l, Body x) : Body (sepBy sep l) := by
  induction l with
  | nil => exact body_nil
  | cons x l ih =>
    cases l with
    | nil => exact h x (by simp)
    | cons y l =>
      exact body_append (h x (by simp)) (body_cons hs (ih fun z hz => h z (by simp [List.mem_cons] at hz ⊢; tauto)))

theorem body_float (k : Nat) : Body (qFloat (convertLiteral k)) := body_all rfl
theorem body_one (k : Nat) : Body [convertLiteral k] := body_all rfl
theorem body_field (o : Operand) : Body (qField o) := body_all (by cases o <;> decide)
theorem body_fieldMod (o : Operand) (m : Nat) : Body (qFieldMod o (convertLiteral m)) :=
  body_append (body_field o) (body_cons rfl (body_one m))
theorem plain_operator (o : Operator) : plain (getOperatorSymbol o) = true := by cases o <;> rfl

theorem body_values (l : List RangeListItem) : (∀ t ∈ (convertRangl l).1, ∃ n, t = convertLiteral n) ∧
    (∀ p ∈ (convertRangl l).2, ∃ a b, p = (convertLiteral a, convertLiteral b)) := by
  induction l with
  | nil => exact ⟨by simp [convertRangl], by simp [convertRangl]⟩
  | cons x l ih =>
    cases x with
    | value x =>
      refine ⟨fun t ht => ?_, ih.2⟩
      simp only [convertRangl, List.mem_cons] at ht
      rcases ht with rfl | ht
      · exact ⟨x, rfl⟩
      · exact ih.1 t ht
    | range a b =>
      refine ⟨ih.1, fun t ht => ?_⟩
      simp only [convertRangl, List.mem_cons] at ht
      rcases ht with rfl | ht
      · exact ⟨a, b, rfl⟩
      · exact ih.2 t ht

theorem body_relation {r : Relation} {ts : List Tok} (h : createRelation r = some ts) : Body ts := by
  obtain ⟨⟨x, m⟩, o, l⟩ := r
  obtain ⟨h1, h2⟩ := body_values l
  have ho := plain_operator o
  unfold createRelation at h
  simp only at h
  split at h
  · cases hw : withinTokens ⟨x, m⟩ o (convertRangl l).2 with
    | none => simp [hw] at h
    | some t =>
      simp only [hw, Option.map_some, Option.some.injEq, sepBy] at h
      subst h
      cases hc : (convertRangl l).2 with
      | nil => simp [hc, withinTokens] at hw
      | cons p rest =>
        obtain ⟨a, b, rfl⟩ := h2 p (by simp [hc])
        have key : ∀ f g s, Body f → Body g → Body s → Body (f ++ getOperatorSymbol o :: s ++ symAnd :: s ++ getOperatorSymbol o :: g) :=
          fun f g s hf hg hs => body_append (body_append (body_append hf (body_cons ho hs)) (body_cons rfl hs)) (body_cons ho hg)
        rw [hc] at hw
        unfold withinTokens at hw
        cases m <;> by_cases hx : x = .N <;> simp only [hx, if_true, if_false, Option.some.injEq] at hw <;> subst hw
        · exact key _ _ _ (body_float a) (body_float b) (body_field _)
        · exact key _ _ _ (body_one a) (body_one b) (body_field _)
        · exact key _ _ _ (body_one a) (body_one b) (body_fieldMod _ _)
        · exact key _ _ _ (body_one a) (body_one b) (body_fieldMod _ _)
  · have hall : ∀ y ∈ (convertRangl l).1.map (valueTokens ⟨x, m⟩ o) ++ (convertRangl l).2.map (rangeTokens ⟨x, m⟩ o), Body y := by
      intro y hy
      rcases List.mem_append.1 hy with hy | hy
      · obtain ⟨t, ht, rfl⟩ := List.mem_map.1 hy
        obtain ⟨n, rfl⟩ := h1 t ht
        unfold valueTokens
        cases m <;> by_cases hx : x = .N <;> simp only [hx, if_true, if_false]
        · exact body_append (body_field _) (body_cons ho (body_float n))
        · exact body_append (body_field _) (body_cons ho (body_one n))
        · exact body_append (body_fieldMod _ _) (body_cons ho (body_one n))
        · exact body_append (body_fieldMod _ _) (body_cons ho (body_one n))
      · obtain ⟨p, hp, rfl⟩ := List.mem_map.1 hy
        obtain ⟨a, b, rfl⟩ := h2 p hp
        have kc : ∀ s, Body s → Body (qContains (convertLiteral a) (convertLiteral b) s) := fun s hs =>
          body_cons rfl (body_cons rfl (body_cons rfl (body_cons rfl
            (body_append (a := [symClose, symDot, .id c!"contains", symOpen, symAmp, symOpen]) (body_all rfl)
              (body_append hs (body_all rfl))))))
        have key : ∀ s p, Body s → Body p → Body (if isPositive o then qContains (convertLiteral a) (convertLiteral b) s ++ p
            else symNot :: qContains (convertLiteral a) (convertLiteral b) s ++ p) := by
          intro s p hs hp
          split
          · exact body_append (kc s hs) hp
          · exact body_append (body_cons rfl (kc s hs)) hp
        have hperim : Body qPerim := body_all rfl
        unfold rangeTokens
        cases m <;> by_cases hx : x = .N <;> simp only [hx, if_true, if_false]
        · exact key _ _ (body_field _) hperim
        · exact key _ _ (body_field _) body_nil
        · exact key _ _ (body_field _) body_nil
        · exact key _ _ (body_fieldMod _ _) body_nil
    split at h
    · split at h
      · cases h; exact body_append (body_cons rfl (body_sepBy rfl hall)) (body_all rfl)
      · cases h; exact body_sepBy rfl hall
    · cases h; exact body_sepBy rfl hall

theorem body_condition {c : Condition} {ts : List Tok} (h : genPr c = some ts) : Body ts := by
  unfold genPr createCondition at h
  obtain ⟨l, hl, rfl⟩ := Option.map_eq_some_iff.1 h
  refine body_sepBy rfl fun x hx => ?_
  obtain ⟨a, ha, he⟩ := (mapPanic_mem hl).2 x hx
  obtain ⟨v, hv, rfl⟩ := Option.map_eq_some_iff.1 he
  refine body_append (body_cons rfl (body_sepBy rfl fun y hy => ?_)) (body_all rfl)
  obtain ⟨r, hr, he⟩ := (mapPanic_mem hv).2 y hy
  exact body_relation he

theorem body_rules {r : List (Str × Str)} {set : List (PluralCategory × List Tok)} (h : genLocaleRules r = some set) : ∀ q ∈ set, Body q.2 := by
  obtain ⟨l, hl, rfl⟩ := Option.map_eq_some_iff.1 h
  intro q hq
  obtain ⟨o, ho, hq⟩ := List.mem_filterMap.1 hq
  obtain ⟨p, -, hp⟩ := (mapPanic_mem hl).2 o ho
  rw [id_eq] at hq
  subst hq
  obtain ⟨_, cond, -, -, -, hc, hg⟩ := Gen.genRule_some p q hp
  exact body_condition hg

theorem body_cat (c : PluralCategory) : Body (qCat c) := body_all (by cases c <;> decide)

theorem body_return (c : PluralCategory) {e : List Tok} (h : Body e) : Body (createReturn c e) := by
  cases c <;> first | exact body_cat _ | exact body_append (body_cons rfl h) (body_cat _)

theorem body_chain {set : List (PluralCategory × List Tok)} (h : ∀ q ∈ set, Body q.2) : Body (ruleTokens set) := by
  cases set with
  | nil => exact body_cat _
  | cons p rest =>
    have key : ∀ (rest : List (PluralCategory × List Tok)) acc, (∀ q ∈ rest, Body q.2) → Body acc →
        Body (rest.foldl (fun tokens q => tokens ++ .id c!"else" :: createReturn q.1 q.2) acc) := by
      intro rest
      induction rest with
      | nil => intro acc _ h; exact h
      | cons q rest ih =>
        intro acc hq ha
        exact ih _ (fun x hx => hq x (by simp [hx]))
          (body_append ha (body_cons rfl (body_return _ (hq q (by simp)))))
    exact body_append (key rest _ (fun q hq => h q (by simp [hq])) (body_return _ (h p (by simp))))
      (body_cons rfl (body_cat _))

/-! ### Identifiers -/

theorem encodes_rawOf (s : Str) (h : ∀ c ∈ s, c.toNat < 256) : Encodes (LangId.rawOf s) s := by
  induction s with
  | nil => intro i; simp [LangId.rawOf]
  | cons c s ih =>
    have hc := h c (by simp)
    intro i
    cases i with
    | zero => simp [LangId.rawOf]; omega
    | succ i =>
      have := ih (fun x hx => h x (by simp [hx])) i
      rw [LangId.rawOf, pow_succ', ← Nat.div_div_eq_div_mul, show (c.toNat + 256 * LangId.rawOf s) / 256 = LangId.rawOf s by omega]
      simpa using this

theorem encodes_ofRaw (k n : Nat) (h : n < 256 ^ k) : Encodes n (LangId.ofRaw k n) := by
  induction k generalizing n with
  | zero => intro i; simp only [pow_zero, Nat.lt_one_iff] at h; simp [h, LangId.ofRaw]
  | succ k ih =>
    intro i
    rw [LangId.ofRaw]
    split_ifs with h0
    · simp [h0]
    · cases i with
      | zero =>
        have hb : n % 256 < 256 := Nat.mod_lt _ (by decide)
        have : (Char.ofNat (n % 256)).toNat = n % 256 := Lemmas.ofNat_toNat _ (by omega)
        simp [this]
      | succ i =>
        have := ih (n / 256) (by rw [pow_succ] at h; omega) i
        rw [pow_succ', ← Nat.div_div_eq_div_mul]
        simpa using this

theorem case_facts (c : Char) (h : Letter c) : c.toNat < 128 ∧ Letter c.toLower ∧ Letter c.toUpper ∧ c.toLower.toLower = c.toLower ∧
    c.toUpper.toUpper = c.toUpper := by
  have ha : c.toNat < 128 := by
    unfold Letter at h
    simp only [Char.le_def, UInt32.le_iff_toNat_le] at h
    have e : c.toNat = c.val.toNat := rfl
    have e1 : ('z' : Char).val.toNat = 122 := rfl
    have e2 : ('Z' : Char).val.toNat = 90 := rfl
    omega
  refine ⟨ha, ?_⟩
  have key : LangId.isAlpha c = true → LangId.isAlpha c.toLower = true ∧ LangId.isAlpha c.toUpper = true ∧
      c.toLower.toLower = c.toLower ∧ c.toUpper.toUpper = c.toUpper :=
    Ids.ascii_ind (P := fun c => LangId.isAlpha c = true → LangId.isAlpha c.toLower = true ∧ LangId.isAlpha c.toUpper = true ∧
      c.toLower.toLower = c.toLower ∧ c.toUpper.toUpper = c.toUpper) (by decide +kernel) c ha
  simpa only [Ids.isAlpha_iff] using key ((Ids.isAlpha_iff c).2 h)

theorem numeral_facts (c : Char) (h : Numeral c) : c.toNat < 128 ∧ c.toUpper = c := by
  have ha : c.toNat < 128 := by
    unfold Numeral at h
    simp only [Char.le_def, UInt32.le_iff_toNat_le] at h
    have e : c.toNat = c.val.toNat := rfl
    have e1 : ('9' : Char).val.toNat = 57 := rfl
    omega
  exact ⟨ha, Ids.ascii_ind (P := fun c => isDigit c = true → c.toUpper = c) (by decide +kernel) c ha ((Ids.isDigit_iff c).2 h)⟩

theorem lower_stored {l : Str} (h : ∀ c ∈ l, Letter c) : (∀ c ∈ lower l, Letter c) ∧ lower (lower l) = lower l := by
  constructor
  · intro c hc
    obtain ⟨d, hd, rfl⟩ := List.mem_map.1 hc
    exact (case_facts d (h d hd)).2.1
  · simp only [lower, List.map_map]
    exact List.map_congr_left fun c hc => (case_facts c (h c hc)).2.2.2.1

theorem upper_stored {l : Str} (h : ∀ c ∈ l, Letter c) : (∀ c ∈ upper l, Letter c) ∧ upper (upper l) = upper l := by
  constructor
  · intro c hc
    obtain ⟨d, hd, rfl⟩ := List.mem_map.1 hc
    exact (case_facts d (h d hd)).2.2.1
  · simp only [upper, List.map_map]
    exact List.map_congr_left fun c hc => (case_facts c (h c hc)).2.2.2.2

theorem title_stored {l : Str} (h : ∀ c ∈ l, Letter c) : (title l).length = l.length ∧ (∀ c ∈ title l, Letter c) ∧ title (title l) = title l := by
  cases l with
  | nil => exact ⟨rfl, by simp [title], rfl⟩
  | cons c t =>
    have ht := lower_stored fun d hd => h d (List.mem_cons_of_mem _ hd)
    have hc := case_facts c (h c (by simp))
    refine ⟨by simp [title, lower], ?_, ?_⟩
    · intro d hd
      rcases List.mem_cons.1 hd with rfl | hd
      · exact hc.2.2.1
      · exact ht.1 d hd
    · simp only [title, ht.2, hc.2.2.2.2]

/-- An identifier as it is stored, with a language. -/
def Stored (id : LangId) : Prop :=
  (∀ x ∈ id.language, StoredLanguage x) ∧ (∀ x ∈ id.script, StoredScript x) ∧ ∀ x ∈ id.region, StoredRegion x

theorem parse_stored {s : Str} {id : LangId} (h : LangId.parse s = some id) : Stored id := by
  obtain ⟨l, sc, rg, vs, -, h1, h2, h3, -, h4, h5, h6, -⟩ := (C91_texts s id).1 h
  refine ⟨fun x hx => ?_, fun x hx => ?_, fun x hx => ?_⟩
  · rcases h4 with ⟨-, h4⟩ | ⟨hu, h4⟩
    · rw [h4] at hx; cases hx
    · rw [h4] at hx
      cases hx
      have := lower_stored h1.2
      refine ⟨⟨?_, this.1⟩, this.2, hu⟩
      simpa [lower] using h1.1
  · rw [h5] at hx
    obtain ⟨y, hy, rfl⟩ := Option.map_eq_some_iff.1 hx
    have hy := h2 y hy
    have := title_stored hy.2
    exact ⟨⟨this.1.trans hy.1, this.2.1⟩, this.2.2⟩
  · rw [h6] at hx
    obtain ⟨y, hy, rfl⟩ := Option.map_eq_some_iff.1 hx
    rcases h3 y hy with hy | hy
    · have := upper_stored hy.2
      exact ⟨.inl ⟨by simpa [upper] using hy.1, this.1⟩, this.2⟩
    · have : upper y = y := by
        conv_rhs => rw [← List.map_id y]
        exact List.map_congr_left fun c hc => (numeral_facts c (hy.2 c hc)).2
      rw [this]
      exact ⟨.inr hy, this⟩

theorem stored_ascii {s : Str} (h : StoredLanguage s ∨ StoredScript s ∨ StoredRegion s) : ∀ c ∈ s, c.toNat < 256 := by
  intro c hc
  have : Letter c ∨ Numeral c := by
    rcases h with h | h | h
    · exact .inl (h.1.2 c hc)
    · exact .inl (h.1.2 c hc)
    · rcases h.1 with h | h
      · exact .inl (h.2 c hc)
      · exact .inr (h.2 c hc)
  rcases this with h | h
  · have := (case_facts c h).1; omega
  · have := (numeral_facts c h).1; omega

theorem body_call {kind suffix : Str} {n : Nat} (hk : plain (.id kind) = true) (h : Allowed kind n suffix) :
    Body (qPath [c!"subtags", kind, c!"from_raw_unchecked"] ++ [symOpen, .lit n suffix, symClose]) := by
  have hk' : kind ≠ c!"from_raw_unchecked" ∧ kind ≠ c!"from_raw_parts_unchecked" ∧ kind ≠ c!"unsafe" := by
    simpa [plain, and_assoc] using hk
  refine ⟨fun pre post he => ?_, ?_, ?_⟩
  · have : pre = [.id c!"subtags", symPath, .id kind, symPath] ∧ post = [symOpen, .lit n suffix, symClose] := by
      simp only [qPath, List.cons_append, List.nil_append] at he
      rcases pre with _ | ⟨a, _ | ⟨b, _ | ⟨c, _ | ⟨d, _ | ⟨e, _ | ⟨f, _ | ⟨g, _ | ⟨i, pre⟩⟩⟩⟩⟩⟩⟩⟩ <;>
        simp [symPath, symOpen, symClose] at he
      · exact absurd he.2.2.1 hk'.1
      · obtain ⟨rfl, rfl, rfl, rfl, rfl⟩ := he; exact ⟨rfl, rfl⟩
    obtain ⟨rfl, rfl⟩ := this
    exact ⟨[], kind, n, suffix, [], rfl, rfl, h⟩
  · simp [qPath, symPath, symOpen, symClose, Ne.symm hk'.2.2]
  · simp [qPath, symPath, symOpen, symClose, Ne.symm hk'.2.1]

theorem body_langid {id : LangId} (h : Stored id) : Body (genLangid id) := by
  obtain ⟨l, sc, r, v⟩ := id
  have key : ∀ (kind : Str) (n : Nat), plain (.id kind) = true → Allowed kind n c!"u32" →
      Body (.id c!"Some" :: symOpen :: qPath [c!"subtags", kind, c!"from_raw_unchecked"] ++ [symOpen, .lit n c!"u32", symClose, symClose]) := by
    intro kind n hk hx
    have := body_append (body_cons (t := .id c!"Some") rfl (body_cons (t := symOpen) rfl (body_call hk hx))) (body_all (ts := [symClose]) rfl)
    simpa using this
  have hnone : Body [Tok.id c!"None"] := body_all rfl
  refine body_append (body_append (body_append (body_append (a := [.id c!"langid", symNot, symOpen]) (body_all rfl) ?_)
    (body_cons rfl ?_)) (body_cons rfl ?_)) (body_all rfl)
  · cases l with
    | none => exact hnone
    | some x =>
      have hx := h.1 x rfl
      exact body_call rfl ⟨x, encodes_rawOf x (stored_ascii (.inl hx)), .inl ⟨rfl, rfl, hx⟩⟩
  · cases sc with
    | none => exact hnone
    | some x =>
      have hx := h.2.1 x rfl
      exact key _ _ rfl ⟨x, encodes_rawOf x (stored_ascii (.inr (.inl hx))), .inr (.inl ⟨rfl, rfl, hx⟩)⟩
  · cases r with
    | none => exact hnone
    | some x =>
      have hx := h.2.2 x rfl
      exact key _ _ rfl ⟨x, encodes_rawOf x (stored_ascii (.inr (.inr hx))), .inr (.inr ⟨rfl, rfl, hx⟩)⟩

theorem body_entry {s : Str} {id : LangId} (h : LangId.parse s = some id) {set : List (PluralCategory × List Tok)}
    (hs : ∀ q ∈ set, Body q.2) : Body (genMid id set) :=
  body_append (body_append (body_cons rfl (body_langid (parse_stored h))) (body_append
    (a := [.sym c!",", .sym c!"|", .id c!"po", .sym c!"|", symLBrace]) (body_all rfl) (body_chain hs))) (body_all rfl)

theorem body_streams {obj : TypeObj} {l : List (List Tok)} (h : genTypeRs LangId.parse obj = some l) : ∀ ts ∈ l, Body ts := by
  obtain ⟨es, he, rfl⟩ := Option.map_eq_some_iff.1 h
  intro ts hts
  obtain ⟨p, hp, rfl⟩ := List.mem_map.1 hts
  unfold genTypeEntries at he
  cases hk : parseKeys LangId.parse (btree (obj.map fun p => (p.1, btree p.2))) with
  | none => simp [hk] at he
  | some rules =>
    simp only [hk] at he
    obtain ⟨q, hq, hg⟩ := (mapPanic_mem he).2 p hp
    obtain ⟨set, hset, rfl⟩ := Option.map_eq_some_iff.1 hg
    have hq' : q ∈ rules := (Maps.sortById_perm rules).mem_iff.1 hq
    unfold parseKeys at hk
    obtain ⟨k, -, hk⟩ := (mapPanic_mem hk).2 q hq'
    obtain ⟨id, hid, rfl⟩ := Option.map_eq_some_iff.1 hk
    exact body_entry hid (body_rules hset)

theorem body_type (ty : RuleType) {l : List (List Tok)} (h : ∀ ts ∈ l, Body ts) : Body (createPrType ty l) :=
  body_append (body_append (body_all (by cases ty <;> decide)) (body_sepBy rfl h)) (body_all rfl)

theorem generated_parts (texts : List Str) (out : Str) (h : generateText LangId.parse texts = some out) :
    ∃ n rest, lex out = head n ++ rest ∧ Body rest := by
  unfold generateText at h
  cases hr : mapPanic parseResource texts with
  | none => simp [hr] at h
  | some rs =>
    simp only [hr] at h
    cases hg : generateTokens LangId.parse rs with
    | none => simp [generateRs, hg] at h
    | some toks =>
      obtain ⟨h1, h2⟩ := C58_lexes_back LangId.parse rs toks hg
      rw [h1, Option.some.injEq] at h
      rw [← h, h2]
      obtain ⟨s, v, num, hl, hv, hn, -, -, rfl⟩ := Lemmas.generateTokens_parts LangId.parse rs toks hg
      obtain ⟨f1, f2, -⟩ := Lemmas.genLoop_from LangId.parse rs _ s hl
      have key : ∀ data (o : Option (List (List Tok))), Lemmas.From LangId.parse data none o → ∀ l, o = some l → ∀ ts ∈ l, Body ts := by
        rintro data o (⟨-, rfl⟩ | ⟨obj, l', -, -, hobj, rfl⟩) l hl
        · cases hl
        · cases hl; exact body_streams hobj
      have hflat : ∀ ls : List (List Tok), (∀ ts ∈ ls, Body ts) → Body ls.flatten := by
        intro ls
        induction ls with
        | nil => exact fun _ => body_nil
        | cons x ls ih => exact fun hx => body_append (hx x (by simp)) (ih fun y hy => hx y (by simp [hy]))
      refine ⟨_, _, rfl, hflat _ fun ts hts => ?_⟩
      rcases List.mem_append.1 hts with hts | hts
      · obtain ⟨l, hl, rfl⟩ := List.mem_map.1 hts
        exact body_type _ (key _ _ f1 l (Option.mem_toList.1 hl))
      · obtain ⟨l, hl, rfl⟩ := List.mem_map.1 hts
        exact body_type _ (key _ _ f2 l (Option.mem_toList.1 hl))

set_option maxRecDepth 4000 in
/-- The head of the file, around the number of the version. -/
theorem head_split : ∃ a b, ∀ n, head n = a ++ .lit n [] :: b := ⟨(head 0).take 101, (head 0).drop 102, fun _ => rfl⟩

theorem count_head (n : Nat) (x : Str) : (head n).count (.id x) = (head 0).count (.id x) := by
  obtain ⟨a, b, h⟩ := head_split
  rw [h n, h 0]
  simp [List.count_append]

/-- C110: wherever a generated file calls `from_raw_unchecked`, whatever the input files are, the argument is the raw form of a
well-formed subtag of that kind. -/
theorem C110_calls (texts : List Str) (out : Str) (h : generateText LangId.parse texts = some out) : CallsAllowed (lex out) := by
  obtain ⟨n, rest, h1, h2⟩ := generated_parts texts out h
  rw [h1]
  refine calls_append (calls_plain fun t ht he => ?_) h2.1
  exact List.count_eq_zero.1 ((count_head n _).trans (by decide +kernel)) (he ▸ ht)

/-- C110: there is one `unsafe` block, and one call in it. -/
theorem C110_unsafe (texts : List Str) (out : Str) (h : generateText LangId.parse texts = some out) :
    (lex out).count (.id c!"unsafe") = 1 ∧ (lex out).count (.id c!"from_raw_parts_unchecked") = 1 := by
  obtain ⟨n, rest, h1, -, h2, h3⟩ := generated_parts texts out h
  rw [h1, List.count_append, List.count_append, List.count_eq_zero.2 h2, List.count_eq_zero.2 h3]
  rw [count_head, count_head n]
  decide +kernel

/-- Three calls, from input that is written in other letter cases: `zzzzzzzz`, `Zzzz` and `ZZ`. -/
example : ((generateText LangId.parse [c!"{\"supplemental\":{\"version\":{\"_number\":\"\",\"_unicodeVersion\":\"\",\"_cldrVersion\":\"1\"},\"plurals-type-cardinal\":{\"ZZZZzzzz_zZZZ-zz\":{\"pluralRule-count-other\":\"\"}}}}"]).map fun out =>
    ((lex out).count (.id c!"from_raw_unchecked"), (lex out).filterMap fun t => match t with | .lit n s => some (n, s) | _ => none)) =
    some (3, [(1, []), (0x7A7A7A7A7A7A7A7A, c!"u64"), (0x7A7A7A5A, c!"u32"), (0x5A5A, c!"u32")]) := by decide +kernel

/-- An integer may be of the wrong order, letter case or type. -/
example : ¬ Allowed c!"Region" 0x6C70 c!"u32" := by
  have key : ∀ s, Encodes 0x6C70 s → s[0]? ≠ none → s[0]?.map Char.toNat = some 0x70 := by
    intro s h hn
    have := h 0
    cases h0 : s[0]? with
    | none => exact absurd h0 hn
    | some c => rw [h0] at this; simpa using this.symm
  rintro ⟨s, h, ⟨h1, -⟩ | ⟨h1, -⟩ | ⟨-, -, h1, h2⟩⟩
  · exact absurd h1 (by decide)
  · exact absurd h1 (by decide)
  · cases s with
    | nil => rcases h1 with h1 | h1 <;> exact absurd h1.1 (by decide)
    | cons c s =>
      have hc := key _ h (by simp)
      simp only [List.getElem?_cons_zero, Option.map_some, Option.some.injEq] at hc
      have : c.toUpper = c := by
        have := congrArg List.head? h2
        simpa [upper] using this
      have hp : c = 'p' := Char.toNat_inj.1 hc
      rw [hp] at this
      exact absurd this (by decide)

/-! ## The shipped file -/

theorem expect_eq {a ts r : List Tok} (h : expect a ts = some r) : ts = a ++ r := by
  induction a generalizing ts with
  | nil => simpa [expect] using h
  | cons t a ih =>
    cases ts with
    | nil => simp [expect] at h
    | cons u ts =>
      simp only [expect] at h
      split_ifs at h with hu
      rw [hu, ih h]; rfl

theorem readRaw_eq {kind suffix : Str} {bytes : Nat} {ts r : List Tok} {x : Str} (h : readRaw kind suffix bytes ts = some (x, r)) :
    ∃ n, Encodes n x ∧ ts = qPath [c!"subtags", kind, c!"from_raw_unchecked"] ++ [symOpen, .lit n suffix, symClose] ++ r := by
  unfold readRaw at h
  split at h
  · rename_i n suf r' he
    split_ifs at h with hc
    obtain ⟨r'', h1, h2⟩ := Option.map_eq_some_iff.1 h
    obtain ⟨rfl, rfl⟩ := Prod.mk.injEq .. ▸ h2
    refine ⟨n, encodes_ofRaw _ _ hc.2, ?_⟩
    rw [expect_eq he, expect_eq h1, hc.1]
    simp [qPath]
  · cases h

theorem readOpt_eq {kind suffix : Str} {bytes : Nat} {ts r : List Tok} {x : Option Str} (h : readOpt kind suffix bytes ts = some (x, r))
    (hk : plain (.id kind) = true) (hx : ∀ y ∈ x, ∀ n, Encodes n y → Allowed kind n suffix) : ∃ used, ts = used ++ r ∧ Body used := by
  unfold readOpt at h
  cases h0 : expect [.id c!"None"] ts with
  | some r' =>
    simp only [h0, Option.some.injEq, Prod.mk.injEq] at h
    exact ⟨_, h.2 ▸ expect_eq h0, body_all rfl⟩
  | none =>
    simp only [h0] at h
    cases h1 : expect [.id c!"Some", symOpen] ts with
    | none => simp [h1] at h
    | some r1 =>
      simp only [h1] at h
      cases h2 : readRaw kind suffix bytes r1 with
      | none => simp [h2] at h
      | some p =>
        obtain ⟨y, r2⟩ := p
        simp only [h2] at h
        obtain ⟨r3, h3, h4⟩ := Option.map_eq_some_iff.1 h
        obtain ⟨rfl, rfl⟩ := Prod.mk.injEq .. ▸ h4
        obtain ⟨n, hn, e⟩ := readRaw_eq h2
        rw [expect_eq h1, e, expect_eq h3]
        refine ⟨_, ?_, body_append (a := [.id c!"Some", symOpen]) (body_all rfl) (body_append (body_call hk (hx y rfl n hn)) (b := [symClose]) (body_all rfl))⟩
        simp

/-- C110: code that is read as an identifier with well-formed subtags calls the constructors on integers that they may be given. -/
theorem C110_read (ts rest : List Tok) (id : LangId) (h : readLangid ts = some (id, rest)) (hid : Stored id) :
    ∃ used, ts = used ++ rest ∧ CallsAllowed used := by
  unfold readLangid at h
  cases h0 : expect [.id c!"langid", symNot, symOpen] ts with
  | none => simp [h0] at h
  | some r0 =>
  simp only [h0] at h
  cases h1 : readRaw c!"Language" c!"u64" 8 r0 with
  | none => simp [h1] at h
  | some p =>
  obtain ⟨l, r1⟩ := p
  simp only [h1] at h
  cases h2 : expect [.sym c!","] r1 with
  | none => simp [h2] at h
  | some r2 =>
  simp only [h2] at h
  cases h3 : readOpt c!"Script" c!"u32" 4 r2 with
  | none => simp [h3] at h
  | some p =>
  obtain ⟨sc, r3⟩ := p
  simp only [h3] at h
  cases h4 : expect [.sym c!","] r3 with
  | none => simp [h4] at h
  | some r4 =>
  simp only [h4] at h
  cases h5 : readOpt c!"Region" c!"u32" 4 r4 with
  | none => simp [h5] at h
  | some p =>
  obtain ⟨rg, r5⟩ := p
  simp only [h5] at h
  obtain ⟨r6, h6, h7⟩ := Option.map_eq_some_iff.1 h
  obtain ⟨rfl, rfl⟩ := Prod.mk.injEq .. ▸ h7
  obtain ⟨n, hn, e1⟩ := readRaw_eq h1
  obtain ⟨u1, e2, b1⟩ := readOpt_eq h3 rfl fun y hy n hn => ⟨y, hn, .inr (.inl ⟨rfl, rfl, hid.2.1 y hy⟩)⟩
  obtain ⟨u2, e3, b2⟩ := readOpt_eq h5 rfl fun y hy n hn => ⟨y, hn, .inr (.inr ⟨rfl, rfl, hid.2.2 y hy⟩)⟩
  have b0 := body_call (kind := c!"Language") (suffix := c!"u64") rfl ⟨l, hn, .inl ⟨rfl, rfl, hid.1 l rfl⟩⟩
  refine ⟨_, ?_, (body_append (body_append (body_append (body_append (body_append (a := [.id c!"langid", symNot, symOpen]) (body_all rfl) b0)
    (b := [.sym c!","]) (body_all rfl)) b1) (b := [.sym c!","]) (body_all rfl)) (body_append b2 (b := [symClose]) (body_all rfl))).1⟩
  rw [expect_eq h0, e1, expect_eq h2, e2, expect_eq h4, e3, expect_eq h6]
  simp

/-- The tests, as they can be evaluated. -/
def storedOk (id : LangId) : Bool :=
  (match id.language with
    | some x => (x.length == 2 || x.length == 3 || (5 ≤ x.length && x.length ≤ 8)) && x.all LangId.isAlpha && lower x == x && x != c!"und"
    | none => false) && id.script.isNone &&
  (match id.region with
    | some x => x.length == 2 && x.all LangId.isAlpha && upper x == x
    | none => true) && id.variants.isNone

/-- C110: every identifier in the shipped tables, which C61 reads from the text of the file, has a language and only well-formed subtags. -/
theorem C110_shipped (t : PluralRuleType) (e : LangId × Closure) (h : e ∈ table t) : e.1.language ≠ none ∧ Stored e.1 := by
  have key : ∀ t, ((table t).map (·.1)).all storedOk = true := by intro t; cases t <;> decide +kernel
  have := List.all_eq_true.1 (key t) e.1 (List.mem_map_of_mem h)
  generalize e.1 = id at this
  obtain ⟨l, sc, rg, v⟩ := id
  unfold storedOk at this
  simp only [Bool.and_eq_true] at this
  obtain ⟨⟨⟨h1, h2⟩, h3⟩, h4⟩ := this
  cases l with
  | none => cases h1
  | some x =>
    refine ⟨by simp, fun y hy => ?_, fun y hy => ?_, fun y hy => ?_⟩
    · cases hy
      simp only [Bool.and_eq_true, Bool.or_eq_true, beq_iff_eq, decide_eq_true_eq, bne_iff_ne] at h1
      obtain ⟨⟨⟨a, b⟩, c⟩, d⟩ := h1
      exact ⟨⟨by omega, Ids.all_alpha.1 b⟩, c, d⟩
    · cases sc with
      | none => cases hy
      | some _ => cases h2
    · cases rg with
      | none => cases hy
      | some z =>
        cases hy
        simp only [Bool.and_eq_true, beq_iff_eq] at h3
        exact ⟨.inl ⟨h3.1.1, Ids.all_alpha.1 h3.1.2⟩, h3.2⟩

/-- The entry for Portuguese in Portugal, the only one with a region. -/
example : ((table .CARDINAL).filterMap fun e => e.1.region.map fun r => (e.1.language, r)) = [(some c!"pt", c!"PT")] := by decide +kernel
example : readLangid (lex c!"langid!(subtags::Language::from_raw_unchecked(29808u64), None, Some(subtags::Region::from_raw_unchecked(21584u32))), |po|") =
    some (⟨some c!"pt", none, some c!"PT", none⟩, lex c!", |po|") := by decide +kernel

end Verif.Props
