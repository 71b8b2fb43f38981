import Verif.Lemmas.Generate

/-! Helper lemmas for C49–C52: reading a generated entry. -/

namespace Verif.Gen
open Verif Spec Generate Rust GenPr GenRs RulesRead

/-! ## Subtags -/

theorem rawOf_lt (n : Nat) (s : Str) (h : Ascii n s) : LangId.rawOf s < 256 ^ n := by
  induction s generalizing n with
  | nil => simp [LangId.rawOf]
  | cons c s ih =>
    obtain ⟨h1, h2⟩ := h
    cases n with
    | zero => simp at h1
    | succ n =>
      have := ih n ⟨by simpa using h1, fun c hc => h2 c (by simp [hc])⟩
      have := h2 c (by simp)
      simp only [LangId.rawOf, pow_succ]
      omega

theorem ofRaw_rawOf (n : Nat) (s : Str) (h : Ascii n s) : LangId.ofRaw n (LangId.rawOf s) = s := by
  induction s generalizing n with
  | nil => cases n <;> simp [LangId.rawOf, LangId.ofRaw]
  | cons c s ih =>
    obtain ⟨h1, h2⟩ := h
    cases n with
    | zero => simp at h1
    | succ n =>
      have hc := h2 c (by simp)
      have ih := ih n ⟨by simpa using h1, fun c hc => h2 c (by simp [hc])⟩
      obtain ⟨m, hm⟩ : ∃ m, m = LangId.rawOf (c :: s) := ⟨_, rfl⟩
      rw [← hm, LangId.ofRaw]
      simp only [LangId.rawOf] at hm
      have e1 : m % 256 = c.toNat := by omega
      have e2 : m / 256 = LangId.rawOf s := by omega
      rw [if_neg (by omega), e1, e2, ih, Char.ofNat_toNat]

theorem expect_append (a r : List Tok) : expect a (a ++ r) = some r := by
  induction a with
  | nil => cases r <;> rfl
  | cons t a ih => simp [expect, ih]

theorem readRaw_spec (kind suf : Str) (n : Nat) (s : Str) (h : Ascii n s) (rest : List Tok) :
    readRaw kind suf n (qPath [c!"subtags", kind, c!"from_raw_unchecked"] ++
      symOpen :: .lit (LangId.rawOf s) suf :: symClose :: rest) = some (s, rest) := by
  have e : qPath [c!"subtags", kind, c!"from_raw_unchecked"] ++ symOpen :: .lit (LangId.rawOf s) suf :: symClose :: rest =
      [.id c!"subtags", symPath, .id kind, symPath, .id c!"from_raw_unchecked", symOpen] ++
        .lit (LangId.rawOf s) suf :: symClose :: rest := rfl
  unfold readRaw
  rw [e, expect_append]
  simp only [rawOf_lt n s h, and_self, if_true, ofRaw_rawOf n s h]
  rw [show symClose :: rest = [symClose] ++ rest from rfl, expect_append]
  rfl

/-- The tokens of an optional subtag. -/
def optTokens (kind : Str) : Option Str → List Tok
  | some s => .id c!"Some" :: symOpen :: qPath [c!"subtags", kind, c!"from_raw_unchecked"] ++
        [symOpen, .lit (LangId.rawOf s) c!"u32", symClose, symClose]
  | none => [.id c!"None"]

theorem readOpt_spec (kind : Str) (s : Option Str) (h : ∀ x, s = some x → Ascii 4 x) (rest : List Tok) :
    readOpt kind c!"u32" 4 (optTokens kind s ++ rest) = some (s, rest) := by
  unfold readOpt
  cases s with
  | none => rfl
  | some x =>
    have e : optTokens kind (some x) ++ rest = [.id c!"Some", symOpen] ++ (qPath [c!"subtags", kind, c!"from_raw_unchecked"] ++
      symOpen :: .lit (LangId.rawOf x) c!"u32" :: symClose :: (symClose :: rest)) := by simp [optTokens]
    have e0 : expect [.id c!"None"] (optTokens kind (some x) ++ rest) = none := rfl
    rw [e0, e, expect_append]
    simp only [readRaw_spec kind _ 4 x (h x rfl)]
    rw [show symClose :: rest = [symClose] ++ rest from rfl, expect_append]
    rfl

theorem genLangid_eq (id : LangId) (l : Str) (h : id.language = some l) (rest : List Tok) : genLangid id ++ rest =
    [.id c!"langid", symNot, symOpen] ++ (qPath [c!"subtags", c!"Language", c!"from_raw_unchecked"] ++
      symOpen :: .lit (LangId.rawOf l) c!"u64" :: symClose :: ([.sym c!","] ++ (optTokens c!"Script" id.script ++
        ([.sym c!","] ++ (optTokens c!"Region" id.region ++ ([symClose] ++ rest)))))) := by
  obtain ⟨a, b, c, d⟩ := id
  simp only at h; subst h
  cases b <;> cases c <;> simp [genLangid, optTokens]

theorem readLangid_spec (id : LangId) (h : Writable id) (rest : List Tok) :
    readLangid (genLangid id ++ rest) = some (id, rest) := by
  obtain ⟨l, hl, hl'⟩ := h.language
  rw [genLangid_eq id l hl]
  unfold readLangid
  rw [expect_append]
  simp only [readRaw_spec _ _ 8 l hl', expect_append, readOpt_spec _ _ h.script, readOpt_spec _ _ h.region]
  obtain ⟨a, b, c, d⟩ := id
  have := h.variants
  simp only at hl this; subst hl; subst this
  rfl

/-! ## Identifiers that were parsed -/

theorem isAlpha_ascii {c : Char} (h : LangId.isAlpha c = true) : 0 < c.toNat ∧ c.toNat < 128 := by
  simp only [LangId.isAlpha, Bool.or_eq_true, Bool.and_eq_true, decide_eq_true_eq] at h
  have h1 : 'a'.toNat = 97 := rfl
  have h2 : 'z'.toNat = 122 := rfl
  have h3 : 'A'.toNat = 65 := rfl
  have h4 : 'Z'.toNat = 90 := rfl
  omega

theorem isDigit_ascii {c : Char} (h : isDigit c = true) : 0 < c.toNat ∧ c.toNat < 128 := by
  simp only [isDigit, Bool.and_eq_true, decide_eq_true_eq] at h
  have h1 : '0'.toNat = 48 := rfl
  have h2 : '9'.toNat = 57 := rfl
  omega

theorem toNat_ofNat_lt {n : Nat} (h : n < 128) : (Char.ofNat n).toNat = n := by
  revert n; decide

theorem lower_ascii {c : Char} (h : 0 < c.toNat ∧ c.toNat < 128) : 0 < (LangId.lowerChar c).toNat ∧ (LangId.lowerChar c).toNat < 128 := by
  unfold LangId.lowerChar
  have h3 : 'A'.toNat = 65 := rfl
  have h4 : 'Z'.toNat = 90 := rfl
  split
  · rename_i h'
    simp only [Bool.and_eq_true, decide_eq_true_eq] at h'
    rw [toNat_ofNat_lt (by omega)]; omega
  · exact h

theorem upper_ascii {c : Char} (h : 0 < c.toNat ∧ c.toNat < 128) : 0 < (LangId.upperChar c).toNat ∧ (LangId.upperChar c).toNat < 128 := by
  unfold LangId.upperChar
  have h3 : 'a'.toNat = 97 := rfl
  have h4 : 'z'.toNat = 122 := rfl
  split
  · rename_i h'
    simp only [Bool.and_eq_true, decide_eq_true_eq] at h'
    rw [toNat_ofNat_lt (by omega)]; omega
  · exact h

theorem map_ascii {s : Str} {n : Nat} {f : Char → Char} {p : Char → Bool} (hl : s.length ≤ n) (hs : s.all p = true)
    (hp : ∀ c, p c = true → 0 < c.toNat ∧ c.toNat < 128)
    (hf : ∀ c : Char, 0 < c.toNat ∧ c.toNat < 128 → 0 < (f c).toNat ∧ (f c).toNat < 128) : Ascii n (s.map f) := by
  refine ⟨by simpa using hl, fun c hc => ?_⟩
  obtain ⟨d, hd, rfl⟩ := List.mem_map.1 hc
  exact hf d (hp d (List.all_eq_true.1 hs d hd))

theorem parseLanguage_ascii {s : Str} {o : Option Str} (h : LangId.parseLanguage s = some o) : ∀ l, o = some l → Ascii 8 l := by
  unfold LangId.parseLanguage at h
  split at h
  · rename_i hc
    have := map_ascii (n := 8) (by omega) hc.2 (fun c => isAlpha_ascii) (fun c => lower_ascii)
    split at h
    · cases h; simp
    · cases h; rintro l hl; cases hl; exact this
  · cases h

theorem parseScript_ascii {s r : Str} (h : LangId.parseScript s = some r) : Ascii 4 r := by
  unfold LangId.parseScript at h
  split at h
  · rename_i hc
    cases s with
    | nil => cases h
    | cons c t =>
      simp only [Option.some.injEq] at h; subst h
      obtain ⟨h1, h2⟩ := hc
      simp only [List.all_cons, Bool.and_eq_true] at h2
      have := map_ascii (n := 3) (by simp at h1; omega) h2.2 (fun c => isAlpha_ascii) (fun c => lower_ascii)
      refine ⟨by simpa using h1.le, fun d hd => ?_⟩
      rcases List.mem_cons.1 hd with rfl | hd
      · exact upper_ascii (isAlpha_ascii h2.1)
      · exact this.2 d hd
  · cases h

theorem parseRegion_ascii {s r : Str} (h : LangId.parseRegion s = some r) : Ascii 4 r := by
  unfold LangId.parseRegion at h
  split at h
  · rename_i hc
    cases h
    exact map_ascii (by omega) hc.2 (fun c => isAlpha_ascii) (fun c => upper_ascii)
  · split at h
    · rename_i hc
      cases h
      exact ⟨by omega, fun c hm => isDigit_ascii (List.all_eq_true.1 hc.2 c hm)⟩
    · cases h

theorem parseAfterScript_parts {l s : Option Str} {rest : List Str} {id : LangId}
    (h : LangId.parseAfterScript l s rest = some id) :
    id.language = l ∧ id.script = s ∧ ∀ r, id.region = some r → Ascii 4 r := by
  cases rest with
  | nil => simp only [LangId.parseAfterScript, Option.some.injEq] at h; subst h; simp
  | cons r rest =>
    simp only [LangId.parseAfterScript] at h
    cases hr : LangId.parseRegion r with
    | some reg =>
      simp only [hr] at h
      cases hv : LangId.parseVariants rest with
      | none => simp [hv] at h
      | some vs =>
        simp only [hv, Option.map_some, Option.some.injEq] at h; subst h
        exact ⟨rfl, rfl, fun r' h' => by cases h'; exact parseRegion_ascii hr⟩
    | none =>
      simp only [hr] at h
      cases hv : LangId.parseVariants (r :: rest) with
      | none => simp [hv] at h
      | some vs => simp only [hv, Option.map_some, Option.some.injEq] at h; subst h; simp

/-- The subtags of a parsed identifier are short and ASCII. -/
theorem parse_ascii {s : Str} {id : LangId} (h : LangId.parse s = some id) :
    (∀ l, id.language = some l → Ascii 8 l) ∧ (∀ s, id.script = some s → Ascii 4 s) ∧ ∀ s, id.region = some s → Ascii 4 s := by
  unfold LangId.parse at h
  cases hs : LangId.splitSubtags s with
  | nil => simp [hs] at h
  | cons x rest =>
    simp only [hs] at h
    cases hx : LangId.parseLanguage x with
    | none => simp [hx] at h
    | some lang =>
      simp only [hx] at h
      have hlang := parseLanguage_ascii hx
      cases rest with
      | nil =>
        obtain ⟨h1, h2, h3⟩ := parseAfterScript_parts h
        exact ⟨h1 ▸ hlang, by rw [h2]; simp, h3⟩
      | cons y rest =>
        simp only at h
        cases hy : LangId.parseScript y with
        | none =>
          simp only [hy] at h
          obtain ⟨h1, h2, h3⟩ := parseAfterScript_parts h
          exact ⟨h1 ▸ hlang, by rw [h2]; simp, h3⟩
        | some sc =>
          simp only [hy] at h
          obtain ⟨h1, h2, h3⟩ := parseAfterScript_parts h
          exact ⟨h1 ▸ hlang, by rw [h2]; rintro s hs; cases hs; exact parseScript_ascii hy, h3⟩

theorem parse_writable {s : Str} {id : LangId} (h : LangId.parse s = some id) (hl : id.language ≠ none)
    (hv : id.variants = none) : Writable id := by
  have key := parse_ascii h
  cases hl' : id.language with
  | none => exact absurd hl' hl
  | some l => exact ⟨⟨l, hl', key.1 l hl'⟩, key.2.1, key.2.2, hv⟩

/-! ## The chain of tests -/

theorem categoryOfIdent_catIdent (c : PluralCategory) : categoryOfIdent (catIdent c) = some c := by cases c <;> decide

theorem pBlock_qCat (c : PluralCategory) (rest : List Tok) : pBlock (qCat c ++ rest) = some (c, rest) := by
  cases c <;> rfl

/-- The tests after the first one, and the end. -/
def restTokens : List (PluralCategory × List Tok) → List Tok
  | [] => .id c!"else" :: qCat .OTHER
  | q :: rest => .id c!"else" :: .id c!"if" :: (q.2 ++ (qCat q.1 ++ restTokens rest))

theorem createReturn_eq (c : PluralCategory) (e : List Tok) (h : c ≠ .OTHER) :
    createReturn c e = .id c!"if" :: (e ++ qCat c) := by
  cases c <;> first | rfl | exact absurd rfl h

theorem fold_tokens (rest : List (PluralCategory × List Tok)) (h : ∀ q ∈ rest, q.1 ≠ .OTHER) (acc : List Tok) :
    rest.foldl (fun tokens q => tokens ++ .id c!"else" :: createReturn q.1 q.2) acc ++ .id c!"else" :: qCat .OTHER =
      acc ++ restTokens rest := by
  induction rest generalizing acc with
  | nil => rfl
  | cons q rest ih =>
    rw [List.foldl_cons, ih (fun q hq => h q (by simp [hq])), createReturn_eq _ _ (h q (by simp))]
    simp [restTokens]

theorem ruleTokens_cons (p : PluralCategory × List Tok) (rest : List (PluralCategory × List Tok))
    (h : ∀ q ∈ p :: rest, q.1 ≠ .OTHER) : ruleTokens (p :: rest) = .id c!"if" :: (p.2 ++ (qCat p.1 ++ restTokens rest)) := by
  simp only [ruleTokens]
  rw [fold_tokens rest (fun q hq => h q (by simp [hq])), createReturn_eq _ _ (h p (by simp))]
  simp

/-- The tests of these rules are these expressions. -/
def Reads (set : List (PluralCategory × List Tok)) (arms : List (RExpr × PluralCategory)) : Prop :=
  List.Forall₂ (fun q a => q.1 = a.2 ∧ Prec.IsOr q.2 a.1) set arms

theorem pChain_spec (rest : List (PluralCategory × List Tok)) (arms : List (RExpr × PluralCategory)) (h : Reads rest arms)
    (c : PluralCategory) (ts : List Tok) (e : RExpr) (he : Prec.IsOr ts e) (k : Nat) (hk : rest.length < k)
    (acc : List (RExpr × PluralCategory)) :
    pChain k (ts ++ (qCat c ++ restTokens rest)) acc = some ⟨acc.reverse ++ (e, c) :: arms, .OTHER⟩ := by
  induction h generalizing c ts e k acc with
  | nil =>
    cases k with
    | zero => simp at hk
    | succ k =>
      have hp : pOr (fuelFor (ts ++ (qCat c ++ restTokens []))) (ts ++ (qCat c ++ restTokens [])) =
          some (e, qCat c ++ restTokens []) := by
        refine he _ _ ?_ (Prec.stops_brace _) ?_ ?_
        · simp only [fuelFor, List.length_append]
          have : (qCat c).length = 5 := rfl
          omega
        · simp [qCat, symLBrace, symAnd]
        · simp [qCat, symLBrace, symOr]
      simp only [pChain, hp, pBlock_qCat]
      have : pBlock (qCat .OTHER) = some (.OTHER, []) := rfl
      simp only [restTokens]
      show (match some (c, Tok.id c!"else" :: qCat .OTHER) with
        | none => none
        | some (c, .id el :: .id i :: r') =>
          if el = c!"else" ∧ i = c!"if" then pChain k r' ((e, c) :: acc) else none
        | some (c, .id el :: r') =>
          if el = c!"else" then
            match pBlock r' with
            | some (d, []) => some { arms := ((e, c) :: acc).reverse, last := d }
            | _ => none
          else none
        | _ => none) = _
      simp only [qCat, symLBrace, symPath, symRBrace] at this ⊢
      simp only [if_true, this, List.reverse_cons]
      try rfl
  | @cons q a rest arms h1 hr ih =>
    cases k with
    | zero => simp at hk
    | succ k =>
      have hp : pOr (fuelFor (ts ++ (qCat c ++ restTokens (q :: rest)))) (ts ++ (qCat c ++ restTokens (q :: rest))) =
          some (e, qCat c ++ restTokens (q :: rest)) := by
        refine he _ _ ?_ (Prec.stops_brace _) ?_ ?_
        · simp only [fuelFor, List.length_append]
          have : (qCat c).length = 5 := rfl
          omega
        · simp [qCat, symLBrace, symAnd]
        · simp [qCat, symLBrace, symOr]
      simp only [pChain, hp, pBlock_qCat]
      simp only [restTokens, and_self, if_true]
      rw [ih q.1 q.2 a.1 h1.2 k (by simpa using hk)]
      simp [h1.1]

theorem parseBody_spec (set : List (PluralCategory × List Tok)) (arms : List (RExpr × PluralCategory)) (h : Reads set arms)
    (hc : ∀ q ∈ set, q.1 ≠ .OTHER) : parseBody (ruleTokens set) = some ⟨arms, .OTHER⟩ := by
  cases h with
  | nil => rfl
  | @cons q a rest arms h1 hr =>
    rw [ruleTokens_cons q rest hc]
    have hlen : rest.length < (Tok.id c!"if" :: (q.2 ++ (qCat q.1 ++ restTokens rest))).length := by
      have : ∀ l, l.length < (restTokens l).length := by
        intro l
        induction l with
        | nil => simp [restTokens, qCat]
        | cons q l ih => simp [restTokens]; omega
      have := this rest
      simp; omega
    have e : parseBody (Tok.id c!"if" :: (q.2 ++ (qCat q.1 ++ restTokens rest))) =
        pChain (Tok.id c!"if" :: (q.2 ++ (qCat q.1 ++ restTokens rest))).length (q.2 ++ (qCat q.1 ++ restTokens rest)) [] := by
      simp only [parseBody, if_true]
    rw [e, pChain_spec rest arms hr q.1 q.2 a.1 h1.2 _ hlen]
    simp [h1.1]

theorem readClosure_spec (body : List Tok) :
    readClosure (.sym c!"|" :: .id c!"po" :: .sym c!"|" :: symLBrace :: (body ++ [symRBrace, symClose])) = parseBody body := by
  unfold readClosure
  have e : expect [.sym c!"|", .id c!"po", .sym c!"|"] (.sym c!"|" :: .id c!"po" :: .sym c!"|" :: symLBrace :: (body ++ [symRBrace, symClose])) =
      some (symLBrace :: (body ++ [symRBrace, symClose])) := rfl
  rw [e]
  have e2 : (symLBrace :: (body ++ [symRBrace, symClose])).reverse = symClose :: symRBrace :: (body.reverse ++ [symLBrace]) := by simp
  simp only [e2, if_true]
  have e3 : symRBrace ≠ Tok.sym c!"," := by decide
  simp only [if_neg e3]
  have e4 : (symRBrace :: (body.reverse ++ [symLBrace])).reverse = symLBrace :: (body ++ [symRBrace]) := by simp
  simp only [e4, and_self, if_true]
  rw [List.dropLast_concat]

/-- A generated entry, read back. -/
theorem readEntry_spec (id : LangId) (h : Writable id) (set : List (PluralCategory × List Tok)) :
    readEntry (genMid id set) = (parseBody (ruleTokens set)).map fun f => (id, f) := by
  have e : genMid id set = [symOpen] ++ (genLangid id ++ ([.sym c!","] ++ (.sym c!"|" :: .id c!"po" :: .sym c!"|" :: symLBrace ::
      (ruleTokens set ++ [symRBrace, symClose])))) := by
    simp [genMid]
  unfold readEntry
  rw [e, expect_append]
  simp only [readLangid_spec id h, expect_append, readClosure_spec]

/-! ## From the rules of a locale to the tests -/

theorem filterMap_source {f : α → Option (Option β)} {l : List α} {opts : List (Option β)} (h : mapPanic f l = some opts) :
    ∃ src, src.Sublist l ∧ List.Forall₂ (fun p q => f p = some (some q)) src (opts.filterMap id) ∧
      ∀ p ∈ l, p ∈ src ∨ f p = some none := by
  have hf := Prec.mapPanic_some h
  clear h
  induction hf with
  | nil => exact ⟨[], .slnil, .nil, by simp⟩
  | @cons a b l opts h1 _ ih =>
    obtain ⟨src, g1, g2, g3⟩ := ih
    cases b with
    | none =>
      refine ⟨src, .cons _ g1, by simpa using g2, fun p hp => ?_⟩
      rcases List.mem_cons.1 hp with rfl | hp
      · exact .inr h1
      · exact g3 p hp
    | some b =>
      refine ⟨a :: src, .cons_cons _ g1, List.Forall₂.cons h1 g2, fun p hp => ?_⟩
      rcases List.mem_cons.1 hp with rfl | hp
      · exact .inl (by simp)
      · exact (g3 p hp).imp_left (by simp +contextual)

theorem genRule_some (p : Str × Str) (q : PluralCategory × List Tok) (h : genRule p = some (some q)) :
    ∃ part cond, ThirdPart p.1 part ∧ categoryOfName part = q.1 ∧ q.1 ≠ .OTHER ∧
      Parser.parsePluralCondition 64 p.2 = .ok cond ∧ genPr cond = some q.2 := by
  unfold genRule Parser.usizeBits at h
  simp only [← Maps.thirdPart_iff]
  cases hp : (splitDash p.1)[2]? with
  | none => simp [hp] at h
  | some part =>
    cases hc : Parser.parsePluralCondition 64 p.2 with
    | error e => simp [hp, hc] at h
    | ok cond =>
      simp only [hp, hc] at h
      split at h
      · rename_i hne
        cases hg : genPr cond with
        | none => simp [hg] at h
        | some ts =>
          simp only [hg, Option.map_some, Option.some.injEq] at h
          subst h
          exact ⟨part, cond, rfl, rfl, hne, rfl, hg⟩
      · simp at h

theorem genRule_skip (p : Str × Str) (h : genRule p = some none) :
    ∃ part, ThirdPart p.1 part ∧ categoryOfName part = .OTHER := by
  unfold genRule at h
  simp only [← Maps.thirdPart_iff]
  cases hp : (splitDash p.1)[2]? with
  | none => simp [hp] at h
  | some part =>
    refine ⟨part, rfl, ?_⟩
    by_contra hne
    cases hc : Parser.parsePluralCondition Parser.usizeBits p.2 with
    | error e => simp [hp, hc] at h
    | ok cond =>
      simp only [hp, hc, if_pos hne] at h
      cases hg : genPr cond <;> simp [hg] at h

theorem thirdPart_unique {s p p' : Str} (h : ThirdPart s p) (h' : ThirdPart s p') : p = p' := by
  rw [← Maps.thirdPart_iff] at h h'; rw [h] at h'; exact Option.some.inj h'

end Verif.Gen
