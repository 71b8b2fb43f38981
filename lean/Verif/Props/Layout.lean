import Verif.Lemmas.Torn
import Verif.Props.AnyRules

/-!
# C95: layouts of generated files, and the files of `--ugly`
-/

namespace Verif.Props
open Verif Api Rust Uts35 Spec Verif.Parser Verif.Grammar Generate GenPr GenRs RulesRead FileRead Gen Maps ResourceSpec Resource Lemmas

/-- The code of the relation compares `n` with a number: these numbers are written with a point. -/
def ComparesN (r : Relation) : Prop := r.expression = ⟨.N, none⟩ ∧ (IsWithin r.operator ∨ ∃ k, RangeListItem.value k ∈ r.rangeList)

/-- No rule of the entries but OTHER compares `n` with a number. -/
def NoFloats (obj : TypeObj) : Prop := ∀ key rules, LastOf obj key rules → key ≠ c!"root" →
  ∀ name c cond, TestedRule rules name c cond → ∀ a ∈ cond, ∀ r ∈ a, ¬ ComparesN r

/-! ## Points in generated tokens -/

def comparesN (r : Relation) : Bool := r.expression.operand == .N && r.expression.modulus.isNone &&
  (isWithin r.operator || !(convertRangl r.rangeList).1.isEmpty)

theorem convertRangl_values (l : List RangeListItem) : (convertRangl l).1 ≠ [] ↔ ∃ k, RangeListItem.value k ∈ l := by
  induction l with
  | nil => simp [convertRangl]
  | cons x l ih => cases x <;> simp [convertRangl, ih]

theorem comparesN_iff (r : Relation) : comparesN r = true ↔ ComparesN r := by
  obtain ⟨⟨o, m⟩, op, l⟩ := r
  have hv := convertRangl_values l
  have hw : isWithin op = true ↔ IsWithin op := by cases op <;> simp [isWithin, IsWithin]
  simp only [comparesN, ComparesN, Bool.and_eq_true, beq_iff_eq, Bool.or_eq_true, Option.isNone_iff_eq_none, Bool.not_eq_true',
    List.isEmpty_eq_false_iff, hv, hw, Expression.mk.injEq]

theorem pts_quiet {ts : List Tok} (h : ts.all quiet = true) : Pts ts false := by
  induction ts with
  | nil => exact ⟨rfl, rfl, rfl, rfl, rfl⟩
  | cons t ts ih =>
    simp only [List.all_cons, Bool.and_eq_true] at h
    exact pts_cons h.1 (ih h.2)

theorem quiet_number (k : Nat) : quiet (convertLiteral k) = true := rfl
theorem pts_one (k : Nat) : Pts [convertLiteral k] false := pts_quiet rfl
theorem pts_float (k : Nat) : Pts (qFloat (convertLiteral k)) true := ⟨rfl, rfl, rfl, rfl, rfl⟩
theorem pts_field (o : Operand) : Pts (qField o) false := by cases o <;> exact ⟨rfl, rfl, rfl, rfl, rfl⟩
theorem pts_fieldMod (o : Operand) (m : Nat) : Pts (qFieldMod o (convertLiteral m)) false := pts_left (pts_field o) (pts_quiet rfl)
theorem quiet_operator (o : Operator) : quiet (getOperatorSymbol o) = true := by cases o <;> rfl

theorem rangl_literals (l : List RangeListItem) :
    (∀ t ∈ (convertRangl l).1, ∃ n, t = convertLiteral n) ∧
    (∀ p ∈ (convertRangl l).2, ∃ a b, p = (convertLiteral a, convertLiteral b)) := by
  induction l with
  | nil => exact ⟨by simp [convertRangl], by simp [convertRangl]⟩
  | cons x l ih =>
    cases x with
    | value x =>
      refine ⟨fun t ht => ?_, ih.2⟩
      simp only [convertRangl, List.mem_cons] at ht
      rcases ht with rfl | ht
      · exact ⟨x, rfl⟩
      · exact ih.1 t ht
    | range a b =>
      refine ⟨ih.1, fun t ht => ?_⟩
      simp only [convertRangl, List.mem_cons] at ht
      rcases ht with rfl | ht
      · exact ⟨a, b, rfl⟩
      · exact ih.2 t ht

theorem pts_relation {r : Relation} {ts : List Tok} (h : createRelation r = some ts) : Pts ts (comparesN r) := by
  obtain ⟨⟨x, m⟩, o, l⟩ := r
  obtain ⟨h1, h2⟩ := rangl_literals l
  have ho := quiet_operator o
  have hb : x ≠ .N → (x == Operand.N) = false := fun h => by simpa using h
  unfold createRelation at h
  simp only at h
  split at h
  · rename_i hwi
    cases hw : withinTokens ⟨x, m⟩ o (convertRangl l).2 with
    | none => simp [hw] at h
    | some t =>
      simp only [hw, Option.map_some, Option.some.injEq, sepBy] at h
      subst h
      cases hc : (convertRangl l).2 with
      | nil => simp [hc, withinTokens] at hw
      | cons p rest =>
        obtain ⟨a, b, rfl⟩ := h2 p (by simp [hc])
        have key : ∀ f g s y, Pts f y → Pts g y → Pts s false →
            Pts (f ++ getOperatorSymbol o :: s ++ symAnd :: s ++ getOperatorSymbol o :: g) y := fun f g s y hf hg hs => by
          simpa using pts_append (pts_left (pts_left hf (pts_cons ho hs)) (pts_cons (t := symAnd) rfl hs)) (pts_cons ho hg)
        rw [hc] at hw
        unfold withinTokens at hw
        cases m <;> by_cases hx : x = .N <;> simp only [hx, if_true, if_false, Option.some.injEq] at hw <;> subst hw <;>
          simp only [comparesN, hx, hwi, hb, ne_eq, not_false_eq_true, Option.isNone_none, Option.isNone_some, Bool.and_true, Bool.true_or,
            Bool.and_false, beq_self_eq_true]
        · exact key _ _ _ _ (pts_float a) (pts_float b) (pts_field _)
        · exact key _ _ _ _ (pts_one a) (pts_one b) (pts_field _)
        · exact key _ _ _ _ (pts_one a) (pts_one b) (pts_fieldMod _ _)
        · exact key _ _ _ _ (pts_one a) (pts_one b) (pts_fieldMod _ _)
  · rename_i hwi
    have hv : ∀ t ∈ (convertRangl l).1, Pts (valueTokens ⟨x, m⟩ o t) (x == .N && m.isNone) := by
      intro t ht
      obtain ⟨n, rfl⟩ := h1 t ht
      unfold valueTokens
      cases m <;> by_cases hx : x = .N <;>
        simp only [hx, if_true, if_false, hb, ne_eq, not_false_eq_true, Option.isNone_none, Option.isNone_some, Bool.and_true,
          Bool.and_false, beq_self_eq_true]
      · exact pts_right (pts_field _) (pts_cons ho (pts_float n))
      · exact pts_right (pts_field _) (pts_cons ho (pts_one n))
      · exact pts_right (pts_fieldMod _ _) (pts_cons ho (pts_one n))
      · exact pts_right (pts_fieldMod _ _) (pts_cons ho (pts_one n))
    have hr : ∀ p ∈ (convertRangl l).2, Pts (rangeTokens ⟨x, m⟩ o p) false := by
      intro p hp
      obtain ⟨a, b, rfl⟩ := h2 p hp
      have kc : ∀ s, Pts s false → Pts (qContains (convertLiteral a) (convertLiteral b) s) false := fun s hs => by
        have : Pts [symOpen, convertLiteral a, symRange, convertLiteral b, symClose, symDot, .id c!"contains", symOpen, symAmp, symOpen] false :=
          ⟨rfl, rfl, rfl, rfl, rfl⟩
        have := pts_right this (pts_left hs (pts_quiet (ts := [symClose, symClose]) rfl))
        simpa [qContains] using this
      have key : ∀ s p, Pts s false → Pts p false → Pts (if isPositive o then qContains (convertLiteral a) (convertLiteral b) s ++ p
          else symNot :: qContains (convertLiteral a) (convertLiteral b) s ++ p) false := by
        intro s p hs hp
        split
        · exact pts_left (kc s hs) hp
        · exact pts_left (pts_cons (t := symNot) rfl (kc s hs)) hp
      have hperim : Pts qPerim false := ⟨rfl, rfl, rfl, rfl, rfl⟩
      unfold rangeTokens
      cases m <;> by_cases hx : x = .N <;> simp only [hx, if_true, if_false]
      · exact key _ _ (pts_field _) hperim
      · exact key _ _ (pts_field _) (pts_quiet rfl)
      · exact key _ _ (pts_field _) (pts_quiet rfl)
      · exact key _ _ (pts_fieldMod _ _) (pts_quiet rfl)
    have hall : ∀ sep, quiet sep = true → Pts (sepBy sep ((convertRangl l).1.map (valueTokens ⟨x, m⟩ o) ++
        (convertRangl l).2.map (rangeTokens ⟨x, m⟩ o))) (comparesN ⟨⟨x, m⟩, o, l⟩) := by
      intro sep hs
      have := pts_sepBy' hs ((convertRangl l).1.map (valueTokens ⟨x, m⟩ o) ++ (convertRangl l).2.map (rangeTokens ⟨x, m⟩ o)) (by
        intro y hy
        rcases List.mem_append.1 hy with hy | hy
        · obtain ⟨t, ht, rfl⟩ := List.mem_map.1 hy; exact ⟨_, hv t ht⟩
        · obtain ⟨t, ht, rfl⟩ := List.mem_map.1 hy; exact ⟨_, hr t ht⟩)
      have e : ((convertRangl l).1.map (valueTokens ⟨x, m⟩ o) ++ (convertRangl l).2.map (rangeTokens ⟨x, m⟩ o)).any pointLit =
          comparesN ⟨⟨x, m⟩, o, l⟩ := by
        have e2 : ((convertRangl l).2.map (rangeTokens ⟨x, m⟩ o)).any pointLit = false := by
          rw [List.any_eq_false]
          intro y hy
          obtain ⟨t, ht, rfl⟩ := List.mem_map.1 hy
          rw [(hr t ht).1]; simp
        rw [List.any_append, e2, Bool.or_false]
        simp only [comparesN, hwi, Bool.false_or]
        cases hc : (convertRangl l).1 with
        | nil => simp
        | cons t ts =>
          rw [hc] at hv
          rw [Bool.eq_iff_iff, List.any_eq_true]
          simp only [List.mem_map, exists_exists_and_eq_and, List.isEmpty_cons, Bool.not_false, Bool.and_true]
          exact ⟨fun ⟨a, ha, h⟩ => by rwa [(hv a ha).1] at h, fun h => ⟨t, by simp, by rw [(hv t (by simp)).1]; exact h⟩⟩
      rwa [e] at this
    split at h
    · split at h
      · cases h; exact pts_left (pts_cons (t := symOpen) rfl (hall _ rfl)) (pts_quiet rfl)
      · cases h; exact hall _ rfl
    · cases h; exact hall _ rfl

theorem pts_mapPanic {α} {f : α → Option (List Tok)} {g : α → Bool} {sep : Tok} (hs : quiet sep = true) {l : List α} {v : List (List Tok)}
    (h : mapPanic f l = some v) (hf : ∀ a ∈ l, ∀ b, f a = some b → Pts b (g a)) : Pts (sepBy sep v) (l.any g) := by
  have hv := Prec.mapPanic_some h
  have h1 := pts_sepBy' hs v fun x hx => by
    obtain ⟨a, ha, he⟩ := (mapPanic_mem h).2 x hx
    exact ⟨_, hf a ha x he⟩
  have : v.any pointLit = l.any g := by
    clear h1 h
    induction hv with
    | nil => rfl
    | @cons a b _ _ h _ ih =>
      rw [List.any_cons, List.any_cons, (hf a (by simp) b h).1, ih fun a ha => hf a (by simp [ha])]
  rwa [this] at h1

theorem pts_condition {c : Condition} {ts : List Tok} (h : genPr c = some ts) : Pts ts (c.any fun a => a.any comparesN) := by
  unfold genPr createCondition at h
  obtain ⟨l, hl, rfl⟩ := Option.map_eq_some_iff.1 h
  refine pts_mapPanic rfl hl fun a _ b hb => ?_
  obtain ⟨v, hv, rfl⟩ := Option.map_eq_some_iff.1 hb
  exact pts_left (pts_cons (t := symOpen) rfl (pts_mapPanic rfl hv fun r _ b hb => pts_relation hb)) (pts_quiet rfl)

theorem pts_cat (c : PluralCategory) : Pts (qCat c) false := pts_quiet (by cases c <;> rfl)

theorem pts_return {c : PluralCategory} (hc : c ≠ .OTHER) {e : List Tok} {b : Bool} (h : Pts e b) : Pts (createReturn c e) b := by
  have : createReturn c e = .id c!"if" :: e ++ qCat c := by cases c <;> first | rfl | exact absurd rfl hc
  rw [this]
  exact pts_left (pts_cons (t := .id c!"if") rfl h) (pts_cat c)

theorem pts_chain {set : List (PluralCategory × List Tok)} (h : ∀ q ∈ set, q.1 ≠ .OTHER ∧ ∃ b, Pts q.2 b) :
    Pts (ruleTokens set) (set.any fun q => pointLit q.2) := by
  have hp : ∀ q ∈ set, Pts q.2 (pointLit q.2) := fun q hq => by obtain ⟨-, b, hb⟩ := h q hq; exact ⟨rfl, hb.2⟩
  cases set with
  | nil => exact pts_cat _
  | cons p rest =>
    have key : ∀ (rest : List (PluralCategory × List Tok)) acc x, (∀ q ∈ rest, q.1 ≠ .OTHER ∧ Pts q.2 (pointLit q.2)) → Pts acc x →
        Pts (rest.foldl (fun tokens q => tokens ++ .id c!"else" :: createReturn q.1 q.2) acc) (x || rest.any fun q => pointLit q.2) := by
      intro rest
      induction rest with
      | nil => intro acc x _ h; simpa using h
      | cons q rest ih =>
        intro acc x hq ha
        have := ih _ _ (fun x hx => hq x (by simp [hx]))
          (pts_append ha (pts_cons (t := .id c!"else") rfl (pts_return (hq q (by simp)).1 (hq q (by simp)).2)))
        simpa [Bool.or_assoc] using this
    exact pts_left (key rest _ _ (fun q hq => ⟨(h q (by simp [hq])).1, hp q (by simp [hq])⟩)
      (pts_return (h p (by simp)).1 (hp p (by simp)))) (pts_cons (t := .id c!"else") rfl (pts_cat _))

theorem categoryOfName_name {c : PluralCategory} (hc : c ≠ .OTHER) (part : Str) : categoryOfName part = c ↔ part = cldrName c := by
  constructor
  · rintro rfl
    unfold categoryOfName at hc ⊢
    split_ifs at hc ⊢ <;> first | assumption | exact absurd rfl hc
  · rintro rfl
    cases c <;> rfl

theorem pts_rules {rules : RuleObj} {set : List (PluralCategory × List Tok)} (h : genLocaleRules (btree rules) = some set) :
    (∀ q ∈ set, q.1 ≠ .OTHER ∧ ∃ b, Pts q.2 b) ∧
    ((set.any fun q => pointLit q.2) = true ↔ ∃ name c cond, TestedRule rules name c cond ∧ ∃ a ∈ cond, ∃ r ∈ a, ComparesN r) := by
  obtain ⟨l, hl, rfl⟩ := Option.map_eq_some_iff.1 h
  have hq : ∀ q ∈ l.filterMap id, ∃ p ∈ btree rules, genRule p = some (some q) := by
    intro q hq
    obtain ⟨o, ho, hq⟩ := List.mem_filterMap.1 hq
    obtain ⟨p, hp, he⟩ := (mapPanic_mem hl).2 o ho
    rw [id_eq] at hq
    subst hq
    exact ⟨p, hp, he⟩
  have hany : ∀ cond : Condition, (cond.any fun a => a.any comparesN) = true ↔ ∃ a ∈ cond, ∃ r ∈ a, ComparesN r := fun cond => by
    simp only [List.any_eq_true, comparesN_iff]
  refine ⟨fun q h => ?_, ?_⟩
  · obtain ⟨p, -, hp⟩ := hq q h
    obtain ⟨_, cond, -, -, h1, -, h2⟩ := genRule_some p q hp
    exact ⟨h1, _, pts_condition h2⟩
  rw [List.any_eq_true]
  constructor
  · rintro ⟨q, h, hx⟩
    obtain ⟨p, hm, hp⟩ := hq q h
    obtain ⟨part, cond, h1, h2, h3, h4, h5⟩ := genRule_some p q hp
    rw [(pts_condition h5).1, hany] at hx
    have : part = cldrName q.1 := (categoryOfName_name h3 part).1 h2
    subst this
    exact ⟨p.1, q.1, cond, ⟨h3, h1, p.2, ((btree_spec rules).2 _ _).1 hm, parsePluralCondition_ok.1 h4⟩, hx⟩
  · rintro ⟨name, c, cond, ⟨h3, h1, text, hlast, h4⟩, hx⟩
    have hm : (name, text) ∈ btree rules := ((btree_spec rules).2 _ _).2 hlast
    obtain ⟨o, ho, he⟩ := (mapPanic_mem hl).1 _ hm
    cases o with
    | none =>
      obtain ⟨part, k1, k2⟩ := genRule_skip _ he
      cases thirdPart_unique h1 k1
      rw [(categoryOfName_name h3 _).2 rfl] at k2
      exact absurd k2 h3
    | some q =>
      obtain ⟨part, cond', k1, k2, k3, k4, k5⟩ := genRule_some _ q he
      rw [parsePluralCondition_ok.2 h4] at k4
      cases k4
      refine ⟨q, List.mem_filterMap.2 ⟨_, ho, rfl⟩, ?_⟩
      rw [(pts_condition k5).1, hany]
      exact hx

theorem pts_langid (id : LangId) : Pts (genLangid id) false := by
  obtain ⟨l, s, r, v⟩ := id
  cases l <;> cases s <;> cases r <;> exact ⟨rfl, rfl, rfl, rfl, rfl⟩

theorem pts_entry (id : LangId) {set : List (PluralCategory × List Tok)} {b : Bool} (h : Pts (ruleTokens set) b) : Pts (genMid id set) b :=
  pts_left (pts_right (pts_cons (t := symOpen) rfl (pts_langid id))
    (pts_right (a := [.sym c!",", .sym c!"|", .id c!"po", .sym c!"|", symLBrace]) (pts_quiet rfl) h)) (pts_quiet rfl)

theorem pts_streams {obj : TypeObj} {l : List (List Tok)} (h : genTypeRs LangId.parse obj = some l) :
    (∀ ts ∈ l, ∃ b, Pts ts b) ∧ (l.any pointLit = false ↔ NoFloats obj) := by
  have hsome : genTypeRs LangId.parse obj ≠ none := by rw [h]; simp
  rw [genTypeRs_isSome] at hsome
  unfold genTypeRs at h
  obtain ⟨es, he, rfl⟩ := Option.map_eq_some_iff.1 h
  obtain ⟨hspec, -, -⟩ := entries_spec LangId.parse he
  have hone : ∀ p ∈ es, ∃ b, Pts (genMid p.1 p.2) b := by
    rintro ⟨id, set⟩ hp
    obtain ⟨key, rules, h1, h2, h3, h4⟩ := (hspec id set).1 hp
    exact ⟨_, pts_entry id (pts_chain (pts_rules h4).1)⟩
  refine ⟨fun ts hts => ?_, ?_⟩
  · obtain ⟨p, hp, rfl⟩ := List.mem_map.1 hts
    exact hone p hp
  rw [List.any_eq_false]
  constructor
  · intro hall key rules h1 h2 name c cond ht a ha r hr hx
    obtain ⟨h3, h4⟩ := hsome key rules h1 h2
    obtain ⟨id, h3⟩ := Option.ne_none_iff_exists'.1 h3
    obtain ⟨set, h4⟩ := Option.ne_none_iff_exists'.1 h4
    have hm := (hspec id set).2 ⟨key, rules, h1, h2, h3, h4⟩
    refine hall _ (List.mem_map.2 ⟨_, hm, rfl⟩) ?_
    rw [(pts_entry id (pts_chain (pts_rules h4).1)).1]
    exact (pts_rules h4).2.2 ⟨name, c, cond, ht, a, ha, r, hr, hx⟩
  · intro hall ts hts hp
    obtain ⟨⟨id, set⟩, hm, rfl⟩ := List.mem_map.1 hts
    obtain ⟨key, rules, h1, h2, h3, h4⟩ := (hspec id set).1 hm
    rw [(pts_entry id (pts_chain (pts_rules h4).1)).1] at hp
    obtain ⟨name, c, cond, ht, a, ha, r, hr, hx⟩ := (pts_rules h4).2.1 hp
    exact hall key rules h1 h2 name c cond ht a ha r hr hx

theorem pts_type (ty : RuleType) {l : List (List Tok)} (h : ∀ ts ∈ l, ∃ b, Pts ts b) : Pts (createPrType ty l) (l.any pointLit) :=
  pts_left (pts_right (pts_quiet (by cases ty <;> rfl)) (pts_sepBy' rfl l h)) (pts_quiet rfl)

theorem pts_head (n : Nat) : Pts (head n) false := pts_quiet rfl

/-- The points of the tokens of a generated file. -/
theorem pts_generated {rs : List Generate.Resource} {toks : List Tok} (h : generateTokens LangId.parse rs = some toks) :
    ∃ b, Pts toks b ∧ (b = false ↔ ∀ t, ∀ obj, rs.filterMap (dataOf t) = [obj] → NoFloats obj) := by
  obtain ⟨s, v, num, hl, -, -, -, -, rfl⟩ := Lemmas.generateTokens_parts LangId.parse rs toks h
  obtain ⟨f1, f2, -⟩ := Lemmas.genLoop_from LangId.parse rs _ s hl
  have key : ∀ ty data (o : Option (List (List Tok))), Lemmas.From LangId.parse data none o →
      ∃ b, Pts ((o.toList.map fun l => createPrType ty l).flatten) b ∧ (b = false ↔ ∀ obj, data = [obj] → NoFloats obj) := by
    rintro ty data o (⟨rfl, rfl⟩ | ⟨obj, l', rfl, -, hobj, rfl⟩)
    · exact ⟨false, pts_quiet rfl, by simp⟩
    · refine ⟨_, by simpa using pts_type ty (pts_streams hobj).1, ?_⟩
      rw [(pts_streams hobj).2]
      simp
  obtain ⟨b1, k1, k2⟩ := key .cardinal _ _ f1
  obtain ⟨b2, k3, k4⟩ := key .ordinal _ _ f2
  refine ⟨b1 || b2, ?_, ?_⟩
  · rw [List.flatten_append]
    exact pts_right (pts_head _) (pts_append k1 k3)
  · rw [Bool.or_eq_false_iff, k2, k4]
    exact ⟨fun h t => by cases t; exacts [h.2, h.1], fun h => ⟨h .CARDINAL, h .ORDINAL⟩⟩

/-! ## C95 -/

/-- `text` has the tokens of `out`, with other white space between them. -/
def LayoutOf (out text : Str) (l : List (Str × Tok)) : Prop := l.map (·.2) = lex out ∧ Layout.Of l text

theorem generated_tokens {texts : List Str} {out : Str} (h : generateText LangId.parse texts = some out) :
    ∃ rs toks, List.Forall₂ ResourceText texts rs ∧ generateTokens LangId.parse rs = some toks ∧ out = render toks ∧ lex out = toks ∧
      ∀ t ∈ toks, clean t = true := by
  unfold generateText at h
  cases hr : mapPanic parseResource texts with
  | none => simp [hr] at h
  | some rs =>
    simp only [hr] at h
    cases hg : generateTokens LangId.parse rs with
    | none => simp [generateRs, hg] at h
    | some toks =>
      obtain ⟨h1, h2⟩ := C58_lexes_back LangId.parse rs toks hg
      rw [h1, Option.some.injEq] at h
      refine ⟨rs, toks, (Prec.mapPanic_some hr).imp fun _ _ h => (C57_resource _ _).1 h, hg, h.symm, by rw [← h, h2], ?_⟩
      exact fun t ht => List.all_eq_true.1 (generateTokens_clean LangId.parse rs toks hg) t ht

theorem formatted_of_lex {out text : Str} (h : lex text = lex out) (ht : torn false text = false) : Formatted out text := by
  refine ⟨?_, ht⟩
  rw [h]
  cases readFile (lex out) with
  | none => exact .inl ⟨rfl, rfl⟩
  | some items => exact .inr ⟨items, items, rfl, rfl, .refl _⟩

/-- C95: white space does not matter: however the tokens of a generated file are laid out, they are read back the same. -/
theorem C95_tokens (texts : List Str) (out : Str) (h : generateText LangId.parse texts = some out) (text : Str) (l : List (Str × Tok))
    (hl : LayoutOf out text l) : lex text = lex out := by
  obtain ⟨rs, toks, -, -, -, h4, h5⟩ := generated_tokens h
  rw [lex_layOut (fun p hp => h5 _ (by rw [← h4, ← hl.1]; exact List.mem_map.2 ⟨p, hp, rfl⟩)) hl.2, hl.1]

/-- C95: but for the numbers with a point: the layout is a formatted file in the sense of C93 and C94 exactly if there is no white space
in these, and else the library does not compile with it. -/
theorem C95_layout (texts : List Str) (out : Str) (h : generateText LangId.parse texts = some out) (text : Str) (l : List (Str × Tok))
    (hl : LayoutOf out text l) : (Formatted out text ↔ Layout.joined l = true) ∧ (Layout.joined l = false → build text = none) := by
  obtain ⟨rs, toks, -, h2, -, h4, h5⟩ := generated_tokens h
  obtain ⟨b, hb, -⟩ := pts_generated h2
  have hm : ∀ p ∈ l, p.2 ∈ toks := fun p hp => by rw [← h4, ← hl.1]; exact List.mem_map.2 ⟨p, hp, rfl⟩
  have ht : torn false text = !Layout.joined l := by
    obtain ⟨g1, g2, w, g3, g4⟩ := hl.2
    rw [g4]
    exact torn_layOut l (fun p hp => h5 _ (hm p hp)) (fun p hp => List.all_eq_true.1 hb.2.2.2.2 _ (hm p hp)) g1 w g3
  refine ⟨⟨fun hf => ?_, fun hj => formatted_of_lex (C95_tokens texts out h text l hl) (by rw [ht, hj]; rfl)⟩, fun hj => ?_⟩
  · have := hf.2
    rw [ht] at this
    simpa using this
  · unfold build
    rw [ht, hj]; rfl

/-- C95: every generated file can be laid out so. -/
theorem C95_exists (texts : List Str) (out : Str) (h : generateText LangId.parse texts = some out) :
    ∃ text l, LayoutOf out text l ∧ Formatted out text := by
  obtain ⟨rs, toks, -, h2, -, h4, h5⟩ := generated_tokens h
  obtain ⟨b, hb, -⟩ := pts_generated h2
  obtain ⟨l, text, g1, g2, g3⟩ := joined_layout toks hb.2.2.1
  exact ⟨text, l, ⟨by rw [g1, h4], g2⟩, ((C95_layout texts out h text l ⟨by rw [g1, h4], g2⟩).1).2 g3⟩

/-- C95: as written, that is with `--ugly`, the file is formatted exactly if no rule compares `n` with a number. -/
theorem C95_formatted (texts : List Str) (rs : List Generate.Resource) (hr : List.Forall₂ ResourceText texts rs) (out : Str)
    (h : generateText LangId.parse texts = some out) :
    Formatted out out ↔ ∀ t obj, rs.filterMap (dataOf t) = [obj] → NoFloats obj := by
  obtain ⟨rs', toks, hr', h2, h3, h4, h5⟩ := generated_tokens h
  have : rs' = rs := by
    clear h h2
    induction hr' generalizing rs with
    | nil => cases hr; rfl
    | cons h1 _ ih =>
      cases hr with
      | cons g1 g =>
        have e := (C57_resource _ _).2 h1
        rw [(C57_resource _ _).2 g1] at e; cases e
        rw [ih _ g]
  subst this
  obtain ⟨b, hb, hb'⟩ := pts_generated h2
  obtain ⟨l, g1, g2, g3⟩ := render_layout toks
  rw [← h3] at g2
  rw [(C95_layout texts out h out l ⟨by rw [g1, h4], g2⟩).1, g3, hb.1, ← hb']
  simp

/-- C95: so the library compiles with the file as written exactly under the conditions of C93 and if no rule compares `n` with a
number: with the CLDR files of the repository it does not. -/
theorem C95_ugly (texts : List Str) (rs : List Generate.Resource) (hr : List.Forall₂ ResourceText texts rs) (out : Str)
    (h : generateText LangId.parse texts = some out) :
    build out ≠ none ↔ ∀ t, ∃ obj, rs.filterMap (dataOf t) = [obj] ∧ TypeCompiles obj ∧ NoFloats obj := by
  have hf := C95_formatted texts rs hr out h
  constructor
  · intro hb
    have hff : Formatted out out := by
      refine formatted_of_lex rfl ?_
      cases ht : torn false out with
      | false => rfl
      | true => exact absurd (by unfold build; rw [ht]; rfl) hb
    intro t
    obtain ⟨obj, h1, h2⟩ := (C93_compiles texts rs hr out h out hff).1 hb t
    exact ⟨obj, h1, h2, hf.1 hff t obj h1⟩
  · intro hc
    refine (C93_compiles texts rs hr out h out (hf.2 fun t obj ho => ?_)).2 fun t => ?_
    · obtain ⟨obj', h1, -, h2⟩ := hc t
      rw [ho] at h1; cases h1; exact h2
    · obtain ⟨obj, h1, h2, -⟩ := hc t
      exact ⟨obj, h1, h2⟩

/-- C95: with the CLDR files of the repository the generated file does not compile as written, and the shipped rules.rs is a formatted
form of it. -/
theorem C95_shipped : ∃ out, generateText LangId.parse [CldrText.cardinals, CldrText.ordinals] = some out ∧ build out = none ∧
    Formatted out RulesText.rules := by
  obtain ⟨out, items, h1, h2, h3, -⟩ := C61_regenerated
  refine ⟨out, h1, ?_, .inr ⟨items, _, h2, C61_rules_file, h3.symm⟩, rules_joined⟩
  have hr : List.Forall₂ ResourceText [CldrText.cardinals, CldrText.ordinals] [CldrData.cardinalResource, CldrData.ordinalResource] :=
    .cons ((C57_resource _ _).1 C61_cldr_files.1) (.cons ((C57_resource _ _).1 C61_cldr_files.2) .nil)
  refine Classical.byContradiction fun hb => ?_
  obtain ⟨obj, g1, -, g2⟩ := (C95_ugly _ _ hr out h1).1 hb .CARDINAL
  have hobj : obj = CldrData.cardinal := by
    have : [CldrData.cardinal] = [obj] := g1
    exact (List.cons.inj this).1.symm
  subst hobj
  have hm : (c!"af", CldrData.cardinalRules0) ∈ btree CldrData.cardinal := by decide +kernel
  refine g2 c!"af" CldrData.cardinalRules0 (((btree_spec _).2 _ _).1 hm) (by decide) c!"pluralRule-count-one" .ONE
    [[⟨⟨.N, none⟩, .EQ, [.value 1]⟩]] ⟨by decide, ⟨c!"pluralRule", c!"count", [], by decide, by decide, by decide, rfl, .inl rfl⟩, _, ⟨[], [_], rfl, by decide⟩,
      parsePluralCondition_ok.1 (by with_unfolding_all rfl)⟩ _ (List.mem_singleton.2 rfl) _ (List.mem_singleton.2 rfl) ⟨rfl, .inr ⟨1, by simp⟩⟩

/-! ## Examples -/

/-- The raw file for a rule `n = 1` has `1 . 0`; with blanks in other places only it compiles. -/
example : (generateText LangId.parse [libraryFile c!"cardinal" c!"\"en\":{\"pluralRule-count-one\":\"n = 1\"}", libraryFile c!"ordinal" []]).map
    (fun out => (build out).isSome) = some false := by decide +kernel
example : (generateText LangId.parse [libraryFile c!"cardinal" c!"\"en\":{\"pluralRule-count-one\":\"n = 1\"}", libraryFile c!"ordinal" []]).map
    (fun out => (build (Layout.layOut (match lex out with | [] => [] | t :: r => ([], t) :: joinSpace t r) ++ c!"\n")).isSome) = some true := by decide +kernel
/-- The rules of C93 that do not compare `n` with a number compile as written: `n = 1..2` does not, nor `n % 10 = 2`. -/
example : ∀ rule ∈ [c!"n = 1..2", c!"n % 10 = 2", c!"i = 1"], libraryOf (c!"\"en\":{\"pluralRule-count-one\":\"" ++ rule ++ c!"\"}") [] ≠ none := by decide +kernel
example : ∀ rule ∈ [c!"n = 1", c!"n != 1..2, 5", c!"n within 1..2"], libraryOf (c!"\"en\":{\"pluralRule-count-one\":\"" ++ rule ++ c!"\"}") [] = none := by
  decide +kernel

end Verif.Props
