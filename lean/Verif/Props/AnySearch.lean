import Verif.AnySearch
import Verif.Props.AnySort

/-!
# C92: which binary search std has does not matter
-/

namespace Verif.Props
open Verif Api Rust Uts35 Spec Verif.Parser Grammar Generate GenPr GenRs RulesRead Gen Maps

/-! ## The two algorithms -/

/-- A comparison that is `lt`, then `eq`, then `gt`. -/
def Mono (cmp : Nat → Ordering) (len : Nat) : Prop :=
  ∀ i j, i < j → j < len → (cmp j = .lt → cmp i = .lt) ∧ (cmp i = .gt → cmp j = .gt)

theorem searchLoop_std (cmp : Nat → Ordering) (len : Nat) (mono : Mono cmp len) :
    ∀ fuel left right, right ≤ len → left ≤ right → right - left ≤ fuel →
      (∀ i, i < left → cmp i = .lt) → (∀ i, right ≤ i → i < len → cmp i = .gt) →
      match searchLoop cmp fuel left right with
      | .ok i => i < len ∧ cmp i = .eq
      | .error i => i ≤ len ∧ (∀ j, j < i → cmp j = .lt) ∧ ∀ j, i ≤ j → j < len → cmp j = .gt := by
  intro fuel
  induction fuel with
  | zero =>
    intro left right hr hlr hf hlo hhi
    simp only [searchLoop]
    exact ⟨by omega, hlo, fun j h1 h2 => hhi j (by omega) h2⟩
  | succ fuel ih =>
    intro left right hr hlr hf hlo hhi
    simp only [searchLoop]
    by_cases hlt : left < right
    · rw [if_pos hlt]
      have hm : left + (right - left) / 2 < right := by omega
      have hm' : left ≤ left + (right - left) / 2 := by omega
      have hm2 : left + (right - left) / 2 - left ≤ fuel := by omega
      generalize left + (right - left) / 2 = mid at hm hm' hm2
      have hml : mid < len := by omega
      cases h : cmp mid with
      | lt =>
        refine ih _ _ hr (by omega) (by omega) (fun i hi => ?_) hhi
        by_cases he : i = mid
        · rw [he]; exact h
        · exact (mono i mid (by omega) hml).1 h
      | gt =>
        refine ih _ _ (by omega) (by omega) (by omega) hlo fun i hi hl => ?_
        by_cases he : i = mid
        · rw [he]; exact h
        · exact (mono mid i (by omega) hl).2 h
      | eq => exact ⟨hml, h⟩
    · rw [if_neg hlt]
      exact ⟨by omega, hlo, fun j h1 h2 => hhi j (by omega) h2⟩

theorem branchless_std (cmp : Nat → Ordering) (len : Nat) (mono : Mono cmp len) :
    ∀ fuel base size, 1 ≤ size → size ≤ fuel + 1 → base + size ≤ len →
      (∀ i, i < base → cmp base = .gt → False) → (∀ i, base + size ≤ i → i < len → cmp i = .gt) →
      let b := branchlessLoop cmp fuel base size
      b < len ∧ (0 < b → cmp b ≠ .gt) ∧ ∀ i, b < i → i < len → cmp i = .gt := by
  intro fuel
  induction fuel with
  | zero =>
    intro base size h1 h2 h3 h4 h5
    simp only [branchlessLoop]
    exact ⟨by omega, fun h e => h4 0 h e, fun i hi hl => h5 i (by omega) hl⟩
  | succ fuel ih =>
    intro base size h1 h2 h3 h4 h5
    simp only [branchlessLoop]
    by_cases hs : 1 < size
    · rw [if_pos hs]
      by_cases hg : cmp (base + size / 2) = .gt
      · rw [if_pos hg]
        refine ih _ _ (by omega) (by omega) (by omega) h4 fun i hi hl => ?_
        by_cases he : i = base + size / 2
        · rw [he]; exact hg
        · exact (mono (base + size / 2) i (by omega) hl).2 hg
      · rw [if_neg hg]
        exact ih _ _ (by omega) (by omega) (by omega) (fun i _ h => hg h) fun i hi hl => h5 i (by omega) hl
    · rw [if_neg hs]
      exact ⟨by omega, fun h e => h4 0 h e, fun i hi hl => h5 i (by omega) hl⟩

theorem keyCmp_mono (t : List (LangId × α)) (hs : t.Pairwise fun a b => LangId.cmp a.1 b.1 ≠ .gt) (key : LangId) :
    Mono (keyCmp t key) t.length := by
  have L := LangId.cmp_lawful
  intro i j hij hj
  have hi : i < t.length := by omega
  have h := List.pairwise_iff_getElem.1 hs i j hi hj hij
  simp only [keyCmp, List.getElem?_eq_getElem hi, List.getElem?_eq_getElem hj]
  cases hc : LangId.cmp t[i].1 t[j].1 with
  | gt => exact absurd hc h
  | eq => rw [L.eq_iff] at hc; rw [hc]; exact ⟨fun h => h, fun h => h⟩
  | lt =>
    refine ⟨fun h => L.trans _ _ _ hc h, fun h => ?_⟩
    rw [L.gt_iff] at h ⊢
    exact L.trans _ _ _ h hc

theorem insertion_place {t : List (LangId × α)} {key : LangId} {i : Nat} (h : i ≤ t.length)
    (h1 : ∀ j, j < i → keyCmp t key j = .lt) (h2 : ∀ j, i ≤ j → j < t.length → keyCmp t key j = .gt) :
    i ≤ t.length ∧ (∀ e ∈ t.take i, LangId.cmp e.1 key = .lt) ∧ ∀ e ∈ t.drop i, LangId.cmp e.1 key = .gt := by
  refine ⟨h, fun e he => ?_, fun e he => ?_⟩
  · obtain ⟨j, hj, rfl⟩ := List.getElem_of_mem he
    rw [List.length_take] at hj
    have := h1 j (by omega)
    rw [keyCmp, List.getElem?_eq_getElem (by omega)] at this
    rw [List.getElem_take]; exact this
  · obtain ⟨j, hj, rfl⟩ := List.getElem_of_mem he
    rw [List.length_drop] at hj
    have := h2 (i + j) (by omega) (by omega)
    rw [keyCmp, List.getElem?_eq_getElem (by omega)] at this
    rw [List.getElem_drop]; exact this

theorem match_of_eq {t : List (LangId × α)} {key : LangId} {i : Nat} (h : i < t.length) (he : keyCmp t key i = .eq) :
    ∃ v, t[i]? = some (key, v) := by
  simp only [keyCmp, List.getElem?_eq_getElem h, LangId.cmp_lawful.eq_iff] at he
  exact ⟨t[i].2, by rw [List.getElem?_eq_getElem h, ← he]⟩

/-- C92: the loop of the model, and the loop of the other versions of std, keep what std promises. -/
theorem C92_std : Searches (binarySearchByKey (α := α)) ∧ Searches (searchBranchless (α := α)) := by
  constructor
  · intro t key hs
    have := searchLoop_std (keyCmp t key) t.length (keyCmp_mono t hs key) t.length 0 t.length (by omega) (by omega) (by omega)
      (by intro i h; omega) (by intro i h h'; omega)
    unfold binarySearchByKey
    generalize searchLoop (keyCmp t key) t.length 0 t.length = r at this
    cases r with
    | ok i => exact match_of_eq this.1 this.2
    | error i => exact insertion_place this.1 this.2.1 this.2.2
  · intro t key hs
    have hm := keyCmp_mono t hs key
    unfold searchBranchless
    by_cases h0 : t.length = 0
    · rw [if_pos h0]
      have : t = [] := List.length_eq_zero_iff.1 h0
      subst this
      simp
    · rw [if_neg h0]
      obtain ⟨h1, h2, h3⟩ := branchless_std (keyCmp t key) t.length hm t.length 0 t.length (by omega) (by omega) (by omega)
        (by intro i h; omega) (by intro i h h'; omega)
      dsimp only
      generalize branchlessLoop (keyCmp t key) t.length 0 t.length = b at h1 h2 h3
      cases he : keyCmp t key b with
      | eq => exact match_of_eq h1 he
      | lt =>
        refine insertion_place (by omega) (fun j hj => ?_) fun j hj hl => h3 j (by omega) hl
        by_cases hb : j = b
        · rw [hb]; exact he
        · exact (hm j b (by omega) h1).1 he
      | gt =>
        have hb : b = 0 := by
          by_contra hb
          exact h2 (by omega) he
        refine insertion_place (by omega) (fun j hj => by omega) fun j hj hl => ?_
        by_cases e : j = b
        · rw [e]; exact he
        · exact h3 j (by omega) hl

/-! ## `create` -/

/-- C92: with any search that keeps the promise, `create` does not panic and gives the same result. -/
theorem C92_create (search : List (LangId × Closure) → LangId → Except Nat Nat) (h : Searches search) (id : LangId)
    (t : PluralRuleType) : createWith search id t = some (create id t) := by
  have hs := h (table t) id ((table_sorted t).imp fun h => by rw [h]; simp)
  unfold createWith
  cases hc : search (table t) id with
  | ok i =>
    rw [hc] at hs
    obtain ⟨v, hv⟩ := hs
    simp only [hv]
    rcases create_cases id t with ⟨w, hw, he⟩ | ⟨hn, -⟩
    · have : (id, v) = (id, w) := List.inj_on_of_nodup_map (C03_getLocales_nodup t) (List.mem_of_getElem? hv) hw rfl
      cases this
      rw [he]
    · exact absurd rfl (hn _ (List.mem_of_getElem? hv))
  | error i =>
    rw [hc] at hs
    obtain ⟨-, h1, h2⟩ := hs
    rcases create_cases id t with ⟨w, hw, -⟩ | ⟨-, he⟩
    · rw [← List.take_append_drop i (table t), List.mem_append] at hw
      rcases hw with hw | hw
      · have := h1 _ hw; rw [LangId.cmp_lawful.refl] at this; cases this
      · have := h2 _ hw; rw [LangId.cmp_lawful.refl] at this; cases this
    · rw [he]

example (id : LangId) (t : PluralRuleType) : createWith searchBranchless id t = some (create id t) :=
  C92_create _ C92_std.2 id t

/-! ## Generated tables -/

theorem alone {key : Str} {rules : RuleObj} {id : LangId} {set : List (PluralCategory × List Tok)} (hr : key ≠ c!"root")
    (hi : LangId.parse key = some id) (hg : genLocaleRules (btree rules) = some set) :
    genTypeRs LangId.parse [(key, rules)] = some [genMid id set] := by
  have h1 : btree [(key, btree rules)] = [(key, btree rules)] := rfl
  have h2 : (!(key == c!"root")) = true := by simpa using hr
  simp only [genTypeRs, genTypeEntries, List.map_cons, List.map_nil, h1, parseKeys, List.filter_cons, h2, if_pos,
    List.filter_nil, mapPanic, hi, Option.map_some, sortById, List.foldr_cons, List.foldr_nil, insertById, hg]

theorem readTable_any {l : List (LangId × List (PluralCategory × List Tok))} {table : List (LangId × Closure)}
    (ht : readTable (l.map fun p => genMid p.1 p.2) = some table) :
    List.Forall₂ (fun (p : LangId × List (PluralCategory × List Tok)) (e : LangId × Closure) =>
      readEntry (genMid p.1 p.2) = some e) l table := by
  have hf := Prec.mapPanic_some ht
  clear ht
  induction l generalizing table with
  | nil => cases hf; exact .nil
  | cons p l ih =>
    rw [List.map_cons] at hf
    cases hf with
    | cons h1 hf => exact .cons h1 (ih hf)

/-- C92: any search finds an identifier in a table made with any sorting algorithm exactly if it is that of a key but `root`,
and what it finds is what the generator makes of such a key alone.  Several keys may be spellings of the identifier. -/
theorem C92_found (search : List (LangId × Closure) → LangId → Except Nat Nat) (hsearch : Searches search)
    (sort : List (LangId × List (Str × Str)) → List (LangId × List (Str × Str))) (hsort : Sorts sort)
    (obj : TypeObj) (streams : List (List Tok)) (h : genTypeRsWith sort LangId.parse obj = some streams)
    (hp : PlainIds obj) (table : List (LangId × Closure)) (ht : readTable streams = some table) (id : LangId) :
    match search table id with
    | .ok i => ∃ f key rules s, table[i]? = some (id, f) ∧ LastOf obj key rules ∧ key ≠ c!"root" ∧ LangId.parse key = some id ∧
        genTypeRs LangId.parse [(key, rules)] = some [s] ∧ readEntry s = some (id, f)
    | .error _ => ∀ key rules, LastOf obj key rules → key ≠ c!"root" → LangId.parse key ≠ some id := by
  unfold genTypeRsWith at h
  cases hl : genTypeEntriesWith sort LangId.parse obj with
  | none => simp [hl] at h
  | some l =>
    cases hl' : genTypeEntries LangId.parse obj with
    | none => rw [(entries_perm sort hsort _ obj).1.2 hl'] at hl; cases hl
    | some l' =>
      simp only [hl, Option.map_some, Option.some.injEq] at h
      subst h
      obtain ⟨hperm, hsorted, -⟩ := (entries_perm sort hsort _ obj).2 l l' hl hl'
      have hw : ∀ p ∈ l, Writable p.1 := fun p hp' => plainIds_writable hp hl' p (hperm.mem_iff.1 hp')
      have hf := readTable_any ht
      have hid : l.map (·.1) = table.map (·.1) := by
        clear ht hl hperm hsorted
        induction hf with
        | nil => rfl
        | @cons p e _ _ h1 _ ih =>
          rw [readEntry_spec _ (hw p (by simp))] at h1
          cases hb : parseBody (ruleTokens p.2) with
          | none => simp [hb] at h1
          | some f =>
            simp only [hb, Option.map_some, Option.some.injEq] at h1
            subst h1
            simp only [List.map_cons, ih fun q hq => hw q (by simp [hq])]
      have hts : table.Pairwise fun a b => LangId.cmp a.1 b.1 ≠ .gt := by
        have h1 : (l.map (·.1)).Pairwise fun a b => LangId.cmp a b ≠ .gt := List.pairwise_map.2 hsorted
        rw [hid] at h1
        exact List.pairwise_map.1 h1
      have hs := hsearch table id hts
      cases hc : search table id with
      | ok i =>
        rw [hc] at hs
        obtain ⟨f, hv⟩ := hs
        obtain ⟨hi, he⟩ := List.getElem?_eq_some_iff.1 hv
        have hi' : i < l.length := by rw [hf.length_eq]; exact hi
        have h1 := List.forall₂_iff_get.1 hf |>.2 i hi' hi
        simp only [List.get_eq_getElem, he] at h1
        have h2 : l[i].1 = id := by
          have := congrArg (·[i]?) hid
          simp only [List.getElem?_map, List.getElem?_eq_getElem hi', hv, Option.map_some, Option.some.injEq] at this
          exact this
        obtain ⟨key, rules, h3, h4, h5, h6⟩ := ((entries_spec _ hl').1 l[i].1 l[i].2).1 (hperm.mem_iff.1 (List.getElem_mem hi'))
        exact ⟨f, key, rules, _, hv, h3, h4, by rw [h5, h2], alone h4 h5 h6, h1⟩
      | error i =>
        rw [hc] at hs
        obtain ⟨-, h1, h2⟩ := hs
        intro key rules h3 h4 h5
        have hm := (C48_listed _ _ _ hl' id).2 ⟨key, rules, h3, h4, h5⟩
        rw [← (hperm.map (·.1)).mem_iff, hid] at hm
        obtain ⟨e, he, hk⟩ := List.mem_map.1 hm
        rw [← List.take_append_drop i table, List.mem_append] at he
        rcases he with he | he
        · have := h1 _ he; rw [hk, LangId.cmp_lawful.refl] at this; cases this
        · have := h2 _ he; rw [hk, LangId.cmp_lawful.refl] at this; cases this

/-- Two searches and a table with one identifier three times: they find different entries. -/
example : let t : List (LangId × Nat) := ([c!"de", c!"en", c!"en", c!"en", c!"fr"].filterMap LangId.parse).zip [0, 1, 2, 3, 4]
    (LangId.parse c!"en").map (fun id => ((binarySearchByKey t id).toOption, (searchBranchless t id).toOption)) =
      some (some 2, some 3) ∧
    (LangId.parse c!"es").map (fun id => (binarySearchByKey t id).toOption) = some none := by decide +kernel

/-- Two keys that are spellings of one identifier. -/
def spellings : TypeObj := [(c!"en-US", []), (c!"en_us", [(c!"a-b-one", c!"i = 1")])]

/-- The hypotheses of `C92_found` hold, and the identifier is there twice. -/
example : PlainIds spellings ∧
    ((genTypeRsWith sortReversed LangId.parse spellings).bind readTable).map (·.map (·.1)) =
      some ([c!"en-US", c!"en-US"].filterMap LangId.parse) := by
  refine ⟨fun key rules h _ => ?_, by decide +kernel⟩
  have := (Maps.lastOf_nodup (by decide +kernel) key rules).1 h
  simp only [spellings, List.mem_cons, Prod.mk.injEq, List.not_mem_nil, or_false] at this
  rcases this with ⟨rfl, -⟩ | ⟨rfl, -⟩
  · exact ⟨⟨some c!"en", none, some c!"US", none⟩, by decide +kernel, by decide, rfl⟩
  · exact ⟨⟨some c!"en", none, some c!"US", none⟩, by decide +kernel, by decide, rfl⟩

end Verif.Props
