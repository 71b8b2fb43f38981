import Verif.InputSpec
import Verif.Generate
import Verif.Lemmas.Order
import Verif.Lemmas.Strings
import Verif.Lemmas.Precedence
import Mathlib.Data.List.Perm.Basic
import Mathlib.Data.List.Sort

/-! Helper lemmas for C45–C48: `BTreeMap`s as sorted lists, sorting by identifier, and the loop over the files. -/

namespace Verif.Maps
open Verif Spec Generate LangId

/-! ## Sorted lists of members -/

/-- Sorted by key, each key once. -/
def Sorted (m : List (Str × α)) : Prop := m.Pairwise fun a b => cmpStr a.1 b.1 = .lt

theorem cmpStr_ne {a b : Str} (h : cmpStr a b = .lt) : a ≠ b := by
  rintro rfl; rw [cmpStr_lawful.refl] at h; cases h

theorem mem_insertKey (k : Str) (v : α) (m : List (Str × α)) (h : Sorted m) (p : Str × α) :
    p ∈ insertKey k v m ↔ p = (k, v) ∨ (p.1 ≠ k ∧ p ∈ m) := by
  induction m with
  | nil => simp [insertKey]
  | cons q r ih =>
    obtain ⟨k', v'⟩ := q
    have hr : Sorted r := (List.pairwise_cons.1 h).2
    have hlt : ∀ x ∈ r, cmpStr k' x.1 = .lt := (List.pairwise_cons.1 h).1
    simp only [insertKey]
    cases hc : cmpStr k k' with
    | lt =>
      have : ∀ x ∈ (k', v') :: r, x.1 ≠ k := by
        intro x hx
        rcases List.mem_cons.1 hx with rfl | hx
        · exact (cmpStr_ne hc).symm
        · exact (cmpStr_ne (cmpStr_lawful.trans _ _ _ hc (hlt x hx))).symm
      constructor
      · intro hp
        rcases List.mem_cons.1 hp with rfl | hp
        · exact .inl rfl
        · exact .inr ⟨this p hp, hp⟩
      · rintro (rfl | ⟨-, hp⟩)
        · simp
        · exact List.mem_cons_of_mem _ hp
    | eq =>
      rw [cmpStr_lawful.eq_iff] at hc; subst hc
      have : ∀ x ∈ r, x.1 ≠ k := fun x hx => (cmpStr_ne (hlt x hx)).symm
      constructor
      · intro hp
        rcases List.mem_cons.1 hp with rfl | hp
        · exact .inl rfl
        · exact .inr ⟨this p hp, by simp [hp]⟩
      · rintro (rfl | ⟨hne, hp⟩)
        · simp
        · rcases List.mem_cons.1 hp with rfl | hp
          · exact absurd rfl hne
          · simp [hp]
    | gt =>
      have hne : k' ≠ k := cmpStr_ne ((cmpStr_lawful.gt_iff _ _).1 hc)
      rw [List.mem_cons, ih hr, List.mem_cons]
      constructor
      · rintro (rfl | rfl | ⟨h1, h2⟩)
        · exact .inr ⟨hne, .inl rfl⟩
        · exact .inl rfl
        · exact .inr ⟨h1, .inr h2⟩
      · rintro (rfl | ⟨h1, rfl | h2⟩)
        · exact .inr (.inl rfl)
        · exact .inl rfl
        · exact .inr (.inr ⟨h1, h2⟩)

theorem insertKey_sorted (k : Str) (v : α) (m : List (Str × α)) (h : Sorted m) : Sorted (insertKey k v m) := by
  induction m with
  | nil => simp [insertKey, Sorted]
  | cons q r ih =>
    obtain ⟨k', v'⟩ := q
    have hr : Sorted r := (List.pairwise_cons.1 h).2
    have hlt : ∀ x ∈ r, cmpStr k' x.1 = .lt := (List.pairwise_cons.1 h).1
    simp only [insertKey]
    cases hc : cmpStr k k' with
    | lt =>
      refine List.pairwise_cons.2 ⟨fun x hx => ?_, h⟩
      rcases List.mem_cons.1 hx with rfl | hx
      · exact hc
      · exact cmpStr_lawful.trans _ _ _ hc (hlt x hx)
    | eq =>
      rw [cmpStr_lawful.eq_iff] at hc; subst hc
      exact List.pairwise_cons.2 ⟨hlt, hr⟩
    | gt =>
      refine List.pairwise_cons.2 ⟨fun x hx => ?_, ih hr⟩
      rcases (mem_insertKey k v r hr x).1 hx with rfl | ⟨-, hx⟩
      · exact (cmpStr_lawful.gt_iff _ _).1 hc
      · exact hlt x hx

theorem lastOf_snoc (m : List (Str × α)) (p : Str × α) (k : Str) (v : α) :
    LastOf (m ++ [p]) k v ↔ (k, v) = p ∨ (k ≠ p.1 ∧ LastOf m k v) := by
  constructor
  · rintro ⟨a, b, h, hb⟩
    rcases List.eq_nil_or_concat b with rfl | ⟨b', q, rfl⟩
    · have := List.append_inj_right' h rfl
      simp at this; exact .inl this.symm
    · have h' : m ++ [p] = (a ++ (k, v) :: b') ++ [q] := by simpa using h
      have e1 := List.append_inj_left' h' rfl
      have e2 := List.append_inj_right' h' rfl
      simp at e2; subst e2
      refine .inr ⟨fun e => hb p (by simp) e.symm, a, b', e1, fun x hx => hb x (by simp [hx])⟩
  · rintro (rfl | ⟨hne, a, b, rfl, hb⟩)
    · exact ⟨m, [], rfl, by simp⟩
    · refine ⟨a, b ++ [p], by simp, fun x hx => ?_⟩
      rcases List.mem_append.1 hx with hx | hx
      · exact hb x hx
      · simp at hx; subst hx; exact hne.symm

theorem btree_spec (m : List (Str × α)) : Sorted (btree m) ∧ ∀ k v, (k, v) ∈ btree m ↔ LastOf m k v := by
  induction m using List.reverseRecOn with
  | nil =>
    refine ⟨by simp [btree, Sorted], fun k v => ?_⟩
    simp [btree, LastOf]
  | append_singleton m p ih =>
    have e : btree (m ++ [p]) = insertKey p.1 p.2 (btree m) := by simp [btree]
    rw [e]
    refine ⟨insertKey_sorted _ _ _ ih.1, fun k v => ?_⟩
    rw [mem_insertKey _ _ _ ih.1, lastOf_snoc, ih.2]

theorem sorted_ext {m m' : List (Str × α)} (h : Sorted m) (h' : Sorted m') (he : ∀ p, p ∈ m ↔ p ∈ m') : m = m' := by
  induction m generalizing m' with
  | nil =>
    cases m' with
    | nil => rfl
    | cons q r => exact absurd ((he q).2 (by simp)) (by simp)
  | cons p r ih =>
    cases m' with
    | nil => exact absurd ((he p).1 (by simp)) (by simp)
    | cons q r' =>
      obtain ⟨h1, h2⟩ := List.pairwise_cons.1 h
      obtain ⟨h1', h2'⟩ := List.pairwise_cons.1 h'
      have hirr : ∀ x : Str × α, cmpStr x.1 x.1 ≠ .lt := fun x hx => cmpStr_ne hx rfl
      have hpq : p = q := by
        rcases List.mem_cons.1 ((he p).1 (by simp)) with e | hp
        · exact e
        rcases List.mem_cons.1 ((he q).2 (by simp)) with e | hq
        · exact e.symm
        · exact absurd (cmpStr_lawful.trans _ _ _ (h1 q hq) (h1' p hp)) (hirr p)
      subst hpq
      congr 1
      refine ih h2 h2' fun x => ?_
      constructor
      · intro hx
        rcases List.mem_cons.1 ((he x).1 (by simp [hx])) with rfl | h
        · exact absurd (h1 x hx) (hirr x)
        · exact h
      · intro hx
        rcases List.mem_cons.1 ((he x).2 (by simp [hx])) with rfl | h
        · exact absurd (h1' x hx) (hirr x)
        · exact h

theorem btree_ext {m m' : List (Str × α)} (h : ∀ k v, LastOf m k v ↔ LastOf m' k v) : btree m = btree m' := by
  refine sorted_ext (btree_spec m).1 (btree_spec m').1 fun p => ?_
  obtain ⟨k, v⟩ := p
  rw [(btree_spec m).2, (btree_spec m').2, h]

theorem lastOf_nodup {m : List (Str × α)} (h : (m.map (·.1)).Nodup) (k : Str) (v : α) : LastOf m k v ↔ (k, v) ∈ m := by
  constructor
  · rintro ⟨a, b, rfl, -⟩; simp
  · intro hm
    obtain ⟨a, b, rfl⟩ := List.append_of_mem hm
    refine ⟨a, b, rfl, fun p hp he => ?_⟩
    simp only [List.map_append, List.map_cons] at h
    have := (List.nodup_append.1 h).2.1
    rw [List.nodup_cons] at this
    exact this.1 (List.mem_map.2 ⟨p, hp, he⟩)

theorem lastOf_map (f : α → β) (m : List (Str × α)) (k : Str) (w : β) :
    LastOf (m.map fun p => (p.1, f p.2)) k w ↔ ∃ v, LastOf m k v ∧ f v = w := by
  constructor
  · rintro ⟨a, b, h, hb⟩
    obtain ⟨a', c, rfl, rfl, h2⟩ := List.map_eq_append_iff.1 h
    obtain ⟨q, b', rfl, hq, rfl⟩ := List.map_eq_cons_iff.1 h2
    obtain ⟨k', v⟩ := q
    simp only [Prod.mk.injEq] at hq
    obtain ⟨rfl, rfl⟩ := hq
    exact ⟨v, ⟨a', b', rfl, fun p hp => hb _ (List.mem_map.2 ⟨p, hp, rfl⟩)⟩, rfl⟩
  · rintro ⟨v, ⟨a, b, rfl, hb⟩, rfl⟩
    refine ⟨_, _, by rw [List.map_append, List.map_cons], fun p hp => ?_⟩
    obtain ⟨q, hq, rfl⟩ := List.mem_map.1 hp
    exact hb q hq

theorem lastOf_unique {m : List (Str × α)} {k : Str} {v v' : α} (h : LastOf m k v) (h' : LastOf m k v') : v = v' := by
  have h1 := (btree_spec m).1
  have h2 := ((btree_spec m).2 k v).2 h
  have h3 := ((btree_spec m).2 k v').2 h'
  generalize btree m = l at h1 h2 h3
  have hk : (l.map (·.1)).Nodup := List.pairwise_map.2 (h1.imp fun h => cmpStr_ne h)
  exact congrArg Prod.snd (List.inj_on_of_nodup_map hk h2 h3 rfl)

theorem mem_keys_lastOf {m : List (Str × α)} {k : Str} (h : k ∈ m.map (·.1)) : ∃ v, LastOf m k v := by
  induction m using List.reverseRecOn with
  | nil => simp at h
  | append_singleton m p ih =>
    by_cases hk : k = p.1
    · exact ⟨p.2, (lastOf_snoc ..).2 (.inl (by rw [hk]))⟩
    · obtain ⟨v, hv⟩ := ih (by simpa [hk] using h)
      exact ⟨v, (lastOf_snoc ..).2 (.inr ⟨hk, hv⟩)⟩

/-! ## Sorting by identifier -/

theorem insertById_perm (x : LangId × α) (l : List (LangId × α)) : (insertById x l).Perm (x :: l) := by
  induction l with
  | nil => exact .refl _
  | cons y r ih =>
    simp only [insertById]
    split
    · exact ((List.Perm.cons y ih).trans (.swap ..))
    · exact .refl _

theorem sortById_perm (l : List (LangId × α)) : (sortById l).Perm l := by
  induction l with
  | nil => exact .refl _
  | cons x l ih => exact (insertById_perm x _).trans (.cons x ih)

theorem insertById_sorted (x : LangId × α) (l : List (LangId × α)) (h : l.Pairwise fun a b => LangId.cmp a.1 b.1 ≠ .gt) :
    (insertById x l).Pairwise fun a b => LangId.cmp a.1 b.1 ≠ .gt := by
  have L := cmp_lawful
  have htr : ∀ a b c, LangId.cmp a b ≠ .gt → LangId.cmp b c ≠ .gt → LangId.cmp a c ≠ .gt := by
    intro a b c h1 h2
    cases hab : LangId.cmp a b with
    | gt => exact absurd hab h1
    | eq => rw [L.eq_iff] at hab; subst hab; exact h2
    | lt =>
      cases hbc : LangId.cmp b c with
      | gt => exact absurd hbc h2
      | eq => rw [L.eq_iff] at hbc; subst hbc; exact h1
      | lt => rw [L.trans _ _ _ hab hbc]; simp
  induction l with
  | nil => simp [insertById]
  | cons y r ih =>
    obtain ⟨h1, h2⟩ := List.pairwise_cons.1 h
    cases hc : LangId.cmp x.1 y.1 with
    | gt =>
      simp only [insertById, hc]
      refine List.pairwise_cons.2 ⟨fun z hz => ?_, ih h2⟩
      rcases List.mem_cons.1 ((insertById_perm x r).mem_iff.1 hz) with rfl | hz
      · rw [(L.gt_iff _ _).1 hc]; simp
      · exact h1 z hz
    | eq =>
      simp only [insertById, hc]
      refine List.pairwise_cons.2 ⟨fun z hz => ?_, h⟩
      rcases List.mem_cons.1 hz with rfl | hz
      · rw [hc]; simp
      · exact htr _ _ _ (by rw [hc]; simp) (h1 z hz)
    | lt =>
      simp only [insertById, hc]
      refine List.pairwise_cons.2 ⟨fun z hz => ?_, h⟩
      rcases List.mem_cons.1 hz with rfl | hz
      · rw [hc]; simp
      · exact htr _ _ _ (by rw [hc]; simp) (h1 z hz)

theorem sortById_sorted (l : List (LangId × α)) : (sortById l).Pairwise fun a b => LangId.cmp a.1 b.1 ≠ .gt := by
  induction l with
  | nil => simp [sortById]
  | cons x l ih => exact insertById_sorted x _ ih

theorem sortById_strict (l : List (LangId × α)) (h : (l.map (·.1)).Nodup) :
    (sortById l).Pairwise fun a b => LangId.cmp a.1 b.1 = .lt := by
  have hn : ((sortById l).map (·.1)).Nodup := ((sortById_perm l).map _).nodup_iff.2 h
  have hn' : (sortById l).Pairwise fun a b => a.1 ≠ b.1 := List.pairwise_map.1 hn
  refine ((sortById_sorted l).and hn').imp ?_
  rintro a b ⟨h1, h2⟩
  cases hc : LangId.cmp a.1 b.1 with
  | lt => rfl
  | eq => exact absurd ((cmp_lawful.eq_iff _ _).1 hc) h2
  | gt => exact absurd hc h1

/-! ## `split('-')` -/

theorem splitDash_ne (s : Str) : splitDash s ≠ [] := by
  induction s with
  | nil => simp [splitDash]
  | cons c t ih =>
    simp only [splitDash]
    split
    · simp
    · split <;> simp

theorem splitDash_dash (t : Str) : splitDash ('-' :: t) = [] :: splitDash t := by simp [splitDash]

theorem splitDash_append (a t : Str) (h : '-' ∉ a) : ∃ x r, splitDash t = x :: r ∧ splitDash (a ++ t) = (a ++ x) :: r := by
  induction a with
  | nil =>
    cases hs : splitDash t with
    | nil => exact absurd hs (splitDash_ne t)
    | cons x r => exact ⟨x, r, rfl, by simp [hs]⟩
  | cons c a ih =>
    simp only [List.mem_cons, not_or] at h
    obtain ⟨x, r, h1, h2⟩ := ih h.2
    have hc : (c == '-') = false := by simpa using Ne.symm h.1
    exact ⟨x, r, h1, by simp [splitDash, hc, h2]⟩

/-- The first part, and the rest after the dash. -/
theorem split_first (s : Str) : ('-' ∉ s ∧ splitDash s = [s]) ∨
    ∃ a t, '-' ∉ a ∧ s = a ++ '-' :: t ∧ splitDash s = a :: splitDash t := by
  induction s with
  | nil => exact .inl ⟨by simp, rfl⟩
  | cons c s ih =>
    by_cases hc : c = '-'
    · subst hc
      exact .inr ⟨[], s, by simp, rfl, splitDash_dash s⟩
    · have hc' : (c == '-') = false := by simpa using hc
      rcases ih with ⟨h1, h2⟩ | ⟨a, t, h1, h2, h3⟩
      · exact .inl ⟨by simp [h1, Ne.symm hc], by simp [splitDash, hc', h2]⟩
      · exact .inr ⟨c :: a, t, by simp [h1, Ne.symm hc], by simp [h2], by simp [splitDash, hc', h3]⟩

theorem thirdPart_iff (s part : Str) : (splitDash s)[2]? = some part ↔ ThirdPart s part := by
  have hsplit : ∀ a t, '-' ∉ a → splitDash (a ++ '-' :: t) = a :: splitDash t := by
    intro a t ha
    obtain ⟨x, r, h1, h2⟩ := splitDash_append a ('-' :: t) ha
    rw [splitDash_dash] at h1
    cases h1
    simpa using h2
  constructor
  · intro h
    rcases split_first s with ⟨-, h1⟩ | ⟨a, t, ha, rfl, h1⟩
    · simp [h1] at h
    rw [h1] at h
    rcases split_first t with ⟨-, h2⟩ | ⟨b, u, hb, rfl, h2⟩
    · simp [h2] at h
    rw [h2] at h
    rcases split_first u with ⟨hp, h3⟩ | ⟨p, r, hp, rfl, h3⟩
    · simp [h3] at h; subst h
      exact ⟨a, b, [], ha, hb, hp, by simp, .inl rfl⟩
    · simp [h3] at h; subst h
      exact ⟨a, b, _, ha, hb, hp, rfl, .inr ⟨r, rfl⟩⟩
  · rintro ⟨a, b, rest, ha, hb, hp, rfl, hrest⟩
    rw [hsplit a _ ha, hsplit b _ hb]
    rcases hrest with rfl | ⟨r, rfl⟩
    · obtain ⟨x, r, h1, h2⟩ := splitDash_append part [] hp
      simp only [splitDash] at h1; cases h1
      rw [List.append_nil] at h2 ⊢; simp [h2]
    · rw [hsplit part r hp]; simp

/-! ## The version -/

theorem parseSigned_body (s : Str) : parseSigned 64 s ≠ none ↔
    ∃ l, l ≠ [] ∧ (splitSign s).2 = digitText l ∧
      if (splitSign s).1 then Uts35.digitsNum l ≤ 2 ^ 63 else Uts35.digitsNum l < 2 ^ 63 := by
  unfold parseSigned
  generalize (splitSign s).2 = body
  generalize (splitSign s).1 = neg
  constructor
  · intro h
    by_cases h1 : body.isEmpty = true
    · simp [h1] at h
    by_cases h2 : body.all isDigit = true
    · obtain ⟨l, rfl⟩ := Strings.all_digits _ h2
      simp only [if_neg h1, h2, Bool.not_true, Bool.false_eq_true, if_false, Strings.digitsVal_digitText] at h
      refine ⟨l, by rintro rfl; simp [digitText] at h1, rfl, ?_⟩
      cases neg
      · by_contra hc; simp at hc; simp [hc] at h
      · by_contra hc; simp at hc; simp [hc] at h
    · simp only [if_neg h1, h2] at h
      simp at h
  · rintro ⟨l, h1, rfl, h2⟩
    rw [if_neg (by simpa [Strings.digitText_eq_nil] using h1), Strings.digitText_all, Strings.digitsVal_digitText]
    cases neg <;> simpa using h2

theorem parseSigned_iff (s : Str) : parseSigned 64 s ≠ none ↔ VersionText s := by
  rw [parseSigned_body]
  cases s with
  | nil =>
    constructor
    · rintro ⟨l, h1, h2, -⟩; exact absurd (Strings.digitText_eq_nil.1 h2.symm) h1
    · rintro ⟨l, h1, (⟨h | h, h2⟩ | ⟨h, h2⟩)⟩
      · exact absurd (Strings.digitText_eq_nil.1 h.symm) h1
      · cases h
      · cases h
  | cons c t =>
    by_cases hp : c = '+'
    · subst hp
      simp only [splitSign, if_true]
      constructor
      · rintro ⟨l, h1, rfl, h2⟩; exact ⟨l, h1, .inl ⟨.inr rfl, by simpa using h2⟩⟩
      · rintro ⟨l, h1, (⟨h | h, h2⟩ | ⟨h, h2⟩)⟩
        · cases l with
          | nil => simp [digitText] at h
          | cons d l =>
            rw [Strings.digitText_cons] at h
            exact absurd (List.cons.inj h).1.symm (Strings.digitChar_ne d '+' rfl)
        · exact ⟨l, h1, (List.cons.inj h).2, by simpa using h2⟩
        · simp at h
    · by_cases hm : c = '-'
      · subst hm
        simp only [splitSign, if_true, if_neg hp]
        constructor
        · rintro ⟨l, h1, rfl, h2⟩; exact ⟨l, h1, .inr ⟨rfl, by simpa using h2⟩⟩
        · rintro ⟨l, h1, (⟨h | h, h2⟩ | ⟨h, h2⟩)⟩
          · cases l with
            | nil => simp [digitText] at h
            | cons d l =>
              rw [Strings.digitText_cons] at h
              exact absurd (List.cons.inj h).1.symm (Strings.digitChar_ne d '-' rfl)
          · simp at h
          · exact ⟨l, h1, (List.cons.inj h).2, by simpa using h2⟩
      · simp only [splitSign, if_neg hp, if_neg hm]
        constructor
        · rintro ⟨l, h1, h, h2⟩; exact ⟨l, h1, .inl ⟨.inl h, by simpa using h2⟩⟩
        · rintro ⟨l, h1, (⟨h | h, h2⟩ | ⟨h, h2⟩)⟩
          · exact ⟨l, h1, h, by simpa using h2⟩
          · exact absurd (List.cons.inj h).1 hp
          · exact absurd (List.cons.inj h).1 hm

end Verif.Maps
