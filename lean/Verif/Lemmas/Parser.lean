import Verif.Parser
import Verif.Lemmas.Nom

/-!
# Lemmas: the parser reads exactly the grammar
-/

namespace Verif.Parser
open Verif Nom Grammar Spec Uts35 Strings

variable {bits : Nat}

/-! ## Numbers and lists -/

theorem isDigit_not_space {c : Char} (h : isDigit c = true) : isSpace c = false := by
  obtain ⟨d, rfl⟩ := exists_digit c h
  revert d; decide

theorem digit_ne_n {c : Char} (h : isDigit c = true) : (c == 'n') = false := by
  obtain ⟨d, rfl⟩ := exists_digit c h
  clear h
  revert d; decide

theorem value_sound {i r : Str} {k : Nat} (h : value bits i = some (r, k)) :
    ∃ s, i = s ++ r ∧ ValueText bits s k ∧ NoHead isDigit r := by
  simp only [value, mapRes_some] at h
  obtain ⟨a, h1, h2⟩ := h
  unfold digit1 at h1
  split_ifs at h1 with hne
  simp only [Option.some.injEq, Prod.mk.injEq] at h1
  obtain ⟨rfl, rfl⟩ := h1
  obtain ⟨l, hl, hne', rfl, hlt⟩ := (parseUnsigned_some _ _ _).1 h2
  have hd := takeWhile_all isDigit i
  refine ⟨_, List.takeWhile_append_dropWhile.symm, ⟨l, hne', ?_, rfl, hlt⟩, dropWhile_noHead isDigit i⟩
  rcases hl with hl | hl
  · exact hl
  · have := hd '+' (by rw [hl]; simp)
    exact absurd this (by decide)

theorem value_complete {s r : Str} {k : Nat} (h : ValueText bits s k) (hr : NoHead isDigit r) :
    value bits (s ++ r) = some (r, k) := by
  obtain ⟨l, hne, rfl, rfl, hlt⟩ := h
  obtain ⟨h1, h2⟩ := takeWhile_app isDigit (digitText l) r (by
    have := digitText_all l
    rw [List.all_eq_true] at this
    exact this) hr
  have hne' : (digitText l).isEmpty = false := by
    cases l with
    | nil => contradiction
    | cons d l => rfl
  have h3 : digit1 (digitText l ++ r) = some (r, digitText l) := by simp [digit1, h1, h2, hne']
  unfold value
  refine mapRes_some.2 ⟨_, h3, (parseUnsigned_some _ _ _).2 ⟨l, .inl rfl, hne, rfl, hlt⟩⟩

theorem value_none {i : Str} (h : NoHead isDigit i) : value bits i = none := by
  have := (takeWhile_app isDigit [] i (by simp) h).1
  simp only [List.nil_append] at this
  simp [value, mapRes, digit1, this]

theorem _root_.Verif.Grammar.ValueText.head {s : Str} {k : Nat} (h : ValueText bits s k) : ∃ c t, s = c :: t ∧ isDigit c = true := by
  obtain ⟨l, hne, rfl, -⟩ := h
  cases l with
  | nil => contradiction
  | cons d l => exact ⟨_, _, rfl, isDigit_digitChar d⟩

/-- Not a digit and not a point. -/
def digitOrPoint (c : Char) : Bool := isDigit c || c == '.'

theorem noHead_mono {p q : Char → Bool} {r : Str} (hpq : ∀ c, q c = true → p c = true) (h : NoHead p r) : NoHead q r := by
  intro c t hr
  have := h c t hr
  cases hq : q c with
  | false => rfl
  | true => rw [hpq c hq] at this; cases this

theorem noHead_digit {r : Str} (h : NoHead digitOrPoint r) : NoHead isDigit r :=
  noHead_mono (fun c h => by simp [digitOrPoint, h]) h

theorem noHead_point {r : Str} (h : NoHead digitOrPoint r) : NoHead (· == '.') r :=
  noHead_mono (fun c h => by simp only [digitOrPoint, h, Bool.or_true]) h

theorem item_sound {i r : Str} {x : RangeListItem} (h : rangeListItem bits i = some (r, x)) :
    ∃ s, i = s ++ r ∧ ItemText bits s x := by
  simp only [rangeListItem, alt_some, map_some, range, separatedPair, pair_some] at h
  rcases h with ⟨⟨a, b⟩, ⟨⟨a', u, b'⟩, ⟨r1, h1, r2, h2, h3⟩, h4⟩, rfl⟩ | ⟨-, k, h1, rfl⟩
  · simp only [Prod.mk.injEq] at h4
    obtain ⟨rfl, rfl⟩ := h4
    obtain ⟨s, rfl, hs, -⟩ := value_sound h1
    obtain ⟨rfl, -⟩ := tag_some.1 h2
    obtain ⟨t, rfl, ht, -⟩ := value_sound h3
    exact ⟨_, by simp, .range hs ht⟩
  · obtain ⟨s, rfl, hs, -⟩ := value_sound h1
    exact ⟨s, rfl, .value hs⟩

theorem item_complete {s r : Str} {x : RangeListItem} (h : ItemText bits s x) (hr : NoHead digitOrPoint r) :
    rangeListItem bits (s ++ r) = some (r, x) := by
  cases h with
  | value h =>
    have h1 := value_complete h (noHead_digit hr)
    have h2 : tag c!".." r = none := tag_head (noHead_point hr)
    have h3 : map (range bits) (fun r => RangeListItem.range r.1 r.2) (s ++ r) = none := by
      rw [map_none, range, separatedPair, map_none]
      exact pair_none_right h1 (pair_none_left h2)
    rw [rangeListItem, alt_right h3]
    exact map_of h1
  | @range s t a b hs ht =>
    have h1 : value bits (s ++ (c!".." ++ (t ++ r))) = some (c!".." ++ (t ++ r), a) :=
      value_complete hs (noHead_cons.2 (by decide))
    have h2 := tag_of c!".." (t ++ r)
    have h3 := value_complete ht (noHead_digit hr)
    have e : (s ++ (c!".." ++ t)) ++ r = s ++ (c!".." ++ (t ++ r)) := by simp
    rw [e]
    exact alt_left (map_of (map_of (pair_of h1 (pair_of h2 h3))))

theorem item_none {i : Str} (h : NoHead isDigit i) : rangeListItem bits i = none := by
  have h1 := value_none (bits := bits) h
  unfold rangeListItem
  rw [alt_right (map_none.2 (by rw [range, separatedPair, map_none]; exact pair_none_left h1)), map_none]
  exact h1

theorem _root_.Verif.Grammar.ItemText.head {s : Str} {x : RangeListItem} (h : ItemText bits s x) : ∃ c t, s = c :: t ∧ isDigit c = true := by
  cases h with
  | value h => exact h.head
  | range h _ => obtain ⟨c, t, rfl, hc⟩ := h.head; exact ⟨c, _, rfl, hc⟩

/-- A mark between spaces. -/
theorem mark_of {w m r : Str} {c : Char} (h : Mark (c :: w) m) (hc : isSpace c = false) (hr : NoHead isSpace r) :
    ∃ x, pair space0 (pair (tag (c :: w)) space0) (m ++ r) = some (r, x) := by
  obtain ⟨a, b, ha, hb, rfl⟩ := h
  have h1 : space0 (a ++ ((c :: w) ++ (b ++ r))) = some ((c :: w) ++ (b ++ r), a) := space0_of ha (noHead_cons.2 hc)
  have h2 := tag_of (c :: w) (b ++ r)
  have h3 := space0_of hb hr
  have e : (a ++ ((c :: w) ++ b)) ++ r = a ++ ((c :: w) ++ (b ++ r)) := by simp
  rw [e]
  exact ⟨_, pair_of h1 (pair_of h2 h3)⟩

theorem mark_sound {w i r : Str} {x : Str × Str × Str} (h : pair space0 (pair (tag w) space0) i = some (r, x)) :
    ∃ m, i = m ++ r ∧ Mark w m ∧ NoHead isSpace r := by
  simp only [pair_some] at h
  obtain ⟨r1, h1, r2, h2, h3⟩ := h
  obtain ⟨ha, rfl, -⟩ := space0_some h1
  obtain ⟨rfl, -⟩ := tag_some.1 h2
  obtain ⟨hb, rfl, hr⟩ := space0_some h3
  exact ⟨_, by simp, ⟨_, _, ha, hb, rfl⟩, hr⟩

theorem word_of {w m r : Str} {c : Char} (h : Word (c :: w) m) (hc : isSpace c = false) (hr : NoHead isSpace r) :
    ∃ x, pair space1 (pair (tag (c :: w)) space1) (m ++ r) = some (r, x) := by
  obtain ⟨a, b, ha, hb, rfl⟩ := h
  have h1 : space1 (a ++ ((c :: w) ++ (b ++ r))) = some ((c :: w) ++ (b ++ r), a) := space1_of ha (noHead_cons.2 hc)
  have h2 := tag_of (c :: w) (b ++ r)
  have h3 := space1_of hb hr
  have e : (a ++ ((c :: w) ++ b)) ++ r = a ++ ((c :: w) ++ (b ++ r)) := by simp
  rw [e]
  exact ⟨_, pair_of h1 (pair_of h2 h3)⟩

theorem word_sound {w i r : Str} {x : Str × Str × Str} (h : pair space1 (pair (tag w) space1) i = some (r, x)) :
    ∃ m, i = m ++ r ∧ Word w m ∧ NoHead isSpace r := by
  simp only [pair_some] at h
  obtain ⟨r1, h1, r2, h2, h3⟩ := h
  obtain ⟨ha, rfl, -⟩ := space1_some h1
  obtain ⟨rfl, -⟩ := tag_some.1 h2
  obtain ⟨hb, rfl, hr⟩ := space1_some h3
  exact ⟨_, by simp, ⟨_, _, ha, hb, rfl⟩, hr⟩

theorem mark_ne {w m : Str} (hw : w ≠ []) (h : Mark w m) : m ≠ [] := by
  obtain ⟨a, b, -, -, rfl⟩ := h; simp [hw]

theorem word_ne {w m : Str} (h : Word w m) : m ≠ [] := by
  obtain ⟨a, b, ha, -, rfl⟩ := h; simp [ha.2]

/-- The first character after spaces is none of these. -/
def NoNext (p : Char → Bool) (r : Str) : Prop := NoHead p (r.dropWhile isSpace)

/-- The mark does not follow. -/
theorem mark_none {w r : Str} {c : Char} (h : NoNext (· == c) r) :
    pair space0 (pair (tag (c :: w)) space0) r = none := by
  have h1 : space0 r = some (r.dropWhile isSpace, r.takeWhile isSpace) := rfl
  exact pair_none_right h1 (pair_none_left (tag_head h))

theorem word_none {w r : Str} {c : Char} (h : NoNext (· == c) r) :
    pair space1 (pair (tag (c :: w)) space1) r = none := by
  by_cases he : (r.takeWhile isSpace).isEmpty = true
  · exact pair_none_left (by simp only [space1, he, if_true])
  · have h1 : space1 r = some (r.dropWhile isSpace, r.takeWhile isSpace) := by simp only [space1, he]; rfl
    exact pair_none_right h1 (pair_none_left (tag_head h))

theorem word_none_head {w r : Str} (h : NoHead isSpace r) : pair space1 (pair (tag w) space1) r = none :=
  pair_none_left (space1_none h)

theorem noNext_spaces {p : Char → Bool} {sp r : Str} (hs : Spaces sp) (hr : NoHead isSpace r) (h : NoHead p r) :
    NoNext p (sp ++ r) := by
  unfold NoNext
  rw [(takeWhile_app isSpace sp r ((spaces_iff sp).1 hs) hr).2]
  exact h

theorem noNext_nil (p : Char → Bool) : NoNext p [] := noHead_nil p

/-- What a mark starts with: a space or its first character. -/
theorem mark_head {w m r : Str} {c : Char} (h : Mark (c :: w) m) {p : Char → Bool} (hp : ∀ x, isSpace x = true → p x = false)
    (hc : p c = false) : NoHead p (m ++ r) := by
  obtain ⟨a, b, ha, -, rfl⟩ := h
  cases a with
  | nil => exact noHead_cons.2 hc
  | cons x a => exact noHead_cons.2 (hp x ((spaces_iff _).1 ha x (by simp)))

theorem word_head {w m r : Str} (h : Word w m) {p : Char → Bool} (hp : ∀ x, isSpace x = true → p x = false) :
    NoHead p (m ++ r) := by
  obtain ⟨a, b, ⟨ha, hne⟩, -, rfl⟩ := h
  cases a with
  | nil => contradiction
  | cons x a => exact noHead_cons.2 (hp x ((spaces_iff _).1 ha x (by simp)))

theorem mark_next {w m r : Str} {c : Char} (h : Mark (c :: w) m) (hs : isSpace c = false) {p : Char → Bool} (hc : p c = false) :
    NoNext p (m ++ r) := by
  obtain ⟨a, b, ha, -, rfl⟩ := h
  rw [List.append_assoc]
  exact noNext_spaces ha (noHead_cons.2 hs) (noHead_cons.2 hc)

theorem word_next {w m r : Str} {c : Char} (h : Word (c :: w) m) (hs : isSpace c = false) {p : Char → Bool} (hc : p c = false) :
    NoNext p (m ++ r) := by
  obtain ⟨a, b, ha, -, rfl⟩ := h
  rw [List.append_assoc]
  exact noNext_spaces ha.1 (noHead_cons.2 hs) (noHead_cons.2 hc)

theorem space_not_digitOrPoint (x : Char) (h : isSpace x = true) : digitOrPoint x = false := by
  rcases (isSpace_iff x).1 h with rfl | rfl <;> decide

theorem digit_head_noSpace {s r : Str} (h : ∃ c t, s = c :: t ∧ isDigit c = true) : NoHead isSpace (s ++ r) := by
  obtain ⟨c, t, rfl, hc⟩ := h
  exact noHead_cons.2 (isDigit_not_space hc)

theorem list_sound {i r : Str} {l : List RangeListItem} (h : rangeList bits i = some (r, l)) :
    (l = [] ∧ r = i) ∨ ∃ t, i = t ++ r ∧ ListText bits t l := by
  have h' : separatedList commaSep (rangeListItem bits) i = some (r, l) := h
  unfold separatedList at h'
  cases h1 : rangeListItem bits i with
  | none =>
    rw [h1] at h'
    simp only [Option.some.injEq, Prod.mk.injEq] at h'
    exact .inl ⟨h'.2.symm, h'.1.symm⟩
  | some x =>
    right
    have h2 : separatedNonemptyList commaSep (rangeListItem bits) i = some (r, l) := by
      unfold separatedNonemptyList; rw [h1] at h' ⊢; exact h'
    obtain ⟨t, rfl, ht⟩ := separatedNonemptyList_sound (Sep := Mark c!",") (E := ItemText bits) (L := fun _ _ => False)
      (Stop := fun _ => False) (fun i r x h => by obtain ⟨m, e, hm, -⟩ := mark_sound h; exact ⟨m, e, hm⟩)
      (fun i r a h => by obtain ⟨s, e, hs⟩ := item_sound h; exact ⟨s, e, .inl hs⟩) (fun r h => h.elim) h2
    rcases ht with ht | ⟨-, h⟩
    · exact ⟨t, rfl, ht⟩
    · exact h.elim

theorem list_complete {t r : Str} {l : List RangeListItem} (h : ListText bits t l) (hr : NoHead digitOrPoint r)
    (hc : NoNext (· == ',') r) : rangeList bits (t ++ r) = some (r, l) := by
  refine (separatedNonemptyList_complete (Fol := NoHead digitOrPoint) (fun s a r h hr => item_complete h hr)
    (fun s a h => item_complete h hr) ?_ ?_ ?_ ?_ ?_ (.inl (mark_none hc)) h).2
  · rintro s a h rfl; obtain ⟨c, t, h, -⟩ := h.head; cases h
  · rintro s a h rfl; obtain ⟨c, t, h, -⟩ := h.head; cases h
  · intro m s a r hm hs
    have hs : ItemText bits s a := by tauto
    exact mark_of hm (by decide) (digit_head_noSpace hs.head)
  · exact fun m hm => mark_ne (by simp) hm
  · intro m s a r hm _
    exact mark_head hm space_not_digitOrPoint (by decide)

/-! ## Expressions and operators -/

theorem operandLetter_operand (o : Operand) (r : Str) : operand (operandLetter o :: r) = some (r, o) := by
  cases o <;> rfl

theorem operand_sound {i r : Str} {o : Operand} (h : operand i = some (r, o)) : i = operandLetter o :: r := by
  simp only [operand, map_some] at h
  obtain ⟨c, h, rfl⟩ := h
  cases i with
  | nil => simp [oneOf] at h
  | cons x t =>
    simp only [oneOf] at h
    split_ifs at h with hx
    simp only [Option.some.injEq, Prod.mk.injEq] at h
    obtain ⟨rfl, rfl⟩ := h
    have : x = 'n' ∨ x = 'i' ∨ x = 'v' ∨ x = 'w' ∨ x = 'f' ∨ x = 't' := by simpa using hx
    rcases this with rfl | rfl | rfl | rfl | rfl | rfl <;> rfl

/-- A letter that an operator starts with. -/
def opHead (c : Char) : Bool := c == '=' || c == '!' || c == 'i' || c == 'n' || c == 'w'

theorem _root_.Verif.Grammar.OpText.head {s : Str} {op : Operator} (h : OpText s op) : ∃ c t, s = c :: t ∧ opHead c = true := by
  cases h <;> exact ⟨_, _, rfl, rfl⟩

theorem opHead_cases {c : Char} (h : opHead c = true) : isSpace c = false ∧ isDigit c = false ∧ c ≠ 'm' ∧ c ≠ '%' := by
  simp only [opHead, Bool.or_eq_true, beq_iff_eq] at h
  rcases h with (((rfl | rfl) | rfl) | rfl) | rfl <;> decide

theorem mod_sound {i r : Str} {m : Option Nat} (h : modExpression bits i = some (r, m)) :
    (m = none ∧ r = i) ∨ ∃ a w b s k, Spaces a ∧ (w = c!"mod" ∨ w = c!"%") ∧ Spaces1 b ∧ ValueText bits s k ∧ m = some k ∧
      i = a ++ (w ++ (b ++ (s ++ r))) ∧ NoHead isDigit r := by
  simp only [modExpression, opt_some, preceded_some, pair_some, alt_some] at h
  rcases h with ⟨k, rfl, r1, ⟨a, w, b⟩, ⟨r2, h1, r3, h2, h3⟩, h4⟩ | ⟨rfl, -, rfl⟩
  · right
    obtain ⟨ha, rfl, -⟩ := space0_some h1
    obtain ⟨hb, rfl, -⟩ := space1_some h3
    obtain ⟨s, rfl, hs, hr⟩ := value_sound h4
    rcases h2 with h2 | ⟨-, h2⟩
    · obtain ⟨rfl, -⟩ := tag_some.1 h2
      exact ⟨_, _, _, _, _, ha, .inl rfl, hb, hs, rfl, rfl, hr⟩
    · obtain ⟨rfl, -⟩ := tag_some.1 h2
      exact ⟨_, _, _, _, _, ha, .inr rfl, hb, hs, rfl, rfl, hr⟩
  · exact .inl ⟨rfl, rfl⟩

theorem expr_sound {i r : Str} {e : Expression} (h : expression bits i = some (r, e)) : ∃ s, i = s ++ r ∧ ExprText bits s e := by
  simp only [expression, map_some, pair_some] at h
  obtain ⟨⟨o, m⟩, ⟨r1, h1, h2⟩, rfl⟩ := h
  have h1 := operand_sound h1
  subst h1
  rcases mod_sound h2 with ⟨h3, rfl⟩ | ⟨a, w, b, s, k, ha, hw, hb, hs, h3, rfl, -⟩
  · simp only at h3
    subst h3
    exact ⟨_, rfl, .plain o⟩
  · simp only at h3
    subst h3
    exact ⟨_, by simp, .modulo o ha hw hb hs⟩

/-- An expression is read up to an operator. -/
theorem expr_complete {s a o r : Str} {e : Expression} {op : Operator} (h : ExprText bits s e) (ha : Spaces a) (ho : OpText o op) :
    expression bits (s ++ (a ++ (o ++ r))) = some (a ++ (o ++ r), e) := by
  obtain ⟨c, t, rfl, hc⟩ := ho.head
  obtain ⟨hc1, hc2, hc3, hc4⟩ := opHead_cases hc
  cases h with
  | plain o =>
    have h1 := operandLetter_operand o (a ++ ((c :: t) ++ r))
    have h2 : space0 (a ++ ((c :: t) ++ r)) = some ((c :: t) ++ r, a) := space0_of ha (noHead_cons.2 hc1)
    have h3 : alt (tag c!"mod") (tag c!"%") ((c :: t) ++ r) = none := by
      have e1 : tag c!"mod" ((c :: t) ++ r) = none := tag_head (noHead_cons.2 (by simpa using hc3))
      rw [alt_right e1]
      exact tag_head (noHead_cons.2 (by simpa using hc4))
    have h4 : modExpression bits (a ++ ((c :: t) ++ r)) = some (a ++ ((c :: t) ++ r), none) :=
      opt_none (preceded_none_left (pair_none_right h2 (pair_none_left h3)))
    exact map_of (pair_of h1 h4)
  | @modulo o a' m b s k ha' hm hb hs =>
    have h1 := operandLetter_operand o (a' ++ (m ++ (b ++ (s ++ (a ++ ((c :: t) ++ r))))))
    have hms : NoHead isSpace (m ++ (b ++ (s ++ (a ++ ((c :: t) ++ r))))) := by
      rcases hm with rfl | rfl <;> exact noHead_cons.2 (by decide)
    have h2 := space0_of ha' hms
    have h3 : ∃ x, alt (tag c!"mod") (tag c!"%") (m ++ (b ++ (s ++ (a ++ ((c :: t) ++ r))))) =
        some (b ++ (s ++ (a ++ ((c :: t) ++ r))), x) := by
      rcases hm with rfl | rfl
      · exact ⟨_, alt_left (tag_of _ _)⟩
      · refine ⟨c!"%", ?_⟩
        have e1 : tag c!"mod" (c!"%" ++ (b ++ (s ++ (a ++ ((c :: t) ++ r))))) = none := tag_head (noHead_cons.2 (by decide))
        rw [alt_right e1]
        exact tag_of _ _
    obtain ⟨x, h3⟩ := h3
    have h4 := space1_of hb (digit_head_noSpace (r := a ++ ((c :: t) ++ r)) hs.head)
    have hd : NoHead isDigit (a ++ ((c :: t) ++ r)) := by
      cases a with
      | nil => exact noHead_cons.2 hc2
      | cons y a =>
        refine noHead_cons.2 ?_
        have := (spaces_iff _).1 ha y (by simp)
        cases hy : isDigit y with
        | false => rfl
        | true => rw [isDigit_not_space hy] at this; cases this
    have h5 := value_complete hs hd
    have h6 : modExpression bits (a' ++ (m ++ (b ++ (s ++ (a ++ ((c :: t) ++ r)))))) = some (a ++ ((c :: t) ++ r), some k) :=
      opt_of (preceded_of (pair_of h2 (pair_of h3 h4)) h5)
    have e : (operandLetter o :: (a' ++ (m ++ (b ++ s)))) ++ (a ++ ((c :: t) ++ r)) =
        operandLetter o :: (a' ++ (m ++ (b ++ (s ++ (a ++ ((c :: t) ++ r)))))) := by simp
    rw [e]
    exact map_of (pair_of h1 h6)

theorem op_sound {i r : Str} {op : Operator} (h : relationOperator i = some (r, op)) : ∃ s, i = s ++ r ∧ OpText s op := by
  simp only [relationOperator, alt_some, map_some, pair_some, opt_some, tag_some] at h
  rcases h with ⟨a, ⟨rfl, -⟩, rfl⟩ | ⟨-, ⟨a, ⟨rfl, -⟩, rfl⟩ | ⟨-, ⟨⟨a, b, n⟩, ⟨r1, ⟨rfl, -⟩, r2, h2, h3⟩, rfl⟩ |
    ⟨-, ⟨a, ⟨rfl, -⟩, rfl⟩ | ⟨-, ⟨⟨a, b, o⟩, ⟨r1, ⟨rfl, -⟩, r2, h2, h3⟩, rfl⟩ | ⟨-, a, ⟨rfl, -⟩, rfl⟩⟩⟩⟩⟩
  · exact ⟨_, rfl, .eq⟩
  · exact ⟨_, rfl, .ne⟩
  · obtain ⟨hb, rfl, -⟩ := space1_some h2
    rcases h3 with ⟨x, h4, rfl, -⟩ | ⟨h4, -, rfl⟩
    · simp only at h4; subst h4
      exact ⟨_, by simp, .isNot hb⟩
    · simp only at h4; subst h4
      exact ⟨_, by simp, .is hb⟩
  · exact ⟨_, rfl, .in⟩
  · obtain ⟨hb, rfl, -⟩ := space1_some h2
    rcases h3 with ⟨x, ⟨rfl, -⟩, h4⟩ | ⟨-, x, ⟨rfl, -⟩, h4⟩
    · simp only at h4; subst h4
      exact ⟨_, by simp, .notIn hb⟩
    · simp only at h4; subst h4
      exact ⟨_, by simp, .notWithin hb⟩
  · exact ⟨_, rfl, .within⟩

/-- An operator is read together with the spaces after it, unless `not` follows. -/
theorem op_complete {o b r : Str} {op : Operator} (h : OpText o op) (hb : Spaces b) (hr : NoHead isSpace r) (hn : NoHead (· == 'n') r) :
    ∃ r1 x, relationOperator (o ++ (b ++ r)) = some (r1, op) ∧ space0 r1 = some (r, x) := by
  have hrefl : space0 (b ++ r) = some (r, b) := space0_of hb hr
  have hnil : space0 r = some (r, []) := space0_of (sp := []) (by simp [Spaces]) hr
  cases h with
  | eq => exact ⟨_, _, alt_left (map_of (tag_of _ _)), hrefl⟩
  | ne =>
    refine ⟨_, _, ?_, hrefl⟩
    rw [relationOperator, alt_right (by rw [map_none]; exact tag_head (noHead_cons.2 (by decide)))]
    exact alt_left (map_of (tag_of _ _))
  | @is a ha =>
    refine ⟨r, _, ?_, hnil⟩
    have ha' : Spaces1 (a ++ b) := ⟨fun c hc => (List.mem_append.1 hc).elim (ha.1 c) (hb c), by simp [ha.2]⟩
    have e : (c!"is" ++ a) ++ (b ++ r) = c!"is" ++ ((a ++ b) ++ r) := by simp
    rw [e, relationOperator, alt_right (by rw [map_none]; exact tag_head (noHead_cons.2 (by decide))),
      alt_right (by rw [map_none]; exact tag_head (noHead_cons.2 (by decide)))]
    have h1 := tag_of c!"is" ((a ++ b) ++ r)
    have h2 := space1_of ha' hr
    have h3 : opt (tag c!"not") r = some (r, none) := opt_none (tag_head hn)
    exact alt_left (map_of (pair_of h1 (pair_of h2 h3)))
  | @isNot a ha =>
    refine ⟨_, _, ?_, hrefl⟩
    have e : (c!"is" ++ (a ++ c!"not")) ++ (b ++ r) = c!"is" ++ (a ++ (c!"not" ++ (b ++ r))) := by simp
    rw [e, relationOperator, alt_right (by rw [map_none]; exact tag_head (noHead_cons.2 (by decide))),
      alt_right (by rw [map_none]; exact tag_head (noHead_cons.2 (by decide)))]
    have h1 := tag_of c!"is" (a ++ (c!"not" ++ (b ++ r)))
    have h2 : space1 (a ++ (c!"not" ++ (b ++ r))) = some (c!"not" ++ (b ++ r), a) := space1_of ha (noHead_cons.2 (by decide))
    have h3 : opt (tag c!"not") (c!"not" ++ (b ++ r)) = some (b ++ r, some c!"not") := opt_of (tag_of _ _)
    exact alt_left (map_of (pair_of h1 (pair_of h2 h3)))
  | «in» =>
    refine ⟨_, _, ?_, hrefl⟩
    rw [relationOperator, alt_right (by rw [map_none]; exact tag_head (noHead_cons.2 (by decide))),
      alt_right (by rw [map_none]; exact tag_head (noHead_cons.2 (by decide))),
      alt_right (by rw [map_none]; exact pair_none_left (tag_none (by simp)))]
    exact alt_left (map_of (tag_of _ _))
  | @notIn a ha =>
    refine ⟨_, _, ?_, hrefl⟩
    have e : (c!"not" ++ (a ++ c!"in")) ++ (b ++ r) = c!"not" ++ (a ++ (c!"in" ++ (b ++ r))) := by simp
    rw [e, relationOperator, alt_right (by rw [map_none]; exact tag_head (noHead_cons.2 (by decide))),
      alt_right (by rw [map_none]; exact tag_head (noHead_cons.2 (by decide))),
      alt_right (by rw [map_none]; exact pair_none_left (tag_head (noHead_cons.2 (by decide)))),
      alt_right (by rw [map_none]; exact tag_head (noHead_cons.2 (by decide)))]
    have h1 := tag_of c!"not" (a ++ (c!"in" ++ (b ++ r)))
    have h2 : space1 (a ++ (c!"in" ++ (b ++ r))) = some (c!"in" ++ (b ++ r), a) := space1_of ha (noHead_cons.2 (by decide))
    have h3 : alt (map (tag c!"in") fun _ => Operator.NotIn) (map (tag c!"within") fun _ => Operator.NotWithin)
      (c!"in" ++ (b ++ r)) = some (b ++ r, .NotIn) := alt_left (map_of (tag_of _ _))
    exact alt_left (map_of (pair_of h1 (pair_of h2 h3)))
  | @notWithin a ha =>
    refine ⟨_, _, ?_, hrefl⟩
    have e : (c!"not" ++ (a ++ c!"within")) ++ (b ++ r) = c!"not" ++ (a ++ (c!"within" ++ (b ++ r))) := by simp
    rw [e, relationOperator, alt_right (by rw [map_none]; exact tag_head (noHead_cons.2 (by decide))),
      alt_right (by rw [map_none]; exact tag_head (noHead_cons.2 (by decide))),
      alt_right (by rw [map_none]; exact pair_none_left (tag_head (noHead_cons.2 (by decide)))),
      alt_right (by rw [map_none]; exact tag_head (noHead_cons.2 (by decide)))]
    have h1 := tag_of c!"not" (a ++ (c!"within" ++ (b ++ r)))
    have h2 : space1 (a ++ (c!"within" ++ (b ++ r))) = some (c!"within" ++ (b ++ r), a) := space1_of ha (noHead_cons.2 (by decide))
    have h3 : alt (map (tag c!"in") fun _ => Operator.NotIn) (map (tag c!"within") fun _ => Operator.NotWithin)
      (c!"within" ++ (b ++ r)) = some (b ++ r, .NotWithin) := by
      rw [alt_right (by rw [map_none]; exact tag_head (noHead_cons.2 (by decide)))]
      exact map_of (tag_of _ _)
    exact alt_left (map_of (pair_of h1 (pair_of h2 h3)))
  | within =>
    refine ⟨_, _, ?_, hrefl⟩
    rw [relationOperator, alt_right (by rw [map_none]; exact tag_head (noHead_cons.2 (by decide))),
      alt_right (by rw [map_none]; exact tag_head (noHead_cons.2 (by decide))),
      alt_right (by rw [map_none]; exact pair_none_left (tag_head (noHead_cons.2 (by decide)))),
      alt_right (by rw [map_none]; exact tag_head (noHead_cons.2 (by decide))),
      alt_right (by rw [map_none]; exact pair_none_left (tag_head (noHead_cons.2 (by decide))))]
    exact map_of (tag_of _ _)

/-! ## Relations -/

theorem relation_sound {i r : Str} {x : Relation} (h : relation bits i = some (r, x)) :
    ∃ s, i = s ++ r ∧ (RelText bits s x ∨ OpenText bits s x ∧ NoHead isSpace r) := by
  simp only [relation, map_some, pair_some] at h
  obtain ⟨⟨e, a, o, b, l⟩, ⟨r1, h1, r2, h2, r3, h3, r4, h4, h5⟩, rfl⟩ := h
  obtain ⟨s, rfl, hs⟩ := expr_sound h1
  obtain ⟨ha, rfl, -⟩ := space0_some h2
  obtain ⟨o', rfl, ho⟩ := op_sound h3
  obtain ⟨hb, rfl, hr⟩ := space0_some h4
  rcases list_sound h5 with ⟨hl, rfl⟩ | ⟨t, rfl, ht⟩
  · simp only at hl; subst hl
    exact ⟨s ++ (a ++ (o' ++ b)), by simp, .inr ⟨.mk hs ha ho hb, hr⟩⟩
  · exact ⟨s ++ (a ++ (o' ++ (b ++ t))), by simp, .inl (.mk hs ha ho hb ht)⟩

theorem _root_.Verif.Grammar.ListText.head {t : Str} {l : List RangeListItem} (h : ListText bits t l) : ∃ c u, t = c :: u ∧ isDigit c = true := by
  obtain ⟨s, a, r, rfl, hs⟩ := SepText.head h
  have hs : ItemText bits s a := by tauto
  obtain ⟨c, u, rfl, hc⟩ := hs.head
  exact ⟨c, _, rfl, hc⟩

theorem relation_complete {s r : Str} {x : Relation} (h : RelText bits s x) (hr : NoHead digitOrPoint r)
    (hc : NoNext (· == ',') r) : relation bits (s ++ r) = some (r, x) := by
  obtain @⟨s, a, o, b, t, e, op, l, hs, ha, ho, hb, ht⟩ := h
  have hh : ∃ c u, t ++ r = c :: u ∧ isDigit c = true := by
    obtain ⟨c, u, rfl, hc⟩ := ListText.head ht; exact ⟨c, _, rfl, hc⟩
  have hsp : NoHead isSpace (t ++ r) := by
    obtain ⟨c, u, e, hc⟩ := hh; rw [e]; exact noHead_cons.2 (isDigit_not_space hc)
  have hn : NoHead (· == 'n') (t ++ r) := by
    obtain ⟨c, u, e, hc⟩ := hh; rw [e]; refine noHead_cons.2 ?_
    exact digit_ne_n hc
  have h1 := expr_complete (r := b ++ (t ++ r)) hs ha ho
  have h2 : space0 (a ++ (o ++ (b ++ (t ++ r)))) = some (o ++ (b ++ (t ++ r)), a) := by
    refine space0_of ha ?_
    obtain ⟨c, u, rfl, hc⟩ := ho.head
    exact noHead_cons.2 (opHead_cases hc).1
  obtain ⟨r1, y, h3, h4⟩ := op_complete ho hb hsp hn
  have h5 := list_complete ht hr hc
  have e' : (s ++ (a ++ (o ++ (b ++ t)))) ++ r = s ++ (a ++ (o ++ (b ++ (t ++ r)))) := by simp
  rw [e']
  exact map_of (pair_of h1 (pair_of h2 (pair_of h3 (pair_of h4 h5))))

/-- A relation without list, at the end. -/
theorem open_complete {s r : Str} {x : Relation} (h : OpenText bits s x) (hr : NoHead isSpace r) (hn : NoHead (· == 'n') r)
    (hd : NoHead isDigit r) : relation bits (s ++ r) = some (r, x) := by
  obtain @⟨s, a, o, b, e, op, hs, ha, ho, hb⟩ := h
  have h1 := expr_complete (r := b ++ r) hs ha ho
  have h2 : space0 (a ++ (o ++ (b ++ r))) = some (o ++ (b ++ r), a) := by
    refine space0_of ha ?_
    obtain ⟨c, u, rfl, hc⟩ := ho.head
    exact noHead_cons.2 (opHead_cases hc).1
  obtain ⟨r1, y, h3, h4⟩ := op_complete ho hb hr hn
  have h5 : rangeList bits r = some (r, []) := by simp [rangeList, separatedList, item_none hd]
  have e' : (s ++ (a ++ (o ++ b))) ++ r = s ++ (a ++ (o ++ (b ++ r))) := by simp
  rw [e']
  exact map_of (pair_of h1 (pair_of h2 (pair_of h3 (pair_of h4 h5))))

theorem _root_.Verif.Grammar.ExprText.head {s : Str} {e : Expression} (h : ExprText bits s e) : ∃ o t, s = operandLetter o :: t := by
  cases h <;> exact ⟨_, _, rfl⟩

theorem _root_.Verif.Grammar.RelText.head {s : Str} {x : Relation} (h : RelText bits s x) : ∃ o t, s = operandLetter o :: t := by
  obtain ⟨hs, -, -, -, -⟩ := h
  obtain ⟨o, t, rfl⟩ := hs.head
  exact ⟨o, _, rfl⟩

theorem _root_.Verif.Grammar.OpenText.head {s : Str} {x : Relation} (h : OpenText bits s x) : ∃ o t, s = operandLetter o :: t := by
  obtain ⟨hs, -, -, -⟩ := h
  obtain ⟨o, t, rfl⟩ := hs.head
  exact ⟨o, _, rfl⟩

theorem letter_noSpace (o : Operand) : isSpace (operandLetter o) = false := by cases o <;> decide

/-! ## And-conditions and conditions -/

/-- And-conditions whose last relation has no list. -/
abbrev OpenAnd (bits : Nat) : Str → AndCondition → Prop := SepText (Word c!"and") (RelText bits) (OpenText bits)

theorem and_sound {i r : Str} {x : AndCondition} (h : andCondition bits i = some (r, x)) :
    ∃ s, i = s ++ r ∧ (AndText bits s x ∨ OpenAnd bits s x ∧ NoHead isSpace r) :=
  separatedNonemptyList_sound (Sep := Word c!"and") (Stop := NoHead isSpace)
    (fun i r x h => by obtain ⟨m, e, hm, -⟩ := word_sound h; exact ⟨m, e, hm⟩)
    (fun i r a h => relation_sound h) (fun r hr => word_none_head hr) h

/-- What follows a relation in an and-condition. -/
theorem and_list_complete {L : Str → Relation → Prop} {s r : Str} {x : AndCondition}
    (hL : ∀ s a, L s a → relation bits (s ++ r) = some (r, a)) (hLh : ∀ s a, L s a → ∃ o t, s = operandLetter o :: t)
    (hend : pair space1 (pair (tag c!"and") space1) r = none)
    (h : SepText (Word c!"and") (RelText bits) L s x) : andCondition bits (s ++ r) = some (r, x) := by
  refine (separatedNonemptyList_complete (Fol := fun r => NoHead digitOrPoint r ∧ NoNext (· == ',') r)
    (fun s a r h hr => relation_complete h hr.1 hr.2) hL ?_ ?_ ?_ ?_ ?_ (.inl hend) h).1
  · rintro s a h rfl; obtain ⟨c, t, h⟩ := h.head; cases h
  · rintro s a h rfl; obtain ⟨c, t, h⟩ := hLh _ _ h; cases h
  · intro m s a r hm hs
    refine word_of hm (by decide) ?_
    have : ∃ o t, s = operandLetter o :: t := hs.elim (fun h => h.head) (hLh s a)
    obtain ⟨o, t, rfl⟩ := this
    exact noHead_cons.2 (letter_noSpace o)
  · exact fun m hm => word_ne hm
  · intro m s a r hm _
    exact ⟨word_head hm space_not_digitOrPoint, word_next hm (by decide) (by decide)⟩

theorem and_complete {s r : Str} {x : AndCondition} (h : AndText bits s x) (hr : NoHead digitOrPoint r)
    (hc : NoNext (· == ',') r) (ha : NoNext (· == 'a') r) : andCondition bits (s ++ r) = some (r, x) :=
  and_list_complete (fun _ _ h => relation_complete h hr hc) (fun _ _ h => h.head) (word_none ha) h

theorem openAnd_complete {s r : Str} {x : AndCondition} (h : OpenAnd bits s x) (hr : NoHead isSpace r) (hn : NoHead (· == 'n') r)
    (hd : NoHead isDigit r) : andCondition bits (s ++ r) = some (r, x) :=
  and_list_complete (fun _ _ h => open_complete h hr hn hd) (fun _ _ h => h.head) (word_none_head hr) h

theorem _root_.Verif.Grammar.AndText.head {s : Str} {x : AndCondition} (h : AndText bits s x) : ∃ o t, s = operandLetter o :: t := by
  obtain ⟨s, a, r, rfl, hs⟩ := SepText.head h
  have hs : RelText bits s a := by tauto
  obtain ⟨o, t, rfl⟩ := hs.head
  exact ⟨o, _, rfl⟩

theorem OpenAnd.head {s : Str} {x : AndCondition} (h : OpenAnd bits s x) : ∃ o t, s = operandLetter o :: t := by
  obtain ⟨s, a, r, rfl, hs⟩ := SepText.head h
  obtain ⟨o, t, rfl⟩ : ∃ o t, s = operandLetter o :: t := hs.elim (fun h => h.head) (fun h => h.head)
  exact ⟨o, _, rfl⟩

theorem _root_.Verif.Grammar.CondText.head {s : Str} {x : Condition} (h : CondText bits s x) : ∃ o t, s = operandLetter o :: t := by
  obtain ⟨s, a, r, rfl, hs⟩ := SepText.head h
  have hs : AndText bits s a := by tauto
  obtain ⟨o, t, rfl⟩ := AndText.head hs
  exact ⟨o, _, rfl⟩

theorem _root_.Verif.Grammar.OpenCondText.head {s : Str} {x : Condition} (h : OpenCondText bits s x) : ∃ o t, s = operandLetter o :: t := by
  obtain ⟨s, a, r, rfl, hs⟩ := SepText.head h
  obtain ⟨o, t, rfl⟩ : ∃ o t, s = operandLetter o :: t := hs.elim (fun h => AndText.head h) (fun h => OpenAnd.head h)
  exact ⟨o, _, rfl⟩

/-- `parse_condition` on text that is neither blank nor starts with `@`. -/
def conditionList (bits : Nat) : P Condition := separatedNonemptyList (pair space1 (pair (tag c!"or") space1)) (andCondition bits)

theorem conditionList_sound {i r : Str} {x : Condition} (h : conditionList bits i = some (r, x)) :
    ∃ s, i = s ++ r ∧ (CondText bits s x ∨ OpenCondText bits s x ∧ NoHead isSpace r) :=
  separatedNonemptyList_sound (Sep := Word c!"or") (Stop := NoHead isSpace)
    (fun i r x h => by obtain ⟨m, e, hm, -⟩ := word_sound h; exact ⟨m, e, hm⟩)
    (fun i r a h => and_sound h) (fun r hr => word_none_head hr) h

theorem cond_list_complete {L : Str → AndCondition → Prop} {s r : Str} {x : Condition}
    (hL : ∀ s a, L s a → andCondition bits (s ++ r) = some (r, a)) (hLh : ∀ s a, L s a → ∃ o t, s = operandLetter o :: t)
    (hend : pair space1 (pair (tag c!"or") space1) r = none)
    (h : SepText (Word c!"or") (AndText bits) L s x) : conditionList bits (s ++ r) = some (r, x) := by
  refine (separatedNonemptyList_complete (Fol := fun r => NoHead digitOrPoint r ∧ NoNext (· == ',') r ∧ NoNext (· == 'a') r)
    (fun s a r h hr => and_complete h hr.1 hr.2.1 hr.2.2) hL ?_ ?_ ?_ ?_ ?_ (.inl hend) h).1
  · rintro s a h rfl; obtain ⟨c, t, h⟩ := AndText.head h; cases h
  · rintro s a h rfl; obtain ⟨c, t, h⟩ := hLh _ _ h; cases h
  · intro m s a r hm hs
    refine word_of hm (by decide) ?_
    have : ∃ o t, s = operandLetter o :: t := hs.elim (fun h => AndText.head h) (hLh s a)
    obtain ⟨o, t, rfl⟩ := this
    exact noHead_cons.2 (letter_noSpace o)
  · exact fun m hm => word_ne hm
  · intro m s a r hm _
    exact ⟨word_head hm space_not_digitOrPoint, word_next hm (by decide) (by decide), word_next hm (by decide) (by decide)⟩

theorem conditionList_complete {s r : Str} {x : Condition} (h : CondText bits s x) (hr : NoHead digitOrPoint r)
    (hc : NoNext (· == ',') r) (ha : NoNext (· == 'a') r) (ho : NoNext (· == 'o') r) :
    conditionList bits (s ++ r) = some (r, x) :=
  cond_list_complete (fun _ _ h => and_complete h hr hc ha) (fun _ _ h => AndText.head h) (word_none ho) h

theorem openCond_complete {s r : Str} {x : Condition} (h : OpenCondText bits s x) (hr : NoHead isSpace r) (hn : NoHead (· == 'n') r)
    (hd : NoHead isDigit r) : conditionList bits (s ++ r) = some (r, x) :=
  cond_list_complete (fun _ _ h => openAnd_complete h hr hn hd) (fun _ _ h => OpenAnd.head h) (word_none_head hr) h

/-! ## Blank text -/

/-- The first character that is not white space decides. -/
theorem trim_cases (i : Str) :
    ((trim i).isEmpty = true ↔ ∀ c ∈ i, isWhitespace c = true) ∧
    (c!"@".isPrefixOf (trim i) = true ↔ ∃ a t, (∀ c ∈ a, isWhitespace c = true) ∧ i = a ++ '@' :: t) := by
  have hsplit : i = i.takeWhile isWhitespace ++ i.dropWhile isWhitespace := List.takeWhile_append_dropWhile.symm
  have hall := takeWhile_all isWhitespace i
  have hno := dropWhile_noHead isWhitespace i
  cases hd : i.dropWhile isWhitespace with
  | nil =>
    have ht : trim i = [] := by simp [trim, hd]
    rw [hd, List.append_nil] at hsplit
    rw [ht]
    constructor
    · simp only [List.isEmpty_nil, true_iff]
      intro c hc
      rw [hsplit] at hc
      exact hall c hc
    · simp only [List.isPrefixOf, Bool.false_eq_true, false_iff, not_exists, not_and]
      rintro a t - rfl
      have h1 := hall '@' (by rw [← hsplit]; simp)
      exact absurd h1 (by decide)
  | cons c t =>
    have hc : isWhitespace c = false := hno c t hd
    rw [hd] at hsplit
    obtain ⟨u, hu⟩ : ∃ u, trim i = c :: u := by
      have h2 : ∀ l : Str, ∃ v, (l ++ [c]).dropWhile isWhitespace = v ++ [c] := by
        intro l
        induction l with
        | nil => exact ⟨[], by simp [List.dropWhile, hc]⟩
        | cons x l ih =>
          by_cases hx : isWhitespace x = true
          · obtain ⟨v, hv⟩ := ih; exact ⟨v, by simpa [List.dropWhile, hx] using hv⟩
          · have hx : isWhitespace x = false := by simpa using hx
            exact ⟨x :: l, by simp [List.dropWhile, hx]⟩
      obtain ⟨v, hv⟩ := h2 t.reverse
      exact ⟨v.reverse, by simp [trim, hd, hv]⟩
    rw [hu]
    constructor
    · simp only [List.isEmpty_cons, Bool.false_eq_true, false_iff, not_forall]
      exact ⟨c, by rw [hsplit]; simp, by simp [hc]⟩
    · have e : c!"@".isPrefixOf (c :: u) = true ↔ c = '@' := by
        simp only [List.isPrefixOf, Bool.and_true, beq_iff_eq]; exact eq_comm
      rw [e]
      constructor
      · rintro rfl; exact ⟨_, _, hall, hsplit⟩
      · rintro ⟨a, t', ha, rfl⟩
        have hat : isWhitespace '@' = false := by decide
        have h3 := (takeWhile_app isWhitespace a ('@' :: t') ha (noHead_cons.2 hat)).2
        rw [h3] at hd
        cases hd; rfl

theorem noCondition_iff (i : Str) : NoCondition i ↔ ((trim i).isEmpty = true ∨ c!"@".isPrefixOf (trim i) = true) := by
  rw [(trim_cases i).1, (trim_cases i).2]
  constructor
  · rintro ⟨a, b, ha, rfl, rfl | ⟨t, rfl⟩⟩
    · left; simpa using ha
    · exact .inr ⟨a, t, ha, rfl⟩
  · rintro (h | ⟨a, t, ha, rfl⟩)
    · exact ⟨i, [], h, by simp, .inl rfl⟩
    · exact ⟨a, _, ha, rfl, .inr ⟨t, rfl⟩⟩

theorem parseCondition_blank {i : Str} (h : NoCondition i) : parseCondition bits i = some ([], []) := by
  rw [noCondition_iff] at h
  unfold parseCondition
  rcases h with h | h
  · rw [if_pos h]
  · split_ifs <;> rfl

theorem parseCondition_list {i : Str} (h : ¬ NoCondition i) : parseCondition bits i = conditionList bits i := by
  rw [noCondition_iff, not_or] at h
  unfold parseCondition conditionList
  rw [if_neg h.1, if_neg h.2]

/-- Text that starts with an operand is not blank. -/
theorem letter_condition (o : Operand) (t : Str) : ¬ NoCondition (operandLetter o :: t) := by
  rintro ⟨a, b, ha, he, hb⟩
  cases a with
  | nil =>
    simp only [List.nil_append] at he
    rcases hb with rfl | ⟨u, rfl⟩
    · cases he
    · simp only [List.cons.injEq] at he
      have := he.1
      cases o <;> simp [operandLetter] at this
  | cons x a =>
    simp only [List.cons_append, List.cons.injEq] at he
    have := ha x (by simp)
    rw [← he.1] at this
    cases o <;> exact absurd this (by decide)

/-! ## Samples -/

theorem decimal_sound {i r : Str} {x : DecimalValue} (h : decimalValue bits i = some (r, x)) : ∃ s, i = s ++ r ∧ DecimalText bits s x := by
  simp only [decimalValue, map_some, pair_some, opt_some, preceded_some] at h
  obtain ⟨⟨a, d⟩, ⟨r1, h1, h2⟩, rfl⟩ := h
  obtain ⟨s, rfl, hs, -⟩ := value_sound h1
  rcases h2 with ⟨b, h3, r2, w, h4, h5⟩ | ⟨h3, -, rfl⟩
  · simp only at h3; subst h3
    obtain ⟨rfl, -⟩ := tag_some.1 h4
    obtain ⟨t, rfl, ht, -⟩ := value_sound h5
    exact ⟨_, by simp, .dec hs ht⟩
  · simp only at h3; subst h3
    exact ⟨s, rfl, .int hs⟩

theorem decimal_complete {s r : Str} {x : DecimalValue} (h : DecimalText bits s x) (hr : NoHead digitOrPoint r) :
    decimalValue bits (s ++ r) = some (r, x) := by
  cases h with
  | int hs =>
    have h1 := value_complete hs (noHead_digit hr)
    have h2 : tag c!"." r = none := tag_head (noHead_point hr)
    have h3 : opt (preceded (tag c!".") (value bits)) r = some (r, none) := opt_none (preceded_none_left h2)
    exact map_of (pair_of h1 h3)
  | @dec s t a b hs ht =>
    have h1 : value bits (s ++ (c!"." ++ (t ++ r))) = some (c!"." ++ (t ++ r), a) := value_complete hs (noHead_cons.2 (by decide))
    have h2 := tag_of c!"." (t ++ r)
    have h3 := value_complete ht (noHead_digit hr)
    have h4 : opt (preceded (tag c!".") (value bits)) (c!"." ++ (t ++ r)) = some (r, some b) := opt_of (preceded_of h2 h3)
    have e : (s ++ (c!"." ++ t)) ++ r = s ++ (c!"." ++ (t ++ r)) := by simp
    rw [e]
    exact map_of (pair_of h1 h4)

theorem decimal_none {i : Str} (h : NoHead isDigit i) : decimalValue bits i = none := by
  rw [decimalValue, map_none]; exact pair_none_left (value_none h)

theorem _root_.Verif.Grammar.DecimalText.head {s : Str} {x : DecimalValue} (h : DecimalText bits s x) :
    ∃ c t, s = c :: t ∧ isDigit c = true := by
  cases h with
  | int h => exact ValueText.head h
  | dec h _ => obtain ⟨c, t, rfl, hc⟩ := ValueText.head h; exact ⟨c, _, rfl, hc⟩

theorem sampleRange_sound {i r : Str} {x : SampleRange} (h : sampleRange bits i = some (r, x)) :
    ∃ s, i = s ++ r ∧ SampleRangeText bits s x := by
  rw [sampleRange, map_some] at h
  obtain ⟨⟨a, d⟩, h, rfl⟩ := h
  rw [pair_some] at h
  obtain ⟨r1, h1, h2⟩ := h
  rw [opt_some] at h2
  obtain ⟨s, rfl, hs⟩ := decimal_sound h1
  rcases h2 with ⟨b, h3, h4⟩ | ⟨h3, -, rfl⟩
  · simp only at h3; subst h3
    obtain ⟨r2, w, h5, h6⟩ := preceded_some.1 h4
    obtain ⟨m, rfl, hm, -⟩ := mark_sound h5
    obtain ⟨t, rfl, ht⟩ := decimal_sound h6
    exact ⟨_, by simp, .two hs hm ht⟩
  · simp only at h3; subst h3
    exact ⟨s, rfl, .one hs⟩

theorem sampleRange_complete {s r : Str} {x : SampleRange} (h : SampleRangeText bits s x) (hr : NoHead digitOrPoint r)
    (ht : NoNext (· == '~') r) : sampleRange bits (s ++ r) = some (r, x) := by
  cases h with
  | one hs =>
    have h1 := decimal_complete hs hr
    have h2 : opt (preceded (pair space0 (pair (tag c!"~") space0)) (decimalValue bits)) r = some (r, none) :=
      opt_none (preceded_none_left (mark_none ht))
    exact map_of (pair_of h1 h2)
  | @two s m t a b hs hm ht =>
    have h1 : decimalValue bits (s ++ (m ++ (t ++ r))) = some (m ++ (t ++ r), a) :=
      decimal_complete hs (mark_head hm space_not_digitOrPoint (by decide))
    obtain ⟨y, h2⟩ := mark_of (r := t ++ r) hm (by decide) (digit_head_noSpace ht.head)
    have h3 := decimal_complete ht hr
    have h4 : opt (preceded (pair space0 (pair (tag c!"~") space0)) (decimalValue bits)) (m ++ (t ++ r)) = some (r, some b) :=
      opt_of (preceded_of h2 h3)
    have e : (s ++ (m ++ t)) ++ r = s ++ (m ++ (t ++ r)) := by simp
    rw [e]
    exact map_of (pair_of h1 h4)

theorem sampleRange_none {i : Str} (h : NoHead isDigit i) : sampleRange bits i = none := by
  rw [sampleRange, map_none]; exact pair_none_left (decimal_none h)

theorem _root_.Verif.Grammar.SampleRangeText.head {s : Str} {x : SampleRange} (h : SampleRangeText bits s x) :
    ∃ c t, s = c :: t ∧ isDigit c = true := by
  cases h with
  | one h => exact h.head
  | two h _ _ => obtain ⟨c, t, rfl, hc⟩ := h.head; exact ⟨c, _, rfl, hc⟩

theorem sampleList_sound {i r : Str} {x : SampleList} (h : sampleList bits i = some (r, x)) :
    ∃ s, i = s ++ r ∧ SampleListText bits s x := by
  rw [sampleList, map_some] at h
  obtain ⟨⟨a, d⟩, h, rfl⟩ := h
  rw [pair_some] at h
  obtain ⟨r1, h1, h2⟩ := h
  rw [opt_some] at h2
  obtain ⟨s, rfl, hs⟩ := separatedNonemptyList_sound (Sep := Mark c!",") (E := SampleRangeText bits) (L := fun _ _ => False)
      (Stop := fun _ => False) (fun i r x h => by obtain ⟨m, e, hm, -⟩ := mark_sound h; exact ⟨m, e, hm⟩)
      (fun i r a h => by obtain ⟨s, e, hs⟩ := sampleRange_sound h; exact ⟨s, e, .inl hs⟩) (fun r h => h.elim) h1
  replace hs : SepText (Mark c!",") (SampleRangeText bits) (SampleRangeText bits) s a := by tauto
  rcases h2 with ⟨b, h3, h4⟩ | ⟨h3, -, rfl⟩
  · simp only at h3; subst h3
    obtain ⟨r2, w, h5, h6⟩ := preceded_some.1 h4
    obtain ⟨m, rfl, hm, -⟩ := mark_sound h5
    rw [alt_some, tag_some, tag_some] at h6
    rcases h6 with ⟨rfl, -⟩ | ⟨-, rfl, -⟩
    · exact ⟨_, by simp, .more hs hm (.inl rfl)⟩
    · exact ⟨_, by simp, .more hs hm (.inr rfl)⟩
  · simp only at h3; subst h3
    exact ⟨s, rfl, .plain hs⟩

/-- The list of ranges up to what follows. -/
theorem ranges_complete {s r : Str} {l : List SampleRange} (h : SepText (Mark c!",") (SampleRangeText bits) (SampleRangeText bits) s l)
    (hr : NoHead digitOrPoint r) (ht : NoNext (· == '~') r)
    (hend : commaSep r = none ∨ ∃ i1 x, commaSep r = some (i1, x) ∧ i1 ≠ r ∧ sampleRange bits i1 = none) :
    separatedNonemptyList commaSep (sampleRange bits) (s ++ r) = some (r, l) := by
  refine (separatedNonemptyList_complete (Fol := fun r => NoHead digitOrPoint r ∧ NoNext (· == '~') r)
    (fun s a r h hr => sampleRange_complete h hr.1 hr.2) (fun s a h => sampleRange_complete h hr ht) ?_ ?_ ?_ ?_ ?_ hend h).1
  · rintro s a h rfl; obtain ⟨c, t, h, -⟩ := h.head; cases h
  · rintro s a h rfl; obtain ⟨c, t, h, -⟩ := h.head; cases h
  · intro m s a r hm hs
    have hs : SampleRangeText bits s a := by tauto
    exact mark_of hm (by decide) (digit_head_noSpace hs.head)
  · exact fun m hm => mark_ne (by simp) hm
  · intro m s a r hm _
    exact ⟨mark_head hm space_not_digitOrPoint (by decide), mark_next hm (by decide) (by decide)⟩

theorem sampleList_complete {s r : Str} {x : SampleList} (h : SampleListText bits s x) (hr : NoHead digitOrPoint r)
    (ht : NoNext (· == '~') r) (hc : NoNext (· == ',') r) : sampleList bits (s ++ r) = some (r, x) := by
  cases h with
  | plain hs =>
    have h1 := ranges_complete hs hr ht (.inl (mark_none hc))
    have h2 : opt (preceded commaSep (alt (tag c!"...") (tag c!"…"))) r = some (r, none) :=
      opt_none (preceded_none_left (mark_none hc))
    exact map_of (pair_of h1 h2)
  | @more s m e l hs hm he =>
    have hsp : NoHead isSpace (e ++ r) := by rcases he with rfl | rfl <;> exact noHead_cons.2 (by decide)
    obtain ⟨y, h2⟩ := mark_of (r := e ++ r) hm (by decide) hsp
    have h2 : commaSep (m ++ (e ++ r)) = some (e ++ r, y) := h2
    have h1 : separatedNonemptyList commaSep (sampleRange bits) (s ++ (m ++ (e ++ r))) = some (m ++ (e ++ r), l) := by
      refine ranges_complete hs (mark_head hm space_not_digitOrPoint (by decide)) (mark_next hm (by decide) (by decide))
        (.inr ⟨_, _, h2, ?_, sampleRange_none ?_⟩)
      · have := mark_ne (by simp) hm
        simpa using this
      · rcases he with rfl | rfl <;> exact noHead_cons.2 (by decide)
    have h3 : ∃ z, alt (tag c!"...") (tag c!"…") (e ++ r) = some (r, z) := by
      rcases he with rfl | rfl
      · exact ⟨_, alt_left (tag_of _ _)⟩
      · refine ⟨c!"…", ?_⟩
        have e1 : tag c!"..." (c!"…" ++ r) = none := tag_head (noHead_cons.2 (by decide))
        rw [alt_right e1]
        exact tag_of _ _
    obtain ⟨z, h3⟩ := h3
    have h4 : opt (preceded commaSep (alt (tag c!"...") (tag c!"…"))) (m ++ (e ++ r)) = some (r, some z) :=
      opt_of (preceded_of h2 h3)
    have e' : (s ++ (m ++ e)) ++ r = s ++ (m ++ (e ++ r)) := by simp
    rw [e']
    exact map_of (pair_of h1 h4)

theorem _root_.Verif.Grammar.SampleListText.head {s : Str} {x : SampleList} (h : SampleListText bits s x) :
    ∃ c t, s = c :: t ∧ isDigit c = true := by
  have key : ∀ {s l}, SepText (Mark c!",") (SampleRangeText bits) (SampleRangeText bits) s l → ∃ c t, s = c :: t ∧ isDigit c = true := by
    intro s l h
    obtain ⟨s, a, r, rfl, hs⟩ := SepText.head h
    have hs : SampleRangeText bits s a := by tauto
    obtain ⟨c, t, rfl, hc⟩ := hs.head
    exact ⟨c, _, rfl, hc⟩
  cases h with
  | plain h => exact key h
  | more h _ _ => obtain ⟨c, t, rfl, hc⟩ := key h; exact ⟨c, _, rfl, hc⟩

theorem samples_total (i : Str) : ∃ r x, samples bits i = some (r, x) := by
  have ho : ∀ {α : Type} (p : P α) (i : Str), ∃ r o, opt p i = some (r, o) := by
    intro α p i
    cases h : p i with
    | none => exact ⟨_, _, opt_none h⟩
    | some x => exact ⟨_, _, opt_of h⟩
  obtain ⟨r, a, h1⟩ := ho (preceded (pair space1 (pair (tag c!"@integer") space1)) (sampleList bits)) i
  obtain ⟨r', b, h2⟩ := ho (preceded (pair space1 (pair (tag c!"@decimal") space1)) (sampleList bits)) r
  exact ⟨_, _, map_of (pair_of h1 h2)⟩

theorem samples_sound {i r : Str} {x : Option Samples} (h : samples bits i = some (r, x)) :
    (x = none ∧ r = i) ∨ ∃ t y, i = t ++ r ∧ x = some y ∧ SamplesText bits t y := by
  rw [samples, map_some] at h
  obtain ⟨⟨a, b⟩, h, rfl⟩ := h
  rw [pair_some] at h
  obtain ⟨r1, h1, h2⟩ := h
  rw [opt_some] at h1 h2
  have key : ∀ {w i r : Str} {l : SampleList}, preceded (pair space1 (pair (tag w) space1)) (sampleList bits) i = some (r, l) →
      ∃ m s, i = m ++ (s ++ r) ∧ Word w m ∧ SampleListText bits s l := by
    intro w i r l h
    obtain ⟨r2, y, h5, h6⟩ := preceded_some.1 h
    obtain ⟨m, rfl, hm, -⟩ := word_sound h5
    obtain ⟨t, rfl, ht⟩ := sampleList_sound h6
    exact ⟨_, _, rfl, hm, ht⟩
  rcases h1 with ⟨l, h3, h4⟩ | ⟨h3, -, rfl⟩
  · simp only at h3; subst h3
    obtain ⟨m, s, rfl, hm, hs⟩ := key h4
    rcases h2 with ⟨l', h5, h6⟩ | ⟨h5, -, rfl⟩
    · simp only at h5; subst h5
      obtain ⟨m', s', rfl, hm', hs'⟩ := key h6
      exact .inr ⟨_, _, by simp, rfl, .both hm hs hm' hs'⟩
    · simp only at h5; subst h5
      exact .inr ⟨_, _, by simp, rfl, .int hm hs⟩
  · simp only at h3; subst h3
    rcases h2 with ⟨l', h5, h6⟩ | ⟨h5, -, rfl⟩
    · simp only at h5; subst h5
      obtain ⟨m', s', rfl, hm', hs'⟩ := key h6
      exact .inr ⟨_, _, by simp, rfl, .dec hm' hs'⟩
    · simp only at h5; subst h5
      exact .inl ⟨rfl, rfl⟩

theorem samples_none {r : Str} (h : NoHead isSpace r) : samples bits r = some (r, none) := by
  have h1 : opt (preceded (pair space1 (pair (tag c!"@integer") space1)) (sampleList bits)) r = some (r, none) :=
    opt_none (preceded_none_left (word_none_head h))
  have h2 : opt (preceded (pair space1 (pair (tag c!"@decimal") space1)) (sampleList bits)) r = some (r, none) :=
    opt_none (preceded_none_left (word_none_head h))
  exact map_of (pair_of h1 h2)

theorem samples_none_next {r : Str} (h : NoNext (· == '@') r) : samples bits r = some (r, none) := by
  have h1 : opt (preceded (pair space1 (pair (tag c!"@integer") space1)) (sampleList bits)) r = some (r, none) :=
    opt_none (preceded_none_left (word_none h))
  have h2 : opt (preceded (pair space1 (pair (tag c!"@decimal") space1)) (sampleList bits)) r = some (r, none) :=
    opt_none (preceded_none_left (word_none h))
  exact map_of (pair_of h1 h2)

theorem samples_complete {s r : Str} {x : Samples} (h : SamplesText bits s x) (hr : NoHead digitOrPoint r)
    (ht : NoNext (· == '~') r) (hc : NoNext (· == ',') r) (ha : NoNext (· == '@') r) :
    samples bits (s ++ r) = some (r, some x) := by
  have key : ∀ {w m s r : Str} {c : Char} {l : SampleList}, Word (c :: w) m → isSpace c = false → SampleListText bits s l →
      NoHead digitOrPoint r → NoNext (· == '~') r → NoNext (· == ',') r →
      opt (preceded (pair space1 (pair (tag (c :: w)) space1)) (sampleList bits)) (m ++ (s ++ r)) = some (r, some l) := by
    intro w m s r c l hm hsp hs h1 h2 h3
    obtain ⟨y, h4⟩ := word_of (r := s ++ r) hm hsp (digit_head_noSpace hs.head)
    exact opt_of (preceded_of h4 (sampleList_complete hs h1 h2 h3))
  cases h with
  | @int m s l hm hs =>
    have h1 := key hm (by decide) hs hr ht hc
    have h2 : opt (preceded (pair space1 (pair (tag c!"@decimal") space1)) (sampleList bits)) r = some (r, none) :=
      opt_none (preceded_none_left (word_none ha))
    rw [List.append_assoc]
    exact map_of (pair_of h1 h2)
  | @dec m s l hm hs =>
    have h1 : opt (preceded (pair space1 (pair (tag c!"@integer") space1)) (sampleList bits)) (m ++ (s ++ r)) =
        some (m ++ (s ++ r), none) := by
      refine opt_none (preceded_none_left ?_)
      obtain ⟨a, b, ha, hb, rfl⟩ := hm
      have e : (a ++ (c!"@decimal" ++ b)) ++ (s ++ r) = a ++ (c!"@decimal" ++ (b ++ (s ++ r))) := by simp
      rw [e]
      refine pair_none_right (space1_of ha (noHead_cons.2 (by decide))) (pair_none_left (tag_none ?_))
      intro r he
      simp at he
    have h2 := key hm (by decide) hs hr ht hc
    rw [List.append_assoc]
    exact map_of (pair_of h1 h2)
  | @both m s m' s' l l' hm hs hm' hs' =>
    have h1 := key (r := m' ++ (s' ++ r)) hm (by decide) hs (word_head hm' space_not_digitOrPoint)
      (word_next hm' (by decide) (by decide)) (word_next hm' (by decide) (by decide))
    have h2 := key hm' (by decide) hs' hr ht hc
    have e : (m ++ (s ++ (m' ++ s'))) ++ r = m ++ (s ++ (m' ++ (s' ++ r))) := by simp
    rw [e]
    exact map_of (pair_of h1 h2)

theorem _root_.Verif.Grammar.SamplesText.word {s : Str} {x : Samples} (h : SamplesText bits s x) :
    ∃ w m t, Word ('@' :: w) m ∧ s = m ++ t := by
  cases h with
  | int hm hs => exact ⟨_, _, _, hm, rfl⟩
  | dec hm hs => exact ⟨_, _, _, hm, rfl⟩
  | both hm hs hm' hs' => exact ⟨_, _, _, hm, rfl⟩

/-! ## Rules -/

theorem parseRule_sound {i r : Str} {x : Rule} (h : parseRule bits i = some (r, x)) : ∃ s, i = s ++ r ∧ RuleText bits s x := by
  rw [parseRule, map_some] at h
  obtain ⟨⟨c, y⟩, h, rfl⟩ := h
  rw [pair_some] at h
  obtain ⟨r1, h1, h2⟩ := h
  by_cases hn : NoCondition i
  · rw [parseCondition_blank hn] at h1
    simp only [Option.some.injEq, Prod.mk.injEq] at h1
    obtain ⟨rfl, h3⟩ := h1
    subst h3
    rw [samples_none (noHead_nil _)] at h2
    simp only [Option.some.injEq, Prod.mk.injEq] at h2
    obtain ⟨rfl, h3⟩ := h2
    subst h3
    exact ⟨i, by simp, .empty hn⟩
  · rw [parseCondition_list hn] at h1
    obtain ⟨s, rfl, hs⟩ := conditionList_sound h1
    rcases hs with hs | ⟨hs, hr⟩
    · rcases samples_sound h2 with ⟨h3, rfl⟩ | ⟨t, z, rfl, h3, ht⟩
      · simp only at h3; subst h3
        exact ⟨s, rfl, .cond hs⟩
      · simp only at h3; subst h3
        exact ⟨s ++ t, by simp, .full hs ht⟩
    · rw [samples_none hr] at h2
      simp only [Option.some.injEq, Prod.mk.injEq] at h2
      obtain ⟨rfl, h3⟩ := h2
      subst h3
      exact ⟨s, rfl, .openCond hs⟩

theorem cond_not_blank {s r : Str} {x : Condition} (h : CondText bits s x ∨ OpenCondText bits s x) : ¬ NoCondition (s ++ r) := by
  obtain ⟨o, t, rfl⟩ : ∃ o t, s = operandLetter o :: t := h.elim (fun h => CondText.head h) (fun h => OpenCondText.head h)
  exact letter_condition o _

/-- What cannot continue a rule. -/
def RuleEnd (r : Str) : Prop := NoHead digitOrPoint r ∧ NoNext (fun c => c == ',' || c == 'a' || c == 'o' || c == '~' || c == '@') r

theorem noNext_mono {p q : Char → Bool} {r : Str} (hpq : ∀ c, q c = true → p c = true) (h : NoNext p r) : NoNext q r :=
  noHead_mono hpq h

theorem parseRule_complete {s r : Str} {x : Rule} (h : CondText bits s x.condition ∧ x.samples = none ∨
    ∃ a t y, s = a ++ t ∧ CondText bits a x.condition ∧ SamplesText bits t y ∧ x.samples = some y) (hr : RuleEnd r) :
    parseRule bits (s ++ r) = some (r, x) := by
  obtain ⟨c, z⟩ := x
  obtain ⟨h0, h1⟩ := hr
  have hcomma : NoNext (· == ',') r := noNext_mono (fun c h => by simp only [h, Bool.true_or, Bool.or_true]) h1
  have hat : NoNext (· == '@') r := noNext_mono (fun c h => by simp only [h, Bool.or_true]) h1
  rcases h with ⟨hs, h3⟩ | ⟨a, t, y, rfl, ha, ht, h3⟩
  · simp only at h3; subst h3
    have h2 : conditionList bits (s ++ r) = some (r, c) := conditionList_complete hs h0 hcomma
      (noNext_mono (fun c h => by simp only [h, Bool.true_or, Bool.or_true]) h1)
      (noNext_mono (fun c h => by simp only [h, Bool.true_or, Bool.or_true]) h1)
    rw [← parseCondition_list (cond_not_blank (.inl hs))] at h2
    exact map_of (pair_of h2 (samples_none_next hat))
  · simp only at h3; subst h3
    obtain ⟨w, m, u, hm, rfl⟩ := ht.word
    have h2 : conditionList bits (a ++ (m ++ (u ++ r))) = some (m ++ (u ++ r), c) := conditionList_complete ha
      (word_head hm space_not_digitOrPoint) (word_next hm (by decide) (by decide)) (word_next hm (by decide) (by decide))
      (word_next hm (by decide) (by decide))
    rw [← parseCondition_list (cond_not_blank (.inl ha))] at h2
    have h3 := samples_complete ht h0 (noNext_mono (fun c h => by simp only [h, Bool.true_or, Bool.or_true]) h1) hcomma hat
    have e : (a ++ (m ++ u)) ++ r = a ++ (m ++ (u ++ r)) := by simp
    rw [List.append_assoc] at h3
    rw [e]
    exact map_of (pair_of h2 h3)

theorem ruleEnd_nil : RuleEnd [] := ⟨noHead_nil _, noNext_nil _⟩

theorem parseRule_text {s : Str} {x : Rule} (h : RuleText bits s x) : parseRule bits s = some ([], x) := by
  cases h with
  | empty hn => exact map_of (pair_of (parseCondition_blank hn) (samples_none (noHead_nil _)))
  | cond hs => simpa using parseRule_complete (r := []) (.inl ⟨hs, rfl⟩) ruleEnd_nil
  | @openCond _ c hs =>
    have h2 : conditionList bits (s ++ []) = some ([], c) := openCond_complete hs (noHead_nil _) (noHead_nil _) (noHead_nil _)
    rw [← parseCondition_list (cond_not_blank (.inr hs)), List.append_nil] at h2
    exact map_of (pair_of h2 (samples_none (noHead_nil _)))
  | full hs ht => simpa using parseRule_complete (r := []) (.inr ⟨_, _, _, rfl, hs, ht, rfl⟩) ruleEnd_nil

/-- The parser accepts exactly the texts of the grammar, with the tree the grammar gives. -/
theorem parsePluralRule_ok {s : Str} {x : Rule} : parsePluralRule bits s = .ok x ↔ RuleText bits s x := by
  constructor
  · intro h
    unfold parsePluralRule at h
    cases h1 : parseRule bits s with
    | none => rw [h1] at h; cases h
    | some y =>
      obtain ⟨r, z⟩ := y
      rw [h1] at h
      cases r with
      | cons c r => cases h
      | nil =>
        cases h
        obtain ⟨t, rfl, ht⟩ := parseRule_sound h1
        simpa using ht
  · intro h
    unfold parsePluralRule
    rw [parseRule_text h]

/-! ## Failure -/

theorem alt_none {α : Type} {p q : P α} {i : Str} : alt p q i = none ↔ p i = none ∧ q i = none := by
  unfold alt
  cases p i <;> simp

theorem opt_total {α : Type} (p : P α) (i : Str) : ∃ r o, opt p i = some (r, o) := by
  cases h : p i with
  | none => exact ⟨_, _, opt_none h⟩
  | some x => exact ⟨_, _, opt_of h⟩

theorem spaces1_any {a : Str} (h : Spaces1 a) (r : Str) : ∃ r' x, space1 (a ++ r) = some (r', x) := by
  obtain ⟨h1, h2⟩ := h
  cases a with
  | nil => contradiction
  | cons c a =>
    have : isSpace c = true := (spaces_iff _).1 h1 c (by simp)
    exact ⟨((c :: a) ++ r).dropWhile isSpace, ((c :: a) ++ r).takeWhile isSpace, by simp [space1, this]⟩

/-- An operator at the front is recognised, whatever follows. -/
theorem op_any {o : Str} {op : Operator} (h : OpText o op) (r : Str) : ∃ r' op', relationOperator (o ++ r) = some (r', op') := by
  cases hc : relationOperator (o ++ r) with
  | some y => exact ⟨y.1, y.2, rfl⟩
  | none =>
    exfalso
    simp only [relationOperator, alt_none, map_none] at hc
    obtain ⟨h1, h2, h3, h4, h5, h6⟩ := hc
    cases h with
    | eq => rw [tag_of] at h1; cases h1
    | ne => rw [tag_of] at h2; cases h2
    | @is a ha =>
      obtain ⟨r', x, e1⟩ := spaces1_any ha r
      obtain ⟨r'', y, e2⟩ := opt_total (tag c!"not") r'
      rw [List.append_assoc, pair_of (tag_of _ _) (pair_of e1 e2)] at h3
      cases h3
    | @isNot a ha =>
      obtain ⟨r', x, e1⟩ := spaces1_any ha (c!"not" ++ r)
      obtain ⟨r'', y, e2⟩ := opt_total (tag c!"not") r'
      rw [List.append_assoc, List.append_assoc, pair_of (tag_of _ _) (pair_of e1 e2)] at h3
      cases h3
    | «in» => rw [tag_of] at h4; cases h4
    | @notIn a ha =>
      have e1 : space1 (a ++ (c!"in" ++ r)) = some (c!"in" ++ r, a) := space1_of ha (noHead_cons.2 (by decide))
      have e2 : alt (map (tag c!"in") fun _ => Operator.NotIn) (map (tag c!"within") fun _ => Operator.NotWithin)
        (c!"in" ++ r) = some (r, .NotIn) := alt_left (map_of (tag_of _ _))
      rw [List.append_assoc, List.append_assoc, pair_of (tag_of _ _) (pair_of e1 e2)] at h5
      cases h5
    | @notWithin a ha =>
      have e1 : space1 (a ++ (c!"within" ++ r)) = some (c!"within" ++ r, a) := space1_of ha (noHead_cons.2 (by decide))
      have e2 : alt (map (tag c!"in") fun _ => Operator.NotIn) (map (tag c!"within") fun _ => Operator.NotWithin)
        (c!"within" ++ r) = some (r, .NotWithin) := by
        rw [alt_right (by rw [map_none]; exact tag_head (noHead_cons.2 (by decide)))]
        exact map_of (tag_of _ _)
      rw [List.append_assoc, List.append_assoc, pair_of (tag_of _ _) (pair_of e1 e2)] at h5
      cases h5
    | within => rw [tag_of] at h6; cases h6

theorem shrinks {t r i : Str} (e : i = t ++ r) (h : t ≠ []) : r.length < i.length := by
  subst e
  cases t with
  | nil => contradiction
  | cons c t => simp; omega

theorem mark_shrinks {w i r : Str} {c : Char} {x : Str × Str × Str} (h : pair space0 (pair (tag (c :: w)) space0) i = some (r, x)) :
    r.length < i.length := by
  obtain ⟨m, e, hm, -⟩ := mark_sound h
  exact shrinks e (mark_ne (by simp) hm)

theorem word_shrinks {w i r : Str} {x : Str × Str × Str} (h : pair space1 (pair (tag w) space1) i = some (r, x)) :
    r.length < i.length := by
  obtain ⟨m, e, hm, -⟩ := word_sound h
  exact shrinks e (word_ne hm)

theorem item_shrinks {i r : Str} {x : RangeListItem} (h : rangeListItem bits i = some (r, x)) : r.length < i.length := by
  obtain ⟨s, e, hs⟩ := item_sound h
  obtain ⟨c, t, rfl, -⟩ := hs.head
  exact shrinks e (by simp)

theorem relation_shrinks {i r : Str} {x : Relation} (h : relation bits i = some (r, x)) : r.length < i.length := by
  obtain ⟨s, e, hs⟩ := relation_sound h
  obtain ⟨o, t, rfl⟩ : ∃ o t, s = operandLetter o :: t := hs.elim (fun h => h.head) (fun h => h.1.head)
  exact shrinks e (by simp)

theorem and_shrinks {i r : Str} {x : AndCondition} (h : andCondition bits i = some (r, x)) : r.length < i.length := by
  obtain ⟨s, e, hs⟩ := and_sound h
  obtain ⟨o, t, rfl⟩ : ∃ o t, s = operandLetter o :: t := hs.elim (fun h => AndText.head h) (fun h => OpenAnd.head h.1)
  exact shrinks e (by simp)

/-- A relation up to its operator at the front is recognised, whatever follows. -/
theorem relation_any {s : Str} {x : Relation} (h : RelText bits s x ∨ OpenText bits s x) (r : Str) :
    ∃ r' x', relation bits (s ++ r) = some (r', x') := by
  have key : ∀ {s a o : Str} {e : Expression} {op : Operator} (u : Str), ExprText bits s e → Spaces a → OpText o op →
      ∃ r' x', relation bits (s ++ (a ++ (o ++ u))) = some (r', x') := by
    intro s a o e op u hs ha ho
    have h1 := expr_complete (r := u) hs ha ho
    have h2 : space0 (a ++ (o ++ u)) = some (o ++ u, a) := by
      refine space0_of ha ?_
      obtain ⟨c, u, rfl, hc⟩ := ho.head
      exact noHead_cons.2 (opHead_cases hc).1
    obtain ⟨r1, op', h3⟩ := op_any ho u
    have h4 : space0 r1 = some (r1.dropWhile isSpace, r1.takeWhile isSpace) := rfl
    obtain ⟨r2, l, h5⟩ : ∃ r2 l, rangeList bits (r1.dropWhile isSpace) = some (r2, l) := by
      cases h : rangeListItem bits (r1.dropWhile isSpace) with
      | none => exact ⟨r1.dropWhile isSpace, [], by simp only [rangeList, separatedList, h]⟩
      | some y =>
        obtain ⟨r', l, -, h'⟩ := separatedNonemptyList_total (fun _ _ _ h => mark_shrinks h) (fun _ _ _ h => item_shrinks h) h
        exact ⟨r', l, h'⟩
    exact ⟨_, _, map_of (pair_of h1 (pair_of h2 (pair_of h3 (pair_of h4 h5))))⟩
  rcases h with h | h
  · obtain @⟨s, a, o, b, t, e, op, l, hs, ha, ho, hb, ht⟩ := h
    obtain ⟨r', x', h⟩ := key (b ++ (t ++ r)) hs ha ho
    exact ⟨r', x', by simpa using h⟩
  · obtain @⟨s, a, o, b, e, op, hs, ha, ho, hb⟩ := h
    obtain ⟨r', x', h⟩ := key (b ++ r) hs ha ho
    exact ⟨r', x', by simpa using h⟩

/-- A condition is found whenever the text starts with one. -/
theorem conditionList_any {s : Str} {x : Condition} (h : CondText bits s x ∨ OpenCondText bits s x) (r : Str) :
    ∃ r' x', conditionList bits (s ++ r) = some (r', x') := by
  obtain ⟨t, y, u, rfl, ht⟩ : ∃ t y u, s = t ++ u ∧ (RelText bits t y ∨ OpenText bits t y) := by
    have key : ∀ {t : Str} {a : AndCondition}, AndText bits t a ∨ OpenAnd bits t a → ∃ s y u, t = s ++ u ∧
        (RelText bits s y ∨ OpenText bits s y) := by
      rintro t a (h | h)
      · obtain ⟨s, y, u, e, hs⟩ := SepText.head h; exact ⟨s, y, u, e, .inl (by tauto)⟩
      · obtain ⟨s, y, u, e, hs⟩ := SepText.head h; exact ⟨s, y, u, e, hs⟩
    obtain ⟨t, a, u, rfl, ht⟩ : ∃ t a u, s = t ++ u ∧ (AndText bits t a ∨ OpenAnd bits t a) := by
      rcases h with h | h
      · obtain ⟨s, y, u, e, hs⟩ := SepText.head h; exact ⟨s, y, u, e, .inl (by tauto)⟩
      · obtain ⟨s, y, u, e, hs⟩ := SepText.head h; exact ⟨s, y, u, e, hs⟩
    obtain ⟨s, y, v, rfl, hs⟩ := key ht
    exact ⟨s, y, v ++ u, by simp, hs⟩
  obtain ⟨r1, z, h1⟩ := relation_any ht (u ++ r)
  obtain ⟨r2, a, h2, -⟩ := separatedNonemptyList_total (fun _ _ _ h => word_shrinks (w := c!"and") h)
    (fun _ _ _ h => relation_shrinks h) h1
  obtain ⟨r3, c, h3, -⟩ := separatedNonemptyList_total (f := andCondition bits) (fun _ _ _ h => word_shrinks (w := c!"or") h)
    (fun _ _ _ h => and_shrinks h) h2
  rw [List.append_assoc]
  exact ⟨r3, c, h3⟩

/-- The parser fails exactly when no prefix is a condition. -/
theorem parseRule_none {s : Str} : parseRule bits s = none ↔
    ¬ NoCondition s ∧ ∀ pre rest c, s = pre ++ rest → ¬ CondText bits pre c ∧ ¬ OpenCondText bits pre c := by
  have hcond : parseRule bits s = none ↔ parseCondition bits s = none := by
    constructor
    · intro h
      cases h1 : parseCondition bits s with
      | none => rfl
      | some y =>
        obtain ⟨r, x, h2⟩ := samples_total (bits := bits) y.1
        rw [parseRule, map_of (pair_of h1 h2)] at h
        cases h
    · intro h
      rw [parseRule, map_none]
      exact pair_none_left h
  rw [hcond]
  constructor
  · intro h
    have hn : ¬ NoCondition s := fun hn => by rw [parseCondition_blank hn] at h; cases h
    refine ⟨hn, ?_⟩
    rintro pre rest c rfl
    rw [parseCondition_list hn] at h
    constructor <;> intro hc
    · obtain ⟨r', x', h'⟩ := conditionList_any (.inl hc) rest; rw [h] at h'; cases h'
    · obtain ⟨r', x', h'⟩ := conditionList_any (.inr hc) rest; rw [h] at h'; cases h'
  · rintro ⟨hn, h⟩
    rw [parseCondition_list hn]
    cases h1 : conditionList bits s with
    | none => rfl
    | some y =>
      obtain ⟨pre, e, hp⟩ := conditionList_sound h1
      obtain ⟨h2, h3⟩ := h pre _ _ e
      exact (hp.elim (fun h => h2 h) (fun hh => h3 hh.1)).elim

end Verif.Parser
