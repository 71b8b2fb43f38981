import Verif.Library
import Verif.Layout
import Verif.Lemmas.Render

/-! # Lemmas: where a text of tokens has a number torn at its point -/

namespace Verif.Lemmas
open Verif Rust GenPr GenRs Generate Api Layout

/-- A point directly before a literal. -/
def pointLit : List Tok → Bool
  | t :: .lit n s :: r => t == symDot || pointLit (.lit n s :: r)
  | _ :: u :: r => pointLit (u :: r)
  | _ => false

/-- The last token is a point. -/
def dotEnd (ts : List Tok) : Bool := ts.getLast? == some symDot

def isLit : Tok → Bool
  | .lit _ _ => true
  | _ => false

theorem pointLit_cons (t u : Tok) (r : List Tok) : pointLit (t :: u :: r) = (t == symDot && isLit u || pointLit (u :: r)) := by
  cases u <;> simp [pointLit, isLit]

theorem dotEnd_append {a b : List Tok} (ha : dotEnd a = false) (hb : dotEnd b = false) : dotEnd (a ++ b) = false := by
  unfold dotEnd at *
  rw [List.getLast?_append]
  cases h : b.getLast? with
  | none => simpa using ha
  | some x => rw [h] at hb; simpa using hb

theorem pointLit_append {a b : List Tok} (ha : dotEnd a = false) : pointLit (a ++ b) = (pointLit a || pointLit b) := by
  induction a with
  | nil => rfl
  | cons t a ih =>
    cases a with
    | nil =>
      have ht : (t == symDot) = false := by simpa [dotEnd] using ha
      cases b with
      | nil => rfl
      | cons u b =>
        rw [List.singleton_append, pointLit_cons, ht]
        simp [pointLit]
    | cons u a =>
      have : dotEnd (u :: a) = false := by simpa [dotEnd, List.getLast?_cons_cons] using ha
      rw [List.cons_append, List.cons_append, pointLit_cons, pointLit_cons, ← List.cons_append, ih this, Bool.or_assoc]

/-- The first token is a point. -/
def dotStart (ts : List Tok) : Bool := ts.head? == some symDot

/-- A point is directly after tokens only that it may touch. -/
def pointed : List Tok → Bool
  | t :: u :: r => (u != symDot || mayTouch t u) && pointed (u :: r)
  | _ => true

theorem pointed_append {a b : List Tok} (hb : dotStart b = false) : pointed (a ++ b) = (pointed a && pointed b) := by
  induction a with
  | nil => simp [pointed]
  | cons t a ih =>
    cases a with
    | nil =>
      cases b with
      | nil => rfl
      | cons u b =>
        have : (u != symDot) = true := by simpa [dotStart] using hb
        simp [pointed, this]
    | cons u a =>
      rw [List.cons_append, List.cons_append, pointed, pointed, ← List.cons_append, ih, Bool.and_assoc]

/-- White space and points only where they are told from the token. -/
def dense : Tok → Bool
  | .str s => s.all fun c => !isWhitespace c && c != '.'
  | _ => true

/-- Not a point, and no string with white space or points. -/
def quiet (t : Tok) : Bool := t != symDot && dense t

/-- The tokens have a point before a literal exactly if `b`; they do not begin or end with a point, points touch what is before,
and strings have no white space and points. -/
def Pts (ts : List Tok) (b : Bool) : Prop := pointLit ts = b ∧ dotEnd ts = false ∧ pointed ts = true ∧ dotStart ts = false ∧
  ts.all dense = true

theorem pts_append {a b : List Tok} {x y : Bool} (ha : Pts a x) (hb : Pts b y) : Pts (a ++ b) (x || y) := by
  refine ⟨by rw [pointLit_append ha.2.1, ha.1, hb.1], dotEnd_append ha.2.1 hb.2.1, by rw [pointed_append hb.2.2.2.1, ha.2.2.1, hb.2.2.1]; rfl, ?_,
    by rw [List.all_append, ha.2.2.2.2, hb.2.2.2.2]; rfl⟩
  cases a with
  | nil => exact hb.2.2.2.1
  | cons t a => exact ha.2.2.2.1

theorem pts_cons {t : Tok} {b : List Tok} {y : Bool} (ht : quiet t = true) (hb : Pts b y) : Pts (t :: b) y := by
  simp only [quiet, Bool.and_eq_true, bne_iff_ne, ne_eq] at ht
  have : Pts [t] false := ⟨rfl, by simpa [dotEnd] using ht.1, rfl, by simpa [dotStart] using ht.1, by simpa using ht.2⟩
  simpa using pts_append this hb

theorem pts_left {a b : List Tok} {x : Bool} (ha : Pts a x) (hb : Pts b false) : Pts (a ++ b) x := by simpa using pts_append ha hb
theorem pts_right {a b : List Tok} {y : Bool} (ha : Pts a false) (hb : Pts b y) : Pts (a ++ b) y := by simpa using pts_append ha hb

theorem pts_sepBy {α} {sep : Tok} (hs : quiet sep = true) (g : α → List Tok) (f : α → Bool) (l : List α)
    (h : ∀ x ∈ l, Pts (g x) (f x)) : Pts (sepBy sep (l.map g)) (l.any f) := by
  induction l with
  | nil => exact ⟨rfl, rfl, rfl, rfl, rfl⟩
  | cons x l ih =>
    cases l with
    | nil => simpa [sepBy] using h x (by simp)
    | cons y l =>
      have := pts_append (h x (by simp)) (pts_cons hs (ih fun z hz => h z (by simp [List.mem_cons] at hz ⊢; tauto)))
      simpa [sepBy] using this

/-- The same for a list of streams. -/
theorem pts_sepBy' {sep : Tok} (hs : quiet sep = true) (l : List (List Tok)) (h : ∀ x ∈ l, ∃ b, Pts x b) :
    Pts (sepBy sep l) (l.any pointLit) := by
  simpa using pts_sepBy hs id pointLit l fun x hx => by
    obtain ⟨b, hb⟩ := h x hx
    exact ⟨rfl, hb.2⟩

/-! ## Texts -/

theorem torn_skip (d r : Str) (h : d.all (fun c => !isWhitespace c && c != '.') = true) (hd : d ≠ []) (b : Bool) :
    torn b (d ++ r) = torn false r := by
  induction d generalizing b with
  | nil => exact absurd rfl hd
  | cons c d ih =>
    simp only [List.all_cons, Bool.and_eq_true, Bool.not_eq_true', bne_iff_ne, ne_eq] at h
    obtain ⟨⟨h1, h2⟩, h3⟩ := h
    have hc : (c == '.') = false := by simpa using h2
    rw [List.cons_append, torn, hc, h1]
    simp only [Bool.false_and, Bool.false_or]
    cases d with
    | nil => rfl
    | cons x d => exact ih (by simpa using h3) (by simp) false

theorem ident_dense (c : Char) (h : isIdent c = true) : (!isWhitespace c && c != '.') = true := by
  rw [ident_not_white c h]
  simp only [Bool.not_false, Bool.true_and, bne_iff_ne, ne_eq]
  rintro rfl; cases h

theorem tokText_ne (t : Tok) (ht : clean t = true) : tokText t ≠ [] := by
  obtain ⟨c, r, h, -⟩ := tokText_head t ht
  rw [h]; simp

theorem torn_tok (t : Tok) (ht : clean t = true) (hd : dense t = true) (hp : t ≠ symDot) (b : Bool) (r : Str) :
    torn b (tokText t ++ r) = torn false r := by
  cases t with
  | id s =>
    refine torn_skip _ r ?_ (tokText_ne _ ht) b
    simp only [clean, word, Bool.and_eq_true] at ht
    exact List.all_eq_true.2 fun c hc => ident_dense c (List.all_eq_true.1 ht.1.1 c hc)
  | lit n suf =>
    refine torn_skip _ r ?_ (tokText_ne _ ht) b
    simp only [clean, word, Bool.and_eq_true] at ht
    refine List.all_eq_true.2 fun c hc => ident_dense c ?_
    rcases List.mem_append.1 hc with hc | hc
    · exact isDigit_isIdent c (List.all_eq_true.1 (showNat_digits n).1 c hc)
    · exact List.all_eq_true.1 ht.1 c hc
  | str s =>
    refine torn_skip _ r ?_ (tokText_ne _ ht) b
    simp only [dense] at hd
    rw [tokText, List.all_append, List.all_cons, hd]; rfl
  | sym s =>
    simp only [clean, symbols, List.contains_eq_mem, List.mem_cons, List.not_mem_nil, or_false, decide_eq_true_eq] at ht
    rcases ht with rfl | rfl | rfl | rfl | rfl | rfl | rfl | rfl | rfl | rfl | rfl | rfl | rfl | rfl | rfl | rfl | rfl | rfl |
      rfl | rfl | rfl | rfl | rfl | rfl | rfl | rfl | rfl <;>
      first
        | exact absurd rfl hp
        | exact torn_skip _ r rfl (by simp [tokText]) b
        | skip
    cases b <;> simp [tokText, torn, isDigit, isWhitespace]

/-- The text of a token begins with a digit exactly if it is a literal. -/
theorem tokText_digit (t : Tok) (ht : clean t = true) : ∃ c r, tokText t = c :: r ∧ isWhitespace c = false ∧ isDigit c = isLit t := by
  obtain ⟨c, r, h1, h2⟩ := tokText_head t ht
  refine ⟨c, r, h1, h2, ?_⟩
  cases t with
  | id s =>
    simp only [clean, word, Bool.and_eq_true, Bool.not_eq_true'] at ht
    rw [tokText] at h1
    subst h1
    have : isDigit c = false := by simpa using ht.1.2
    rw [this]; rfl
  | lit n suf =>
    obtain ⟨d1, d2, -⟩ := showNat_digits n
    cases hn : showNat n with
    | nil => exact absurd hn d2
    | cons x y =>
      rw [hn] at d1
      rw [tokText, hn] at h1
      cases h1
      simp only [List.all_cons, Bool.and_eq_true] at d1
      exact d1.1
  | str s => cases h1; rfl
  | sym s =>
    simp only [clean, symbols, List.contains_eq_mem, List.mem_cons, List.not_mem_nil, or_false, decide_eq_true_eq] at ht
    rcases ht with rfl | rfl | rfl | rfl | rfl | rfl | rfl | rfl | rfl | rfl | rfl | rfl | rfl | rfl | rfl | rfl | rfl | rfl |
      rfl | rfl | rfl | rfl | rfl | rfl | rfl | rfl | rfl <;> cases h1 <;> rfl

/-! ## Layouts -/

theorem lexOne_sym_char (s : Str) (hs : clean (.sym s) = true) (c : Char) (r : Str)
    (hc : alone s = true ∨ ('.' ≠ c ∧ '=' ≠ c ∧ '&' ≠ c ∧ '|' ≠ c ∧ ':' ≠ c ∧ '>' ≠ c)) :
    lexOne (s ++ c :: r) = some (.sym s, c :: r) := by
  simp only [clean, symbols, List.contains_eq_mem, List.mem_cons, List.not_mem_nil, or_false, decide_eq_true_eq] at hs
  rcases hc with hc | ⟨h1, h2, h3, h4, h5, h6⟩
  · rcases hs with rfl | rfl | rfl | rfl | rfl | rfl | rfl | rfl | rfl | rfl | rfl | rfl | rfl | rfl | rfl | rfl | rfl | rfl |
      rfl | rfl | rfl | rfl | rfl | rfl | rfl | rfl | rfl <;> first | rfl | cases hc
  · rcases hs with rfl | rfl | rfl | rfl | rfl | rfl | rfl | rfl | rfl | rfl | rfl | rfl | rfl | rfl | rfl | rfl | rfl | rfl |
      rfl | rfl | rfl | rfl | rfl | rfl | rfl | rfl | rfl <;>
      simp [lexOne, isDigit, isIdent, longSymbols, List.isPrefixOf, h1, h2, h3, h4, h5, h6]

theorem white_operator (c : Char) (h : isWhitespace c = true) : '.' ≠ c ∧ '=' ≠ c ∧ '&' ≠ c ∧ '|' ≠ c ∧ ':' ≠ c ∧ '>' ≠ c := by
  refine ⟨?_, ?_, ?_, ?_, ?_, ?_⟩ <;> rintro rfl <;> cases h

theorem ident_operator (c : Char) (h : isIdent c = true) : '.' ≠ c ∧ '=' ≠ c ∧ '&' ≠ c ∧ '|' ≠ c ∧ ':' ≠ c ∧ '>' ≠ c := by
  refine ⟨?_, ?_, ?_, ?_, ?_, ?_⟩ <;> rintro rfl <;> cases h

theorem white_ident (c : Char) (h : isWhitespace c = true) : isIdent c = false := by
  cases hc : isIdent c with
  | false => rfl
  | true => rw [ident_not_white c hc] at h; cases h

/-- What follows a token in a layout. -/
def Next (t : Tok) (r : Str) : Prop :=
  r = [] ∨ (∃ c q, r = c :: q ∧ isWhitespace c = true) ∨ ∃ u q, clean u = true ∧ mayTouch t u = true ∧ r = tokText u ++ q

theorem sym_head (s : Str) (hs : clean (.sym s) = true) : ∃ c r, s = c :: r ∧ isIdent c = false := by
  simp only [clean, symbols, List.contains_eq_mem, List.mem_cons, List.not_mem_nil, or_false, decide_eq_true_eq] at hs
  rcases hs with rfl | rfl | rfl | rfl | rfl | rfl | rfl | rfl | rfl | rfl | rfl | rfl | rfl | rfl | rfl | rfl | rfl | rfl |
    rfl | rfl | rfl | rfl | rfl | rfl | rfl | rfl | rfl <;> exact ⟨_, _, rfl, rfl⟩

theorem alone_head (s : Str) (hs : alone s = true) : ∃ c, s = [c] ∧ '.' ≠ c ∧ '=' ≠ c ∧ '&' ≠ c ∧ '|' ≠ c ∧ ':' ≠ c ∧ '>' ≠ c := by
  simp only [alone, List.contains_eq_mem, List.mem_cons, List.not_mem_nil, or_false, decide_eq_true_eq] at hs
  rcases hs with rfl | rfl | rfl | rfl | rfl | rfl | rfl | rfl <;> exact ⟨_, rfl, by decide⟩

theorem next_ident {t : Tok} {r : Str} (ht : ∀ s, t ≠ .sym s) (h : Next t r) : ∀ c q, r = c :: q → isIdent c = false := by
  rintro c q rfl
  rcases h with h | ⟨_, _, h1, h2⟩ | ⟨u, q', h1, h2, h3⟩
  · cases h
  · cases h1; exact white_ident _ h2
  · cases u with
    | sym s =>
      obtain ⟨x, y, rfl, hx⟩ := sym_head s h1
      cases h3; exact hx
    | _ => cases t <;> first | exact absurd rfl (ht _) | cases h2

theorem lexOne_next (t : Tok) (r : Str) (ht : clean t = true) (hr : Next t r) : lexOne (tokText t ++ r) = some (t, r) := by
  cases t with
  | id s => exact lexOne_id s r ht (next_ident (by simp) hr)
  | lit n suf => exact lexOne_lit n suf r ht (next_ident (by simp) hr)
  | str s => exact lexOne_str s r ht
  | sym s =>
    rcases hr with rfl | ⟨c, q, rfl, hc⟩ | ⟨u, q, hu, h, rfl⟩
    · exact lexOne_sym s [] ht (.inl rfl)
    · exact lexOne_sym_char s ht c q (.inr (white_operator c hc))
    · cases u with
      | id x =>
        simp only [clean, word, Bool.and_eq_true, Bool.not_eq_true'] at hu
        cases x with
        | nil => simp at hu
        | cons c x =>
          have := hu.1.1
          simp only [List.all_cons, Bool.and_eq_true] at this
          exact lexOne_sym_char s ht c _ (.inr (ident_operator c this.1))
      | lit n suf =>
        obtain ⟨d1, d2, -⟩ := showNat_digits n
        cases hn : showNat n with
        | nil => exact absurd hn d2
        | cons c x =>
          rw [hn] at d1
          simp only [List.all_cons, Bool.and_eq_true] at d1
          simp only [tokText, hn, List.cons_append]
          exact lexOne_sym_char s ht c _ (.inr (ident_operator c (isDigit_isIdent c d1.1)))
      | str x => exact lexOne_sym_char s ht '"' _ (.inr (by decide))
      | sym x =>
        simp only [mayTouch, Bool.or_eq_true] at h
        rcases h with h | h
        · obtain ⟨c, y, rfl, -⟩ := sym_head x hu
          exact lexOne_sym_char s ht c _ (.inl h)
        · obtain ⟨c, rfl, hc⟩ := alone_head x h
          exact lexOne_sym_char s ht c _ (.inr hc)

theorem dropWhile_white (w : Str) (hw : w.all isWhitespace = true) (r : Str) :
    (w ++ r).dropWhile isWhitespace = r.dropWhile isWhitespace := by
  induction w with
  | nil => rfl
  | cons c w ih =>
    simp only [List.all_cons, Bool.and_eq_true] at hw
    rw [List.cons_append, List.dropWhile_cons_of_pos hw.1, ih hw.2]

theorem dropWhile_tok (t : Tok) (ht : clean t = true) (r : Str) : (tokText t ++ r).dropWhile isWhitespace = tokText t ++ r := by
  obtain ⟨c, s, h1, h2⟩ := tokText_head t ht
  rw [h1, List.cons_append, List.dropWhile_cons_of_neg (by simp [h2])]

theorem lexGo_layOut (l : List (Str × Tok)) (hc : ∀ p ∈ l, clean p.2 = true) (hw : ∀ p ∈ l, p.1.all isWhitespace = true)
    (hs : spaced l = true) (w : Str) (hww : w.all isWhitespace = true) (k : Str) (hk : l.length ≤ k.length) (acc : List Tok) :
    lexGo k (layOut l ++ w) acc = acc.reverse ++ l.map (·.2) := by
  induction l generalizing k acc with
  | nil =>
    cases k with
    | nil => simp [lexGo]
    | cons _ k =>
      rw [lexGo, layOut, List.nil_append]
      have := dropWhile_white w hww []
      rw [List.append_nil] at this
      rw [this]
      simp [lexOne]
  | cons p l ih =>
    cases k with
    | nil => simp at hk
    | cons _ k =>
      obtain ⟨v, t⟩ := p
      have hv : v.all isWhitespace = true := hw (v, t) (by simp)
      have ht : clean t = true := hc (v, t) (by simp)
      have hn : Next t (layOut l ++ w) := by
        cases l with
        | nil =>
          cases w with
          | nil => exact .inl rfl
          | cons c w =>
            simp only [List.all_cons, Bool.and_eq_true] at hww
            exact .inr (.inl ⟨c, w, rfl, hww.1⟩)
        | cons q l =>
          obtain ⟨v', u⟩ := q
          simp only [spaced, Bool.and_eq_true, Bool.or_eq_true, Bool.not_eq_true'] at hs
          have hv' : v'.all isWhitespace = true := hw (v', u) (by simp)
          cases v' with
          | nil => exact .inr (.inr ⟨u, layOut l ++ w, hc ([], u) (by simp), by simpa using hs.1, by simp [layOut]⟩)
          | cons c v' =>
            simp only [List.all_cons, Bool.and_eq_true] at hv'
            exact .inr (.inl ⟨c, _, rfl, hv'.1⟩)
      rw [lexGo, layOut, List.append_assoc, List.append_assoc, dropWhile_white v hv, dropWhile_tok t ht, lexOne_next t _ ht hn]
      simp only
      have hs' : spaced l = true := by
        cases l with
        | nil => rfl
        | cons q l => obtain ⟨v', u⟩ := q; simp only [spaced, Bool.and_eq_true] at hs; exact hs.2
      rw [ih (fun x hx => hc x (by simp [hx])) (fun x hx => hw x (by simp [hx])) hs' k (by simpa using hk)]
      simp

theorem layOut_length (l : List (Str × Tok)) (hc : ∀ p ∈ l, clean p.2 = true) : l.length ≤ (layOut l).length := by
  induction l with
  | nil => simp
  | cons p l ih =>
    obtain ⟨v, t⟩ := p
    obtain ⟨c, s, h, -⟩ := tokText_head t (hc (v, t) (by simp))
    have := ih fun x hx => hc x (by simp [hx])
    simp only [layOut, h, List.length_append, List.length_cons]
    omega

theorem lex_layOut {l : List (Str × Tok)} {text : Str} (hc : ∀ p ∈ l, clean p.2 = true) (h : Layout.Of l text) :
    lex text = l.map (·.2) := by
  obtain ⟨h1, h2, w, h3, rfl⟩ := h
  have := lexGo_layOut l hc h1 h2 w h3 (layOut l ++ w) (by rw [List.length_append]; have := layOut_length l hc; omega) []
  simpa [lex] using this

/-! ## Torn numbers of layouts -/

theorem torn_white (w : Str) (hw : w.all isWhitespace = true) (b : Bool) (r : Str) : torn b (w ++ r) = torn (b && w.isEmpty || !w.isEmpty) r := by
  induction w generalizing b with
  | nil => simp
  | cons c w ih =>
    simp only [List.all_cons, Bool.and_eq_true] at hw
    have hc : (c == '.') = false := by
      have := (white_operator c hw.1).1
      simpa using fun h => this h.symm
    rw [List.cons_append, torn, hc, hw.1, ih hw.2]
    cases w <;> simp

theorem torn_only_white (w : Str) (hw : w.all isWhitespace = true) (b : Bool) : torn b w = false := by
  have := torn_white w hw b []
  rw [List.append_nil] at this
  rw [this]; rfl

theorem torn_layOut (l : List (Str × Tok)) (hc : ∀ p ∈ l, clean p.2 = true) (hd : ∀ p ∈ l, dense p.2 = true)
    (hw : ∀ p ∈ l, p.1.all isWhitespace = true) (w : Str) (hww : w.all isWhitespace = true) :
    torn false (layOut l ++ w) = !joined l := by
  induction l with
  | nil => simpa [layOut, joined] using torn_only_white w hww false
  | cons p l ih =>
    obtain ⟨v, t⟩ := p
    have hv : v.all isWhitespace = true := hw (v, t) (by simp)
    have ht : clean t = true := hc (v, t) (by simp)
    have ih := ih (fun x hx => hc x (by simp [hx])) (fun x hx => hd x (by simp [hx])) fun x hx => hw x (by simp [hx])
    rw [layOut, List.append_assoc, List.append_assoc, torn_white v hv, Bool.false_and, Bool.false_or]
    by_cases hp : t = symDot
    · subst hp
      have e : tokText symDot = ['.'] := rfl
      rw [e, List.singleton_append, torn, show isWhitespace '.' = false from rfl, ih]
      cases l with
      | nil =>
        simp only [layOut, List.nil_append]
        have := dropWhile_white w hww []
        rw [List.append_nil] at this
        rw [this]
        simp [joined]
      | cons q l =>
        obtain ⟨v', u⟩ := q
        have hv' : v'.all isWhitespace = true := hw (v', u) (by simp)
        obtain ⟨c, s, h1, h2, h3⟩ := tokText_digit u (hc (v', u) (by simp))
        have hh : (layOut ((v', u) :: l) ++ w).head?.any isWhitespace = !v'.isEmpty := by
          cases v' with
          | nil => simp [layOut, h1, h2]
          | cons x v' =>
            simp only [List.all_cons, Bool.and_eq_true] at hv'
            simp [layOut, hv'.1]
        rw [hh, layOut, List.append_assoc, List.append_assoc, dropWhile_white v' hv', dropWhile_tok u (hc (v', u) (by simp)), h1]
        simp only [List.cons_append, List.head?_cons, Option.any_some, h3]
        cases u <;> cases v <;> cases v' <;> simp [joined, isLit, symDot]
    · rw [torn_tok t ht (hd (v, t) (by simp)) hp, ih]
      cases l with
      | nil => simp [joined]
      | cons q l =>
        obtain ⟨v', u⟩ := q
        cases t with
        | sym s =>
          have : (s != c!".") = true := by simpa [symDot] using hp
          cases u <;> simp [joined, this]
        | _ => simp [joined]

/-! ## The rendered text as a layout -/

/-- The white space of `render`. -/
def renderSpace : List Tok → List (Str × Tok)
  | [] => []
  | t :: r => ([], t) :: go t r
where
  go : Tok → List Tok → List (Str × Tok)
  | _, [] => []
  | t, u :: r => (if isOpening t || isClosing u then [] else [' '], u) :: go u r

theorem renderSpace_go (t : Tok) (r : List Tok) : (renderSpace.go t r).map (·.2) = r ∧ tokText t ++ layOut (renderSpace.go t r) = render (t :: r) ∧
    (∀ p ∈ renderSpace.go t r, p.1.all isWhitespace = true) ∧ (∀ w, spaced ((w, t) :: renderSpace.go t r) = true) ∧
    ∀ w, joined ((w, t) :: renderSpace.go t r) = !pointLit (t :: r) := by
  induction r generalizing t with
  | nil => exact ⟨rfl, by simp [renderSpace.go, layOut, render], by simp [renderSpace.go], fun w => rfl, fun w => by simp [renderSpace.go, joined, pointLit]⟩
  | cons u r ih =>
    obtain ⟨h1, h2, h3, h4, h5⟩ := ih u
    refine ⟨by simp [renderSpace.go, h1], ?_, ?_, fun w => ?_, fun w => ?_⟩
    · simp only [renderSpace.go, layOut, render, ← h2]
      split <;> simp
    · intro p hp
      simp only [renderSpace.go, List.mem_cons] at hp
      rcases hp with rfl | hp
      · dsimp only; split <;> rfl
      · exact h3 p hp
    · simp only [renderSpace.go, spaced, h4, Bool.and_true]
      by_cases hb : (isOpening t || isClosing u) = true
      · rw [if_pos hb]
        simp only [isOpening, isClosing, Bool.or_eq_true, beq_iff_eq] at hb
        rcases hb with (rfl | rfl) | rfl | rfl
        · cases u <;> rfl
        · cases u <;> rfl
        · cases t <;> simp [mayTouch, alone]
        · cases t <;> simp [mayTouch, alone]
      · rw [if_neg hb]; rfl
    · rw [pointLit_cons]
      simp only [renderSpace.go]
      generalize hx : (if (isOpening t || isClosing u) = true then ([] : Str) else [' ']) = x
      have h5 := h5 x
      cases u with
      | lit n s =>
        cases t with
        | sym y =>
          by_cases hy : y = c!"."
          · subst hy
            rw [if_neg (by simp [isOpening, isClosing])] at hx
            subst hx
            simp [joined, isLit, symDot]
          · have e : (y != c!".") = true := by simpa using hy
            have e' : (Tok.sym y == symDot) = false := by simpa [symDot] using hy
            simp only [joined, e, e', Bool.true_or, Bool.true_and, Bool.false_and, Bool.false_or, h5]
        | _ => simp [joined, h5, symDot]
      | _ => simp [joined, h5, isLit]

theorem render_layout (ts : List Tok) : ∃ l, l.map (·.2) = ts ∧ Layout.Of l (render ts) ∧ joined l = !pointLit ts := by
  cases ts with
  | nil => exact ⟨[], rfl, ⟨by simp, rfl, [], rfl, rfl⟩, rfl⟩
  | cons t r =>
    obtain ⟨h1, h2, h3, h4, h5⟩ := renderSpace_go t r
    refine ⟨([], t) :: renderSpace.go t r, by simp [h1], ⟨?_, h4 _, [], rfl, by simp [layOut, h2]⟩, h5 _⟩
    intro p hp
    rcases List.mem_cons.1 hp with rfl | hp
    · rfl
    · exact h3 p hp

/-- White space everywhere but before points and between a point and a literal. -/
def joinSpace : Tok → List Tok → List (Str × Tok)
  | _, [] => []
  | t, u :: r => (if u == symDot || t == symDot && isLit u then [] else [' '], u) :: joinSpace u r

theorem joinSpace_spec (t : Tok) (r : List Tok) (hp : pointed (t :: r) = true) : (joinSpace t r).map (·.2) = r ∧
    (∀ p ∈ joinSpace t r, p.1.all isWhitespace = true) ∧ (∀ w, spaced ((w, t) :: joinSpace t r) = true) ∧
    ∀ w, (t = symDot → w = []) → joined ((w, t) :: joinSpace t r) = true := by
  induction r generalizing t with
  | nil => exact ⟨rfl, by simp [joinSpace], fun w => rfl, fun w _ => by simp [joinSpace, joined]⟩
  | cons u r ih =>
    simp only [pointed, Bool.and_eq_true, Bool.or_eq_true, bne_iff_ne, ne_eq] at hp
    obtain ⟨h1, h2, h3, h4⟩ := ih u hp.2
    refine ⟨by simp [joinSpace, h1], ?_, fun w => ?_, fun w hw => ?_⟩
    · intro p hp
      simp only [joinSpace, List.mem_cons] at hp
      rcases hp with rfl | hp
      · dsimp only; split <;> rfl
      · exact h2 p hp
    · simp only [joinSpace, spaced, h3, Bool.and_true]
      by_cases hb : (u == symDot || t == symDot && isLit u) = true
      · rw [if_pos hb]
        simp only [Bool.or_eq_true, Bool.and_eq_true, beq_iff_eq] at hb
        rcases hb with rfl | ⟨rfl, hu⟩
        · rcases hp.1 with h | h
          · exact absurd rfl h
          · simp [h]
        · cases u <;> simp [isLit] at hu
          rfl
      · rw [if_neg hb]; rfl
    · simp only [joinSpace]
      generalize hx : (if (u == symDot || t == symDot && isLit u) = true then ([] : Str) else [' ']) = x
      have h4 := h4 x (by rintro rfl; rw [← hx]; simp)
      cases u with
      | lit n s =>
        cases t with
        | sym y =>
          by_cases hy : y = c!"."
          · subst hy
            rw [if_pos (by simp [isLit, symDot])] at hx
            subst hx
            rw [hw rfl]
            simp [joined, h4]
          · have e : (y != c!".") = true := by simpa using hy
            simp only [joined, e, Bool.true_or, Bool.true_and, h4]
        | _ => simp [joined, h4]
      | _ => simp [joined, h4]

/-- Tokens whose points touch have a layout without torn numbers. -/
theorem joined_layout (ts : List Tok) (hp : pointed ts = true) : ∃ l text, l.map (·.2) = ts ∧ Layout.Of l text ∧ joined l = true := by
  cases ts with
  | nil => exact ⟨[], [], rfl, ⟨by simp, rfl, [], rfl, rfl⟩, rfl⟩
  | cons t r =>
    obtain ⟨h1, h2, h3, h4⟩ := joinSpace_spec t r hp
    refine ⟨([], t) :: joinSpace t r, _, by simp [h1], ⟨?_, h3 _, [], rfl, rfl⟩, h4 _ fun _ => rfl⟩
    intro p hp
    rcases List.mem_cons.1 hp with rfl | hp
    · rfl
    · exact h2 p hp

end Verif.Lemmas
