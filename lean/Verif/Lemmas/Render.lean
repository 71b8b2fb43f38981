import Verif.Generate
import Verif.Lemmas.Maps
import Verif.Lemmas.Precedence
import Verif.Lemmas.FloatText
import Verif.Lemmas.Print
import Verif.FileRead
import Verif.Resource

/-! # Lemmas: the text of generated tokens lexes as these tokens -/

namespace Verif.Lemmas
open Verif Rust GenPr GenRs Generate

/-- The symbols of generated code. -/
def symbols : List Str := [c!"||", c!"&&", c!"%", c!"!", c!"&", c!".", c!"..=", c!"(", c!")", c!"{", c!"}", c!"::", c!"==", c!"!=",
  c!"<=", c!">", c!",", c!"|", c!"#", c!"[", c!"]", c!"=", c!":", c!";", c!"->", c!"=>", c!"$"]

/-- A word: letters, digits and underscores, not starting with a digit. -/
def word (s : Str) : Bool := s.all isIdent && !(s.head?.any isDigit)

/-- Printable ASCII. -/
def printable (c : Char) : Bool := 0x20 ≤ c.toNat && c.toNat ≤ 0x7E

/-- Tokens that can be told from their text, which is printable ASCII. -/
def clean : Tok → Bool
  | .id s => word s && !s.isEmpty
  | .lit _ suf => word suf
  | .str s => !s.contains '"' && s.all printable
  | .sym s => symbols.contains s

theorem isDigit_isIdent (c : Char) (h : isDigit c = true) : isIdent c = true := by simp [isIdent, h]

theorem takeWhile_dropWhile (p : Char → Bool) (d r : Str) (hd : d.all p = true) (hr : ∀ c t, r = c :: t → p c = false) :
    (d ++ r).takeWhile p = d ∧ (d ++ r).dropWhile p = r := by
  induction d with
  | nil =>
    cases r with
    | nil => exact ⟨rfl, rfl⟩
    | cons c t => have := hr c t rfl; simp [this]
  | cons c d ih =>
    simp only [List.all_cons, Bool.and_eq_true] at hd
    have := ih hd.2
    simp [hd.1, this]

/-- What can follow a token in rendered text. -/
def Follow (t : Tok) (s : Str) : Prop :=
  s = [] ∨ (∃ r, s = ' ' :: r) ∨ (∃ r, s = ')' :: r) ∨ (∃ r, s = ']' :: r) ∨ isOpening t = true

theorem follow_ident {t : Tok} {s : Str} (h : Follow t s) (ho : isOpening t = false) : ∀ c r, s = c :: r → isIdent c = false := by
  intro c r hs
  rcases h with h | ⟨_, h⟩ | ⟨_, h⟩ | ⟨_, h⟩ | h
  · rw [h] at hs; cases hs
  · rw [h] at hs; cases hs; rfl
  · rw [h] at hs; cases hs; rfl
  · rw [h] at hs; cases hs; rfl
  · rw [ho] at h; cases h

theorem lexOne_id (s r : Str) (hs : clean (.id s) = true) (hr : ∀ c t, r = c :: t → isIdent c = false) :
    lexOne (s ++ r) = some (.id s, r) := by
  simp only [clean, word, Bool.and_eq_true, Bool.not_eq_true'] at hs
  obtain ⟨⟨h1, h2⟩, h3⟩ := hs
  obtain ⟨e1, e2⟩ := takeWhile_dropWhile isIdent s r h1 hr
  cases s with
  | nil => simp at h3
  | cons c s =>
    have hd : isDigit c = false := by simpa using h2
    have hi : isIdent c = true := by simp only [List.all_cons, Bool.and_eq_true] at h1; exact h1.1
    rw [List.cons_append] at e1 e2 ⊢
    simp only [lexOne, hd, hi, Bool.false_eq_true, if_false, if_true, e1, e2]

theorem showNat_digits (n : Nat) : (showNat n).all isDigit = true ∧ (showNat n) ≠ [] ∧ digitsVal (showNat n) = n := by
  rw [FloatText.showNat_eq]
  exact ⟨Strings.digitText_all _, by rw [ne_eq, Strings.digitText_eq_nil]; exact Grammar.natDigits_ne n,
    by rw [Strings.digitsVal_digitText, Grammar.digitsNum_natDigits]⟩

theorem lexOne_lit (n : Nat) (suf r : Str) (hs : word suf = true) (hr : ∀ c t, r = c :: t → isIdent c = false) :
    lexOne (showNat n ++ suf ++ r) = some (.lit n suf, r) := by
  obtain ⟨d1, d2, d3⟩ := showNat_digits n
  simp only [word, Bool.and_eq_true, Bool.not_eq_true'] at hs
  have hall : (showNat n ++ suf).all isIdent = true := by
    rw [List.all_append, Bool.and_eq_true]
    exact ⟨List.all_eq_true.2 fun c hc => isDigit_isIdent c (List.all_eq_true.1 d1 c hc), hs.1⟩
  obtain ⟨e1, e2⟩ := takeWhile_dropWhile isIdent _ r hall hr
  obtain ⟨e3, e4⟩ := takeWhile_dropWhile isDigit (showNat n) suf d1 (by
    intro c t h; have := hs.2; rw [h] at this; simpa using this)
  cases hn : showNat n with
  | nil => exact absurd hn d2
  | cons c t =>
    have hc : isDigit c = true := by rw [hn] at d1; simp only [List.all_cons, Bool.and_eq_true] at d1; exact d1.1
    rw [hn] at e1 e2 e3 e4 d3
    simp only [List.cons_append] at e1 e2 e3 e4 ⊢
    simp only [lexOne, hc, if_true, e1, e2, e3, e4, d3]

theorem lexOne_str (s r : Str) (hs : clean (.str s) = true) : lexOne ('"' :: s ++ ['"'] ++ r) = some (.str s, r) := by
  have h : s.all (fun x => decide (x ≠ '"')) = true := by
    rw [List.all_eq_true]
    intro c hc
    simp only [clean, Bool.and_eq_true, Bool.not_eq_true', List.contains_eq_mem, decide_eq_false_iff_not] at hs
    simp only [ne_eq, decide_not, Bool.not_eq_true', decide_eq_false_iff_not]
    rintro rfl; exact hs.1 hc
  obtain ⟨e1, e2⟩ := takeWhile_dropWhile (fun x => decide (x ≠ '"')) s ('"' :: r) h (by
    intro c t h; cases h; rfl)
  have hd : isDigit '"' = false := rfl
  have hi : isIdent '"' = false := rfl
  simp only [List.cons_append, List.append_assoc, List.nil_append]
  simp only [lexOne, hd, hi, Bool.false_eq_true, if_false, if_true, e1, e2]
  rfl

theorem lexOne_sym (s r : Str) (hs : clean (.sym s) = true) (hr : Follow (.sym s) r) : lexOne (s ++ r) = some (.sym s, r) := by
  simp only [clean, symbols, List.contains_eq_mem, List.mem_cons, List.not_mem_nil, or_false, decide_eq_true_eq] at hs
  have key : ∀ r, r = [] ∨ (∃ q, r = ' ' :: q) ∨ (∃ q, r = ')' :: q) ∨ (∃ q, r = ']' :: q) →
      lexOne (s ++ r) = some (.sym s, r) := by
    intro r hr
    rcases hr with rfl | ⟨q, rfl⟩ | ⟨q, rfl⟩ | ⟨q, rfl⟩ <;>
    · rcases hs with rfl | rfl | rfl | rfl | rfl | rfl | rfl | rfl | rfl | rfl | rfl | rfl | rfl | rfl | rfl | rfl | rfl | rfl |
        rfl | rfl | rfl | rfl | rfl | rfl | rfl | rfl | rfl <;> rfl
  rcases hr with h | h | h | h | h
  · exact key r (.inl h)
  · exact key r (.inr (.inl h))
  · exact key r (.inr (.inr (.inl h)))
  · exact key r (.inr (.inr (.inr h)))
  · simp only [isOpening, Bool.or_eq_true, beq_iff_eq, Tok.sym.injEq] at h
    rcases h with rfl | rfl <;> rfl

theorem lexOne_tok (t : Tok) (r : Str) (ht : clean t = true) (hr : Follow t r) : lexOne (tokText t ++ r) = some (t, r) := by
  cases t with
  | id s => exact lexOne_id s r ht (follow_ident hr rfl)
  | lit n suf => exact lexOne_lit n suf r ht (follow_ident hr rfl)
  | str s => exact lexOne_str s r ht
  | sym s => exact lexOne_sym s r ht hr

theorem ident_not_white (c : Char) (h : isIdent c = true) : isWhitespace c = false := by
  simp only [isIdent, isDigit, Bool.or_eq_true, Bool.and_eq_true, decide_eq_true_eq, beq_iff_eq] at h
  have h1 : 'a'.toNat = 97 := rfl
  have h2 : 'z'.toNat = 122 := rfl
  have h3 : 'A'.toNat = 65 := rfl
  have h4 : 'Z'.toNat = 90 := rfl
  have h5 : '0'.toNat = 48 := rfl
  have h6 : '9'.toNat = 57 := rfl
  have h7 : c = '_' → c.toNat = 95 := by rintro rfl; rfl
  simp only [isWhitespace, Bool.or_eq_false_iff, Bool.and_eq_false_iff, decide_eq_false_iff_not, beq_eq_false_iff_ne]
  rcases h with ((h | h) | h) | h
  · omega
  · omega
  · omega
  · have := h7 h; omega

/-- The text of a token starts with a character that is not white space. -/
theorem tokText_head (t : Tok) (ht : clean t = true) : ∃ c r, tokText t = c :: r ∧ isWhitespace c = false := by
  cases t with
  | id s =>
    simp only [clean, word, Bool.and_eq_true, Bool.not_eq_true'] at ht
    cases s with
    | nil => simp at ht
    | cons c s =>
      refine ⟨c, s, rfl, ident_not_white c ?_⟩
      have := ht.1.1; simp only [List.all_cons, Bool.and_eq_true] at this; exact this.1
  | lit n suf =>
    obtain ⟨d1, d2, _⟩ := showNat_digits n
    cases hn : showNat n with
    | nil => exact absurd hn d2
    | cons c r =>
      refine ⟨c, r ++ suf, by simp [tokText, hn], ident_not_white c (isDigit_isIdent c ?_)⟩
      rw [hn] at d1; simp only [List.all_cons, Bool.and_eq_true] at d1; exact d1.1
  | str s => exact ⟨'"', s ++ ['"'], rfl, rfl⟩
  | sym s =>
    simp only [clean, symbols, List.contains_eq_mem, List.mem_cons, List.not_mem_nil, or_false, decide_eq_true_eq] at ht
    rcases ht with rfl | rfl | rfl | rfl | rfl | rfl | rfl | rfl | rfl | rfl | rfl | rfl | rfl | rfl | rfl | rfl | rfl | rfl |
      rfl | rfl | rfl | rfl | rfl | rfl | rfl | rfl | rfl <;> exact ⟨_, _, rfl, rfl⟩

theorem closing_head (u : Tok) (r : List Tok) (h : isClosing u = true) :
    ∃ s, render (u :: r) = ')' :: s ∨ render (u :: r) = ']' :: s := by
  simp only [isClosing, Bool.or_eq_true, beq_iff_eq] at h
  rcases h with rfl | rfl
  · cases r with
    | nil => exact ⟨[], .inl rfl⟩
    | cons v r => simp only [render]; split <;> exact ⟨_, .inl rfl⟩
  · cases r with
    | nil => exact ⟨[], .inr rfl⟩
    | cons v r => simp only [render]; split <;> exact ⟨_, .inr rfl⟩

theorem render_head (ts : List Tok) (ht : ∀ t ∈ ts, clean t = true) (h : ts ≠ []) :
    ∃ c r, render ts = c :: r ∧ isWhitespace c = false := by
  match ts, h with
  | [t], _ => exact tokText_head t (ht t (by simp))
  | t :: u :: r, _ =>
    obtain ⟨c, s, h1, h2⟩ := tokText_head t (ht t (by simp))
    simp only [render]
    split
    · exact ⟨c, _, by rw [h1]; rfl, h2⟩
    · exact ⟨c, _, by rw [h1]; rfl, h2⟩

theorem dropWhite (ts : List Tok) (ht : ∀ t ∈ ts, clean t = true) (w : Str) (hw : w = [] ∨ w = [' ']) :
    (w ++ render ts).dropWhile isWhitespace = render ts := by
  have h0 : (render ts).dropWhile isWhitespace = render ts := by
    cases ts with
    | nil => rfl
    | cons t r =>
      obtain ⟨c, s, h1, h2⟩ := render_head (t :: r) ht (by simp)
      rw [h1, List.dropWhile_cons_of_neg (by simp [h2])]
  rcases hw with rfl | rfl
  · exact h0
  · rw [List.cons_append, List.dropWhile_cons_of_pos rfl]; exact h0

theorem lexGo_render (ts : List Tok) (ht : ∀ t ∈ ts, clean t = true) (k : Str) (hk : ts.length ≤ k.length) (w : Str)
    (hw : w = [] ∨ w = [' ']) (acc : List Tok) : lexGo k (w ++ render ts) acc = acc.reverse ++ ts := by
  induction ts generalizing k w acc with
  | nil =>
    cases k with
    | nil => simp [lexGo]
    | cons _ k =>
      rw [lexGo, dropWhite [] ht w hw]
      simp [render, lexOne]
  | cons t ts ih =>
    cases k with
    | nil => simp at hk
    | cons _ k =>
      rw [lexGo, dropWhite (t :: ts) ht w hw]
      have hts : ∀ x ∈ ts, clean x = true := fun x hx => ht x (by simp [hx])
      have hk' : ts.length ≤ k.length := by simpa using hk
      cases ts with
      | nil =>
        have := lexOne_tok t [] (ht t (by simp)) (.inl rfl)
        rw [List.append_nil] at this
        simp only [render, this]
        have := ih hts k hk' [] (.inl rfl) (t :: acc)
        simpa [render] using this
      | cons u r =>
        by_cases hb : (isOpening t || isClosing u) = true
        · rw [render, if_pos hb]
          have hf : Follow t (render (u :: r)) := by
            simp only [Bool.or_eq_true] at hb
            rcases hb with hb | hb
            · exact .inr (.inr (.inr (.inr hb)))
            · obtain ⟨s, h | h⟩ := closing_head u r hb
              · exact .inr (.inr (.inl ⟨s, h⟩))
              · exact .inr (.inr (.inr (.inl ⟨s, h⟩)))
          rw [lexOne_tok t _ (ht t (by simp)) hf]
          have := ih hts k hk' [] (.inl rfl) (t :: acc)
          simp only [List.nil_append] at this
          simp only [this]; simp
        · rw [render, if_neg hb, lexOne_tok t _ (ht t (by simp)) (.inr (.inl ⟨_, rfl⟩))]
          have := ih hts k hk' [' '] (.inr rfl) (t :: acc)
          simp only [List.cons_append, List.nil_append] at this
          simp only [this]; simp

theorem render_length (ts : List Tok) (ht : ∀ t ∈ ts, clean t = true) : ts.length ≤ (render ts).length := by
  induction ts with
  | nil => simp
  | cons t ts ih =>
    have h1 := ih fun x hx => ht x (by simp [hx])
    obtain ⟨c, s, h2, _⟩ := tokText_head t (ht t (by simp))
    cases ts with
    | nil => simp [render, h2]
    | cons u r =>
      simp only [render]
      split
      · rw [h2]; simp at h1 ⊢; omega
      · rw [h2]; simp at h1 ⊢; omega

theorem lex_render (ts : List Tok) (ht : ∀ t ∈ ts, clean t = true) : lex (render ts) = ts := by
  have := lexGo_render ts ht (render ts) (render_length ts ht) [] (.inl rfl) []
  simpa [lex] using this

/-! ## Generated tokens -/

/-- All tokens of the list can be told from their text. -/
def CleanAll (ts : List Tok) : Prop := ts.all clean = true

theorem cleanAll_append (a b : List Tok) : CleanAll (a ++ b) ↔ CleanAll a ∧ CleanAll b := by
  simp [CleanAll, List.all_append]

theorem cleanAll_cons (t : Tok) (b : List Tok) : CleanAll (t :: b) ↔ clean t = true ∧ CleanAll b := by
  simp [CleanAll, List.all_cons]

theorem cleanAll_nil : CleanAll [] := rfl

theorem cleanAll_sepBy (sep : Tok) (hs : clean sep = true) (l : List (List Tok)) (h : ∀ x ∈ l, CleanAll x) : CleanAll (sepBy sep l) := by
  match l, h with
  | [], _ => exact cleanAll_nil
  | [x], h => exact h x (by simp)
  | x :: y :: r, h =>
    rw [sepBy, cleanAll_append, cleanAll_cons]
    exact ⟨h x (by simp), hs, cleanAll_sepBy sep hs (y :: r) fun z hz => h z (by simp [List.mem_cons] at hz ⊢; tauto)⟩

/-- Tokens with brackets that match: taking a group passes over them. -/
def Bal (ts : List Tok) : Prop := ∀ d acc rest, 1 ≤ d →
  FileRead.takeGroup d (ts ++ rest) acc = FileRead.takeGroup d rest (ts.reverse ++ acc)

theorem bal_nil : Bal [] := fun _ _ _ _ => rfl

theorem bal_append {a b : List Tok} (ha : Bal a) (hb : Bal b) : Bal (a ++ b) := by
  intro d acc rest hd
  rw [List.append_assoc, ha d acc _ hd, hb d _ rest hd]
  simp

/-- Neither an opening nor a closing bracket. -/
def plain (t : Tok) : Bool := !FileRead.isOpen t && !FileRead.isClose t

theorem bal_cons {t : Tok} {b : List Tok} (ht : plain t = true) (hb : Bal b) : Bal (t :: b) := by
  simp only [plain, Bool.and_eq_true, Bool.not_eq_true'] at ht
  intro d acc rest hd
  rw [List.cons_append, FileRead.takeGroup, ht.1, ht.2]
  simp only [Bool.false_eq_true, if_false]
  rw [hb d _ rest hd]
  simp

theorem isOpen_not_close (t : Tok) (h : FileRead.isOpen t = true) : FileRead.isClose t = false := by
  simp only [FileRead.isOpen, Bool.or_eq_true, beq_iff_eq] at h
  rcases h with (rfl | rfl) | rfl <;> rfl

theorem isClose_not_open (t : Tok) (h : FileRead.isClose t = true) : FileRead.isOpen t = false := by
  simp only [FileRead.isClose, Bool.or_eq_true, beq_iff_eq] at h
  rcases h with (rfl | rfl) | rfl <;> rfl

theorem bal_wrap {o c : Tok} {b : List Tok} (ho : FileRead.isOpen o = true) (hc : FileRead.isClose c = true) (hb : Bal b) :
    Bal (o :: (b ++ [c])) := by
  intro d acc rest hd
  rw [List.cons_append, FileRead.takeGroup, if_pos ho, List.append_assoc, hb (d + 1) _ _ (by omega), List.cons_append,
    FileRead.takeGroup, isClose_not_open c hc, hc]
  simp only [Bool.false_eq_true, if_false, if_true, List.nil_append]
  rw [if_neg (by omega)]
  simp

/-- A group in brackets. -/
theorem takeGroup_wrap {o c : Tok} {b : List Tok} (ho : FileRead.isOpen o = true) (hc : FileRead.isClose c = true) (hb : Bal b)
    (rest : List Tok) : FileRead.takeGroup 0 (o :: (b ++ [c]) ++ rest) [] = some (o :: (b ++ [c]), rest) := by
  rw [List.cons_append, FileRead.takeGroup, if_pos ho, List.append_assoc, hb (0 + 1) _ _ (by omega), List.cons_append,
    FileRead.takeGroup, isClose_not_open c hc, hc]
  simp

theorem bal_plain (ts : List Tok) (h : ts.all plain = true) : Bal ts := by
  induction ts with
  | nil => exact bal_nil
  | cons t ts ih =>
    simp only [List.all_cons, Bool.and_eq_true] at h
    exact bal_cons h.1 (ih h.2)

theorem bal_sepBy (sep : Tok) (hs : plain sep = true) (l : List (List Tok)) (h : ∀ x ∈ l, Bal x) : Bal (sepBy sep l) := by
  match l, h with
  | [], _ => exact bal_nil
  | [x], h => exact h x (by simp)
  | x :: y :: r, h =>
    rw [sepBy]
    exact bal_append (h x (by simp)) (bal_cons hs (bal_sepBy sep hs (y :: r) fun z hz => h z (by simp [List.mem_cons] at hz ⊢; tauto)))

/-- Both. -/
def Good (ts : List Tok) : Prop := CleanAll ts ∧ Bal ts

theorem good_nil : Good [] := ⟨cleanAll_nil, bal_nil⟩
theorem good_append {a b : List Tok} (ha : Good a) (hb : Good b) : Good (a ++ b) :=
  ⟨(cleanAll_append a b).2 ⟨ha.1, hb.1⟩, bal_append ha.2 hb.2⟩
theorem good_cons {t : Tok} {b : List Tok} (h1 : clean t = true) (h2 : plain t = true) (hb : Good b) : Good (t :: b) :=
  ⟨(cleanAll_cons t b).2 ⟨h1, hb.1⟩, bal_cons h2 hb.2⟩
theorem good_paren {b : List Tok} (hb : Good b) : Good (symOpen :: (b ++ [symClose])) :=
  ⟨(cleanAll_cons _ _).2 ⟨rfl, (cleanAll_append _ _).2 ⟨hb.1, rfl⟩⟩, bal_wrap rfl rfl hb.2⟩
theorem good_brace {b : List Tok} (hb : Good b) : Good (symLBrace :: (b ++ [symRBrace])) :=
  ⟨(cleanAll_cons _ _).2 ⟨rfl, (cleanAll_append _ _).2 ⟨hb.1, rfl⟩⟩, bal_wrap rfl rfl hb.2⟩
theorem good_sepBy {sep : Tok} (h1 : clean sep = true) (h2 : plain sep = true) {l : List (List Tok)} (h : ∀ x ∈ l, Good x) :
    Good (sepBy sep l) :=
  ⟨cleanAll_sepBy sep h1 l fun x hx => (h x hx).1, bal_sepBy sep h2 l fun x hx => (h x hx).2⟩
theorem good_plain (ts : List Tok) (h1 : ts.all clean = true) (h2 : ts.all plain = true) : Good ts := ⟨h1, bal_plain ts h2⟩

theorem clean_lit (n : Nat) (s : Str) (h : word s = true) : clean (.lit n s) = true := h
theorem plain_lit (n : Nat) (s : Str) : plain (.lit n s) = true := rfl

theorem good_lit (n : Nat) : Good [Tok.lit n []] := good_plain _ rfl rfl

theorem good_qField (o : Operand) : Good (qField o) := by cases o <;> exact good_plain _ rfl rfl
theorem good_qFieldMod (o : Operand) (m : Nat) : Good (qFieldMod o (convertLiteral m)) :=
  good_append (good_qField o) (good_plain _ rfl rfl)
theorem good_qFloat (n : Nat) : Good (qFloat (convertLiteral n)) := good_plain _ rfl rfl
theorem good_operator (o : Operator) : clean (getOperatorSymbol o) = true ∧ plain (getOperatorSymbol o) = true := by
  cases o <;> exact ⟨rfl, rfl⟩

/-- The literals of a range list. -/
theorem convertRangl_lits (l : List RangeListItem) :
    (∀ t ∈ (convertRangl l).1, ∃ n, t = convertLiteral n) ∧
    (∀ p ∈ (convertRangl l).2, ∃ a b, p = (convertLiteral a, convertLiteral b)) := by
  induction l with
  | nil => exact ⟨by simp [convertRangl], by simp [convertRangl]⟩
  | cons x l ih =>
    cases x with
    | value x =>
      refine ⟨fun t ht => ?_, ih.2⟩
      simp only [convertRangl, List.mem_cons] at ht
      rcases ht with rfl | ht
      · exact ⟨x, rfl⟩
      · exact ih.1 t ht
    | range a b =>
      refine ⟨ih.1, fun t ht => ?_⟩
      simp only [convertRangl, List.mem_cons] at ht
      rcases ht with rfl | ht
      · exact ⟨a, b, rfl⟩
      · exact ih.2 t ht

theorem good_valueTokens (e : Expression) (o : Operator) (n : Nat) : Good (valueTokens e o (convertLiteral n)) := by
  have ho := good_operator o
  obtain ⟨x, m⟩ := e
  unfold valueTokens
  cases m <;> by_cases hx : x = .N <;> simp only [hx, if_true, if_false]
  · exact good_append (good_qField _) (good_cons ho.1 ho.2 (good_qFloat n))
  · exact good_append (good_qField _) (good_cons ho.1 ho.2 (good_lit n))
  · exact good_append (good_qFieldMod _ _) (good_cons ho.1 ho.2 (good_lit n))
  · exact good_append (good_qFieldMod _ _) (good_cons ho.1 ho.2 (good_lit n))

theorem good_qContains (a b : Nat) (s : List Tok) (h : Good s) : Good (qContains (convertLiteral a) (convertLiteral b) s) := by
  have e : qContains (convertLiteral a) (convertLiteral b) s =
      (symOpen :: ([convertLiteral a, symRange, convertLiteral b] ++ [symClose])) ++ ([symDot, .id c!"contains"] ++
        (symOpen :: ((symAmp :: (symOpen :: (s ++ [symClose]))) ++ [symClose]))) := by simp [qContains]
  rw [e]
  exact good_append (good_paren (good_plain _ rfl rfl)) (good_append (good_plain _ rfl rfl)
    (good_paren (good_cons rfl rfl (good_paren h))))

theorem good_qPerim : Good qPerim := good_plain _ rfl rfl

theorem good_rangeTokens (e : Expression) (o : Operator) (a b : Nat) :
    Good (rangeTokens e o (convertLiteral a, convertLiteral b)) := by
  have key : ∀ s p, Good s → Good p → Good (if isPositive o then qContains (convertLiteral a) (convertLiteral b) s ++ p
      else symNot :: qContains (convertLiteral a) (convertLiteral b) s ++ p) := by
    intro s p hs hp
    split
    · exact good_append (good_qContains a b s hs) hp
    · exact good_append (good_cons rfl rfl (good_qContains a b s hs)) hp
  obtain ⟨x, m⟩ := e
  unfold rangeTokens
  cases m <;> by_cases hx : x = .N <;> simp only [hx, if_true, if_false]
  · exact key _ _ (good_qField _) good_qPerim
  · exact key _ _ (good_qField _) good_nil
  · exact key _ _ (good_qField _) good_nil
  · exact key _ _ (good_qFieldMod _ _) good_nil

theorem good_withinTokens (e : Expression) (o : Operator) (l : List (Tok × Tok))
    (hl : ∀ p ∈ l, ∃ a b, p = (convertLiteral a, convertLiteral b)) (ts : List Tok) (h : withinTokens e o l = some ts) : Good ts := by
  have ho := good_operator o
  obtain ⟨x, m⟩ := e
  cases l with
  | nil => simp [withinTokens] at h
  | cons p l =>
    obtain ⟨a, b, rfl⟩ := hl p (by simp)
    have key : ∀ f g s, Good f → Good g → Good s →
        Good (f ++ getOperatorSymbol o :: s ++ symAnd :: s ++ getOperatorSymbol o :: g) := by
      intro f g s hf hg hs
      exact good_append (good_append (good_append hf (good_cons ho.1 ho.2 hs)) (good_cons rfl rfl hs)) (good_cons ho.1 ho.2 hg)
    unfold withinTokens at h
    cases m <;> by_cases hx : x = .N <;> simp only [hx, if_true, if_false, Option.some.injEq] at h <;> subst h
    · exact key _ _ _ (good_qFloat a) (good_qFloat b) (good_qField _)
    · exact key _ _ _ (good_lit a) (good_lit b) (good_qField _)
    · exact key _ _ _ (good_lit a) (good_lit b) (good_qFieldMod _ _)
    · exact key _ _ _ (good_lit a) (good_lit b) (good_qFieldMod _ _)

theorem good_createRelation (r : Relation) (ts : List Tok) (h : createRelation r = some ts) : Good ts := by
  obtain ⟨h1, h2⟩ := convertRangl_lits r.rangeList
  unfold createRelation at h
  simp only at h
  split at h
  · cases hw : withinTokens r.expression r.operator (convertRangl r.rangeList).2 with
    | none => simp [hw] at h
    | some t =>
      simp only [hw, Option.map_some, Option.some.injEq, sepBy] at h
      subst h
      exact good_withinTokens _ _ _ h2 _ hw
  · have hall : ∀ x ∈ (convertRangl r.rangeList).1.map (valueTokens r.expression r.operator) ++
        (convertRangl r.rangeList).2.map (rangeTokens r.expression r.operator), Good x := by
      intro x hx
      rcases List.mem_append.1 hx with hx | hx
      · obtain ⟨t, ht, rfl⟩ := List.mem_map.1 hx
        obtain ⟨n, rfl⟩ := h1 t ht
        exact good_valueTokens _ _ n
      · obtain ⟨p, hp, rfl⟩ := List.mem_map.1 hx
        obtain ⟨a, b, rfl⟩ := h2 p hp
        exact good_rangeTokens _ _ a b
    split at h
    · split at h
      · cases h; exact good_paren (good_sepBy rfl rfl hall)
      · cases h; exact good_sepBy rfl rfl hall
    · cases h; exact good_sepBy rfl rfl hall

theorem mapPanic_all {f : α → Option β} {P : β → Prop} (hf : ∀ a b, f a = some b → P b) {l : List α} {m : List β}
    (h : mapPanic f l = some m) : ∀ b ∈ m, P b := by
  induction l generalizing m with
  | nil => simp only [mapPanic, Option.some.injEq] at h; subst h; simp
  | cons a l ih =>
    simp only [mapPanic] at h
    cases ha : f a with
    | none => simp [ha] at h
    | some b =>
      cases hm : mapPanic f l with
      | none => simp [ha, hm] at h
      | some bs =>
        simp only [ha, hm, Option.some.injEq] at h
        subst h
        intro x hx
        rcases List.mem_cons.1 hx with rfl | hx
        · exact hf a x ha
        · exact ih hm x hx

theorem good_genPr (c : Condition) (ts : List Tok) (h : genPr c = some ts) : Good ts := by
  unfold genPr createCondition at h
  cases hm : mapPanic createAndCondition c with
  | none => simp [hm] at h
  | some l =>
    simp only [hm, Option.map_some, Option.some.injEq] at h
    subst h
    refine good_sepBy rfl rfl (mapPanic_all (fun a b hb => ?_) hm)
    unfold createAndCondition at hb
    cases hr : mapPanic createRelation a with
    | none => simp [hr] at hb
    | some v =>
      simp only [hr, Option.map_some, Option.some.injEq] at hb
      subst hb
      exact good_paren (good_sepBy rfl rfl (mapPanic_all good_createRelation hr))

theorem good_qCat (c : PluralCategory) : Good (qCat c) := by
  cases c <;> exact good_brace (b := [_, _, _]) (good_plain _ rfl rfl)

theorem good_createReturn (c : PluralCategory) (e : List Tok) (h : Good e) : Good (createReturn c e) := by
  cases c <;> first | exact good_qCat _ | exact good_append (good_cons rfl rfl h) (good_qCat _)

theorem good_ruleTokens (set : List (PluralCategory × List Tok)) (h : ∀ q ∈ set, Good q.2) : Good (ruleTokens set) := by
  cases set with
  | nil => exact good_qCat _
  | cons p rest =>
    have key : ∀ (rest : List (PluralCategory × List Tok)) acc, (∀ q ∈ rest, Good q.2) → Good acc →
        Good (rest.foldl (fun tokens q => tokens ++ .id c!"else" :: createReturn q.1 q.2) acc) := by
      intro rest
      induction rest with
      | nil => intro acc _ h; exact h
      | cons q rest ih =>
        intro acc hq ha
        exact ih _ (fun x hx => hq x (by simp [hx]))
          (good_append ha (good_cons rfl rfl (good_createReturn _ _ (hq q (by simp)))))
    exact good_append (key rest _ (fun q hq => h q (by simp [hq])) (good_createReturn _ _ (h p (by simp))))
      (good_cons rfl rfl (good_qCat _))

theorem good_genLangid (id : LangId) : Good (genLangid id) := by
  have hraw : ∀ (kind : Str) (n : Nat) (suf : Str), (qPath [c!"subtags", kind, c!"from_raw_unchecked"]).all clean = true →
      word suf = true →
      Good (qPath [c!"subtags", kind, c!"from_raw_unchecked"] ++ [symOpen, .lit n suf, symClose]) := by
    intro kind n suf h1 h2
    refine good_append ⟨h1, bal_plain _ rfl⟩ (good_paren (b := [.lit n suf]) ⟨?_, bal_plain _ rfl⟩)
    simp [CleanAll, clean, h2]
  have hsome : ∀ (kind : Str) (n : Nat), (qPath [c!"subtags", kind, c!"from_raw_unchecked"]).all clean = true →
      Good (.id c!"Some" :: symOpen :: qPath [c!"subtags", kind, c!"from_raw_unchecked"] ++
        [symOpen, .lit n c!"u32", symClose, symClose]) := by
    intro kind n h1
    have := good_cons (t := .id c!"Some") rfl rfl (good_paren (hraw kind n c!"u32" h1 rfl))
    simpa using this
  have hnone : Good [Tok.id c!"None"] := good_plain _ rfl rfl
  obtain ⟨l, s, r, v⟩ := id
  have e : genLangid ⟨l, s, r, v⟩ = [.id c!"langid", symNot] ++ (symOpen ::
      (((match l with
        | some l => qPath [c!"subtags", c!"Language", c!"from_raw_unchecked"] ++ [symOpen, .lit (LangId.rawOf l) c!"u64", symClose]
        | none => [.id c!"None"]) ++ .sym c!"," ::
      ((match s with
        | some s => .id c!"Some" :: symOpen :: qPath [c!"subtags", c!"Script", c!"from_raw_unchecked"] ++
          [symOpen, .lit (LangId.rawOf s) c!"u32", symClose, symClose]
        | none => [.id c!"None"]) ++ .sym c!"," ::
      (match r with
        | some r => .id c!"Some" :: symOpen :: qPath [c!"subtags", c!"Region", c!"from_raw_unchecked"] ++
          [symOpen, .lit (LangId.rawOf r) c!"u32", symClose, symClose]
        | none => [.id c!"None"]))) ++ [symClose])) := by
    cases l <;> cases s <;> cases r <;> simp [genLangid]
  rw [e]
  refine good_append (good_plain _ rfl rfl) (good_paren (good_append ?_ (good_cons rfl rfl (good_append ?_ (good_cons rfl rfl ?_)))))
  · cases l with
    | none => exact hnone
    | some l => exact hraw _ _ _ rfl rfl
  · cases s with
    | none => exact hnone
    | some l => exact hsome _ _ rfl
  · cases r with
    | none => exact hnone
    | some l => exact hsome _ _ rfl

/-- What is between the parentheses of an entry. -/
theorem genMid_wrap (id : LangId) (set : List (PluralCategory × List Tok)) (h : ∀ q ∈ set, Good q.2) :
    ∃ b, genMid id set = symOpen :: (b ++ [symClose]) ∧ Good b := by
  refine ⟨genLangid id ++ ([.sym c!",", .sym c!"|", .id c!"po", .sym c!"|"] ++ (symLBrace :: (ruleTokens set ++ [symRBrace]))),
    by simp [genMid], ?_⟩
  exact good_append (good_genLangid id) (good_append (good_plain _ rfl rfl) (good_brace (good_ruleTokens set h)))

/-- A stream of a table: a group of good tokens in parentheses. -/
def Stream (ts : List Tok) : Prop := ∃ b, ts = symOpen :: (b ++ [symClose]) ∧ Good b

theorem stream_good {ts : List Tok} (h : Stream ts) : Good ts := by
  obtain ⟨b, rfl, h⟩ := h
  exact good_paren h

theorem genLocaleRules_good (r : List (Str × Str)) (set : List (PluralCategory × List Tok)) (h : genLocaleRules r = some set) :
    ∀ q ∈ set, Good q.2 := by
  unfold genLocaleRules at h
  cases hm : mapPanic genRule r with
  | none => simp [hm] at h
  | some l =>
    simp only [hm, Option.map_some, Option.some.injEq] at h
    subst h
    have := mapPanic_all (P := fun o => ∀ q, o = some q → Good q.2) (f := genRule) (fun a b hb => by
      rintro q rfl
      unfold genRule at hb
      cases hp : (splitDash a.1)[2]? with
      | none => simp [hp] at hb
      | some part =>
        cases hc : Parser.parsePluralCondition Parser.usizeBits a.2 with
        | error e => simp [hp, hc] at hb
        | ok cond =>
          simp only [hp, hc] at hb
          split at hb
          · cases hg : genPr cond with
            | none => simp [hg] at hb
            | some ts =>
              simp only [hg, Option.map_some, Option.some.injEq] at hb
              subst hb
              exact good_genPr cond ts hg
          · simp at hb) hm
    intro q hq
    simp only [List.mem_filterMap, id_eq] at hq
    obtain ⟨o, ho, hq⟩ := hq
    exact this o ho q hq

theorem genTypeRs_stream (parseId : Str → Option LangId) (obj : TypeObj) (l : List (List Tok)) (h : genTypeRs parseId obj = some l) :
    ∀ ts ∈ l, Stream ts := by
  unfold genTypeRs at h
  cases he : genTypeEntries parseId obj with
  | none => simp [he] at h
  | some es =>
    simp only [he, Option.map_some, Option.some.injEq] at h
    subst h
    intro ts hts
    obtain ⟨p, hp, rfl⟩ := List.mem_map.1 hts
    refine genMid_wrap p.1 p.2 ?_
    unfold genTypeEntries at he
    cases hk : parseKeys parseId (btree (obj.map fun p => (p.1, btree p.2))) with
    | none => simp [hk] at he
    | some rules =>
      simp only [hk] at he
      exact mapPanic_all (P := fun p : LangId × List (PluralCategory × List Tok) => ∀ q ∈ p.2, Good q.2) (fun a b hb => by
        cases hg : genLocaleRules a.2 with
        | none => simp [hg] at hb
        | some s =>
          simp only [hg, Option.map_some, Option.some.injEq] at hb
          subst hb
          exact genLocaleRules_good a.2 s hg) he p hp

/-- The streams in a state of the loop. -/
def StateOk (s : GenState) : Prop :=
  (∀ l, s.cardinal = some l → ∀ ts ∈ l, Stream ts) ∧ (∀ l, s.ordinal = some l → ∀ ts ∈ l, Stream ts)

theorem addType_ok (parseId : Str → Option LangId) (old new : Option (List (List Tok))) (o : Option TypeObj)
    (ho : ∀ l, old = some l → ∀ ts ∈ l, Stream ts) (h : addType parseId old o = some new) :
    ∀ l, new = some l → ∀ ts ∈ l, Stream ts := by
  cases o with
  | none => simp only [addType, Option.some.injEq] at h; subst h; exact ho
  | some obj =>
    simp only [addType] at h
    cases hg : genTypeRs parseId obj with
    | none => simp [hg] at h
    | some toks =>
      simp only [hg] at h
      split at h
      · cases h
      · simp only [Option.some.injEq] at h
        subst h
        rintro l ⟨⟩
        exact genTypeRs_stream parseId obj _ hg

theorem genStep_ok (parseId : Str → Option LangId) (s s' : GenState) (r : Generate.Resource) (hs : StateOk s)
    (h : genStep parseId s r = some s') : StateOk s' := by
  unfold genStep at h
  split at h
  · cases h
  · cases hc : addType parseId s.cardinal r.cardinal with
    | none => simp [hc] at h
    | some c =>
      cases ho : addType parseId s.ordinal r.ordinal with
      | none => simp [hc, ho] at h
      | some o =>
        simp only [hc, ho, Option.some.injEq] at h
        subst h
        exact ⟨addType_ok parseId _ _ _ hs.1 hc, addType_ok parseId _ _ _ hs.2 ho⟩

theorem genLoop_ok (parseId : Str → Option LangId) (rs : List Generate.Resource) (s s' : GenState) (hs : StateOk s)
    (h : genLoop parseId s rs = some s') : StateOk s' := by
  induction rs generalizing s with
  | nil => simp only [genLoop, Option.some.injEq] at h; subst h; exact hs
  | cons r rs ih =>
    simp only [genLoop] at h
    cases hst : genStep parseId s r with
    | none => simp [hst] at h
    | some s1 =>
      simp only [hst] at h
      exact ih s1 (genStep_ok parseId s s1 r hs hst) h

theorem cleanAll_createPrType (ty : RuleType) (l : List (List Tok)) (h : ∀ ts ∈ l, Stream ts) : CleanAll (createPrType ty l) := by
  unfold createPrType
  rw [cleanAll_append, cleanAll_append]
  refine ⟨⟨by cases ty <;> rfl, cleanAll_sepBy _ rfl l fun ts hts => (stream_good (h ts hts)).1⟩, rfl⟩

theorem cleanAll_head (n : Nat) : CleanAll (head n) := by
  have h : (head n).all clean = (head 0).all clean := by
    unfold head
    simp only [List.all_append, List.all_cons, List.cons_append, List.nil_append, clean]
  rw [CleanAll, h]
  decide +kernel

/-- What the generator's tokens consist of: the head with the version, and one or two tables. -/
theorem generateTokens_parts (parseId : Str → Option LangId) (rs : List Generate.Resource) (toks : List Tok)
    (h : generateTokens parseId rs = some toks) :
    ∃ s v num, genLoop parseId ⟨none, none, none⟩ rs = some s ∧ s.version = some v ∧ parseSigned 64 v = some num ∧ StateOk s ∧
      (s.cardinal.isSome ∨ s.ordinal.isSome) ∧
      toks = head (isizeAsU64 num) ++ ((s.cardinal.toList.map fun l => createPrType .cardinal l) ++
        (s.ordinal.toList.map fun l => createPrType .ordinal l)).flatten := by
  unfold generateTokens at h
  cases hl : genLoop parseId ⟨none, none, none⟩ rs with
  | none => simp [hl] at h
  | some s =>
    simp only [hl] at h
    cases hv : s.version with
    | none => simp [hv] at h
    | some v =>
      simp only [hv] at h
      split at h
      · cases h
      · rename_i hne
        unfold genFn at h
        cases hp : parseSigned 64 v with
        | none => simp [hp] at h
        | some num =>
          simp only [hp, Option.some.injEq] at h
          refine ⟨s, v, num, rfl, hv, hp, genLoop_ok parseId rs _ s ⟨by simp, by simp⟩ hl, ?_, ?_⟩
          · cases hc : s.cardinal with
            | some _ => exact .inl rfl
            | none =>
              cases ho : s.ordinal with
              | some _ => exact .inr rfl
              | none => simp [hc, ho] at hne
          · rw [← h, List.map_append, List.map_map, List.map_map]
            rfl

theorem generateTokens_clean (parseId : Str → Option LangId) (rs : List Generate.Resource) (toks : List Tok)
    (h : generateTokens parseId rs = some toks) : CleanAll toks := by
  obtain ⟨s, v, num, -, -, -, hs, -, rfl⟩ := generateTokens_parts parseId rs toks h
  rw [cleanAll_append]
  refine ⟨cleanAll_head _, ?_⟩
  have key : ∀ l : List (List Tok), (∀ x ∈ l, CleanAll x) → CleanAll l.flatten := by
    intro l hl
    induction l with
    | nil => rfl
    | cons a l ih => rw [List.flatten_cons, cleanAll_append]; exact ⟨hl a (by simp), ih fun x hx => hl x (by simp [hx])⟩
  apply key
  intro x hx
  rcases List.mem_append.1 hx with hx | hx
  · obtain ⟨l, hl, rfl⟩ := List.mem_map.1 hx
    exact cleanAll_createPrType _ l (hs.1 l (Option.mem_toList.1 hl))
  · obtain ⟨l, hl, rfl⟩ := List.mem_map.1 hx
    exact cleanAll_createPrType _ l (hs.2 l (Option.mem_toList.1 hl))

theorem printable_ident (c : Char) (h : isIdent c = true) : printable c = true := by
  simp only [isIdent, isDigit, Bool.or_eq_true, Bool.and_eq_true, decide_eq_true_eq, beq_iff_eq] at h
  simp only [printable, Bool.and_eq_true, decide_eq_true_eq]
  have a : 'a'.toNat = 97 := rfl
  have z : 'z'.toNat = 122 := rfl
  have A : 'A'.toNat = 65 := rfl
  have Z : 'Z'.toNat = 90 := rfl
  have n0 : '0'.toNat = 48 := rfl
  have n9 : '9'.toNat = 57 := rfl
  have u : '_'.toNat = 95 := rfl
  rcases h with ((h | h) | h) | h
  · omega
  · omega
  · omega
  · rw [h]; omega

theorem printable_tok (t : Tok) (h : clean t = true) : (tokText t).all printable = true := by
  have hw : ∀ s, word s = true → s.all printable = true := by
    intro s hs
    simp only [word, Bool.and_eq_true] at hs
    exact List.all_eq_true.2 fun c hc => printable_ident c (List.all_eq_true.1 hs.1 c hc)
  cases t with
  | id s => simp only [clean, Bool.and_eq_true] at h; exact hw s h.1
  | lit n suf =>
    simp only [tokText, List.all_append, Bool.and_eq_true]
    exact ⟨List.all_eq_true.2 fun c hc => printable_ident c (isDigit_isIdent c (List.all_eq_true.1 (showNat_digits n).1 c hc)), hw suf h⟩
  | str s =>
    simp only [clean, Bool.and_eq_true] at h
    simp only [tokText, List.cons_append, List.all_cons, List.all_append, Bool.and_eq_true]
    exact ⟨rfl, h.2, rfl, rfl⟩
  | sym s =>
    have : ∀ x ∈ symbols, x.all printable = true := by decide
    exact this s (by simpa [clean] using h)

theorem printable_render (ts : List Tok) (h : CleanAll ts) : (render ts).all printable = true := by
  fun_induction render ts with
  | case1 => rfl
  | case2 t => rw [cleanAll_cons] at h; exact printable_tok t h.1
  | case3 t u r hb ih =>
    rw [cleanAll_cons] at h
    rw [List.all_append, Bool.and_eq_true]; exact ⟨printable_tok t h.1, ih h.2⟩
  | case4 t u r hb ih =>
    rw [cleanAll_cons] at h
    rw [List.all_append, List.all_cons, Bool.and_eq_true, Bool.and_eq_true]; exact ⟨printable_tok t h.1, rfl, ih h.2⟩

end Verif.Lemmas
