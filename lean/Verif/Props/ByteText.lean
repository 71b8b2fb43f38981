import Verif.ByteText
import Verif.Lemmas.Utf8
import Verif.Lemmas.Strings
import Mathlib.Tactic.Linarith
import Mathlib.Tactic.Ring

/-!
# C98: texts as bytes
-/

namespace Verif.Props
open Verif Utf8 ByteText Spec Uts35

/-! ## Bytes of a text -/

theorem encode_append (a b : Str) : encode (a ++ b) = encode a ++ encode b := by simp [encode]

theorem encode_cons (c : Char) (t : Str) : encode (c :: t) = encodeChar c ++ encode t := rfl

/-- One byte below 128, or a byte that begins a character and others that continue it. -/
theorem encodeChar_shape (c : Char) : (c.toNat < 0x80 ∧ encodeChar c = [UInt8.ofNat c.toNat]) ∨
    (0x80 ≤ c.toNat ∧ ∃ b bs, encodeChar c = b :: bs ∧ bs ≠ [] ∧ 0xC0 ≤ b.toNat ∧ ∀ x ∈ bs, cont x = true) := by
  have hc : c.toNat < 0x110000 := by
    rcases Lemmas.toNat_char c with h | h <;> omega
  have hb : ∀ n, n < 64 → cont (UInt8.ofNat (0x80 + n)) = true := by
    intro n hn
    simp only [cont, Lemmas.byte_ofNat (0x80 + n) (by omega), Bool.and_eq_true, decide_eq_true_eq]
    omega
  unfold encodeChar
  dsimp only
  split
  · exact .inl ⟨by assumption, rfl⟩
  · rename_i h0
    right
    refine ⟨by omega, ?_⟩
    split
    · refine ⟨_, _, rfl, by simp, ?_, ?_⟩
      · rw [Lemmas.byte_ofNat _ (by omega)]; omega
      · simp only [List.mem_singleton, forall_eq]; exact hb _ (by omega)
    · split
      · refine ⟨_, _, rfl, by simp, ?_, ?_⟩
        · rw [Lemmas.byte_ofNat _ (by omega)]; omega
        · simp only [List.mem_cons, List.not_mem_nil, or_false, forall_eq_or_imp, forall_eq]
          exact ⟨hb _ (by omega), hb _ (by omega)⟩
      · refine ⟨_, _, rfl, by simp, ?_, ?_⟩
        · rw [Lemmas.byte_ofNat _ (by omega)]; omega
        · simp only [List.mem_cons, List.not_mem_nil, or_false, forall_eq_or_imp, forall_eq]
          exact ⟨hb _ (by omega), hb _ (by omega), hb _ (by omega)⟩

theorem cont_ge {x : UInt8} (h : cont x = true) : 0x80 ≤ x.toNat := by
  simp only [cont, Bool.and_eq_true, decide_eq_true_eq] at h; exact h.1

theorem encodeChar_big {c : Char} (h : 0x80 ≤ c.toNat) : ∀ x ∈ encodeChar c, 0x80 ≤ x.toNat := by
  rcases encodeChar_shape c with ⟨h1, -⟩ | ⟨-, b, bs, h1, -, h2, h3⟩
  · omega
  · rw [h1]
    intro x hx
    rcases List.mem_cons.1 hx with rfl | hx
    · omega
    · exact cont_ge (h3 x hx)

theorem char_ext {a b : Char} (h : a.toNat = b.toNat) : a = b := Char.toNat_inj.1 h

/-- An ASCII character. -/
theorem encodeChar_ascii {c : Char} (h : c.toNat < 0x80) : encodeChar c = [UInt8.ofNat c.toNat] := by
  rcases encodeChar_shape c with ⟨-, h1⟩ | ⟨h1, -⟩
  · exact h1
  · omega

theorem encodeChar_ne (c : Char) : encodeChar c ≠ [] := by
  rcases encodeChar_shape c with ⟨-, h⟩ | ⟨-, b, bs, h, -⟩ <;> simp [h]

theorem encode_nil {s : Str} : encode s = [] ↔ s = [] := by
  cases s with
  | nil => simp [encode]
  | cons c t => simp [encode_cons, encodeChar_ne]

/-- The first byte tells an ASCII character. -/
theorem head_ascii (a : Char) (ha : a.toNat < 0x80) (c : Char) : (encodeChar c).head? = some (UInt8.ofNat a.toNat) ↔ c = a := by
  constructor
  · intro h
    rcases encodeChar_shape c with ⟨h1, h2⟩ | ⟨h1, b, bs, h2, -, h3, -⟩
    · rw [h2] at h
      simp only [List.head?_cons, Option.some.injEq] at h
      have := congrArg UInt8.toNat h
      rw [Lemmas.byte_ofNat _ (by omega), Lemmas.byte_ofNat _ (by omega)] at this
      exact char_ext this
    · rw [h2] at h
      simp only [List.head?_cons, Option.some.injEq] at h
      rw [h, Lemmas.byte_ofNat _ (by omega)] at h3
      omega
  · rintro rfl
    rw [encodeChar_ascii ha]; rfl

theorem boundary_append (a b : Str) : isCharBoundary (encode a ++ encode b) (encode a).length = true := by
  unfold isCharBoundary
  cases b with
  | nil => simp [encode]
  | cons c t =>
    rw [encode_cons]
    have : (encode a ++ (encodeChar c ++ encode t))[(encode a).length]? = (encodeChar c).head? := by
      rw [List.getElem?_append_right (Nat.le_refl _), Nat.sub_self]
      rcases encodeChar_shape c with ⟨-, h⟩ | ⟨-, b, bs, h, -⟩ <;> simp [h]
    rw [this]
    simp only [Bool.or_eq_true]
    right
    rcases encodeChar_shape c with ⟨h1, h2⟩ | ⟨-, b, bs, h2, -, h3, -⟩
    · rw [h2]
      simp only [List.head?_cons, Option.any_some, cont, Lemmas.byte_ofNat _ (show c.toNat < 256 by omega)]
      simp only [Bool.not_eq_true', Bool.and_eq_false_iff, decide_eq_false_iff_not]
      omega
    · rw [h2]
      simp only [List.head?_cons, Option.any_some, cont]
      simp only [Bool.not_eq_true', Bool.and_eq_false_iff, decide_eq_false_iff_not]
      omega

/-- Cutting between characters. -/
theorem slice_mid (a b c : Str) : slice (encode (a ++ b ++ c)) (encode a).length ((encode a).length + (encode b).length) = some (encode b) := by
  have h1 : isCharBoundary (encode (a ++ b ++ c)) (encode a).length = true := by
    rw [List.append_assoc, encode_append]; exact boundary_append a (b ++ c)
  have h2 : isCharBoundary (encode (a ++ b ++ c)) ((encode a).length + (encode b).length) = true := by
    have := boundary_append (a ++ b) c
    rw [← encode_append, encode_append a b, List.length_append] at this
    exact this
  unfold slice
  rw [h1, h2]
  simp only [Nat.le_add_right, decide_true, Bool.and_self, if_true]
  rw [encode_append, encode_append, ← List.length_append, List.take_left, List.drop_left]

/-! ## Integers -/

theorem toDigit_char (c : Char) : (encodeChar c).map toDigit = if isDigit c then [some (digitVal c)] else (encodeChar c).map fun _ => none := by
  split
  · rename_i h
    simp only [isDigit, Bool.and_eq_true, decide_eq_true_eq] at h
    have h0 : '0'.toNat = 0x30 := rfl
    have h9 : '9'.toNat = 0x39 := rfl
    rw [encodeChar_ascii (by omega)]
    simp only [List.map_cons, List.map_nil, toDigit, Lemmas.byte_ofNat _ (show c.toNat < 256 by omega), digitVal]
    rw [if_pos (by simp only [Bool.and_eq_true, decide_eq_true_eq]; omega)]
    rfl
  · rename_i h
    simp only [isDigit, Bool.and_eq_true, decide_eq_true_eq] at h
    have h0 : '0'.toNat = 0x30 := rfl
    have h9 : '9'.toNat = 0x39 := rfl
    rw [List.map_inj_left]
    intro x hx
    unfold toDigit
    rw [if_neg]
    simp only [Bool.and_eq_true, decide_eq_true_eq]
    by_cases hc : c.toNat < 0x80
    · rw [encodeChar_ascii hc, List.mem_singleton] at hx
      rw [hx, Lemmas.byte_ofNat _ (by omega)]; omega
    · have := encodeChar_big (by omega) x hx
      omega

theorem digit_char {c : Char} (h : isDigit c = true) : ∃ b, encodeChar c = [b] ∧ toDigit b = some (digitVal c) := by
  have := toDigit_char c
  rw [if_pos h] at this
  generalize encodeChar c = l at this
  obtain ⟨b, rfl⟩ : ∃ b, l = [b] := List.length_eq_one_iff.1 (by simpa using congrArg List.length this)
  exact ⟨b, rfl, by simpa using this⟩

theorem not_digit_char {c : Char} (h : isDigit c = false) : ∃ b bs, encodeChar c = b :: bs ∧ toDigit b = none := by
  have := toDigit_char c
  rw [if_neg (by simp [h])] at this
  match hb : encodeChar c, this, encodeChar_ne c with
  | b :: bs, this, _ => exact ⟨b, bs, rfl, by simp at this; exact this.1⟩

/-- The value of digits after others. -/
def digitsFrom (r : Nat) (s : Str) : Nat := s.foldl (fun a c => a * 10 + digitVal c) r

theorem digitsFrom_le (r : Nat) (s : Str) : r ≤ digitsFrom r s := by
  induction s generalizing r with
  | nil => exact Nat.le_refl _
  | cons c t ih =>
    have := ih (r * 10 + digitVal c)
    simp only [digitsFrom, List.foldl_cons] at *
    omega

theorem unsignedLoop_spec (bits : Nat) (s : Str) (r : Nat) (hr : r < 2 ^ bits) :
    unsignedLoop bits r (encode s) = if s.all isDigit && digitsFrom r s < 2 ^ bits then some (digitsFrom r s) else none := by
  induction s generalizing r with
  | nil => simp [encode, unsignedLoop, digitsFrom, hr]
  | cons c t ih =>
    have hle := digitsFrom_le (r * 10 + digitVal c) t
    rw [encode_cons]
    cases hc : isDigit c with
    | false =>
      obtain ⟨b, bs, h1, h2⟩ := not_digit_char hc
      rw [h1]
      simp [unsignedLoop, h2, hc]
    | true =>
      obtain ⟨b, h1, h2⟩ := digit_char hc
      rw [h1]
      have hstep : digitsFrom r (c :: t) = digitsFrom (r * 10 + digitVal c) t := rfl
      rw [hstep]
      simp only [List.cons_append, List.nil_append, unsignedLoop, h2, checked, List.all_cons, hc, Bool.true_and]
      by_cases h3 : r * 10 + digitVal c < 2 ^ bits
      · rw [if_pos (by omega)]
        simp only [h3, if_true]
        exact ih _ h3
      · rw [if_neg (c := _ && _)]
        · by_cases h4 : r * 10 < 2 ^ bits
          · simp [h4, h3]
          · simp [h4]
        · simp only [Bool.and_eq_true, decide_eq_true_eq, not_and]
          omega

theorem encode_single {c : Char} {t : Str} (h : c.toNat < 0x80) : encode (c :: t) = UInt8.ofNat c.toNat :: encode t := by
  rw [encode_cons, encodeChar_ascii h]; rfl

theorem plus_iff (c : Char) : (encodeChar c).head? = some 0x2B ↔ c = '+' := head_ascii '+' (by decide) c
theorem minus_iff (c : Char) : (encodeChar c).head? = some 0x2D ↔ c = '-' := head_ascii '-' (by decide) c

/-- C98: the loop of std for unsigned integers, which checks each step, accepts the digit texts whose number fits. -/
theorem C98_unsigned (bits : Nat) (s : Str) : unsignedFromStr bits (encode s) = parseUnsigned bits s := by
  have hp : (0 : Nat) < 2 ^ bits := Nat.pow_pos (by decide)
  have hval : ∀ s, digitsVal s = digitsFrom 0 s := fun _ => rfl
  cases s with
  | nil => simp [encode, unsignedFromStr, parseUnsigned, stripPlus]
  | cons c t =>
    by_cases hplus : c = '+'
    · subst hplus
      rw [encode_single (by decide)]
      show unsignedFromStr bits (0x2B :: encode t) = _
      unfold unsignedFromStr parseUnsigned
      simp only [stripPlus, if_true, decide_true, Bool.true_or, Bool.true_and]
      cases t with
      | nil => simp [encode]
      | cons d u =>
        have : encode (d :: u) ≠ [] := by rw [ne_eq, encode_nil]; simp
        rw [if_neg (by simp [this]), unsignedLoop_spec bits _ 0 hp, hval]
        simp only [List.isEmpty_cons, Bool.false_eq_true, if_false]
        cases (d :: u).all isDigit <;> simp
    · obtain ⟨b, bs, hb⟩ := List.exists_cons_of_ne_nil (encodeChar_ne c)
      have h1 : b ≠ 0x2B := by
        intro h
        exact hplus ((plus_iff c).1 (by rw [hb, h]; rfl))
      have hstrip : stripPlus (c :: t) = c :: t := by simp [stripPlus, hplus]
      have hloop := unsignedLoop_spec bits (c :: t) 0 hp
      rw [encode_cons, hb] at hloop ⊢
      simp only [List.cons_append] at hloop ⊢
      unfold unsignedFromStr parseUnsigned
      rw [hstrip]
      simp only [h1, decide_false, Bool.false_or, if_false, List.isEmpty_cons, Bool.false_eq_true, hval]
      split
      · rename_i h
        simp only [Bool.and_eq_true, decide_eq_true_eq, List.isEmpty_iff] at h
        have hc : c = '-' := (minus_iff c).1 (by rw [hb, h.1]; rfl)
        subst hc
        have hd : isDigit '-' = false := by decide
        simp [hd]
      · rw [hloop]
        cases (c :: t).all isDigit <;> simp

theorem signedLoop_pos (bits : Nat) (s : Str) (r : Nat) (hr : r < 2 ^ (bits - 1)) : signedLoop bits false r (encode s) =
    if s.all isDigit && digitsFrom r s < 2 ^ (bits - 1) then some (digitsFrom r s : Int) else none := by
  induction s generalizing r with
  | nil => simp [encode, signedLoop, digitsFrom, hr]
  | cons c t ih =>
    have hle := digitsFrom_le (r * 10 + digitVal c) t
    have hpow : (2 ^ (bits - 1) : Int) = ((2 ^ (bits - 1) : Nat) : Int) := by norm_cast
    rw [encode_cons]
    cases hc : isDigit c with
    | false =>
      obtain ⟨b, bs, h1, h2⟩ := not_digit_char hc
      rw [h1]
      simp [signedLoop, h2, hc]
    | true =>
      obtain ⟨b, h1, h2⟩ := digit_char hc
      rw [h1]
      have hstep : digitsFrom r (c :: t) = digitsFrom (r * 10 + digitVal c) t := rfl
      rw [hstep]
      simp only [List.cons_append, List.nil_append, signedLoop, h2, checkedSigned, hpow, List.all_cons, hc, Bool.true_and,
        Bool.false_eq_true, if_false]
      generalize 2 ^ (bits - 1) = M at *
      by_cases h3 : r * 10 + digitVal c < M
      · rw [if_pos (c := -(M : Int) ≤ r * 10 ∧ (r : Int) * 10 < M) (by omega)]
        dsimp only
        rw [if_pos (c := -(M : Int) ≤ r * 10 + digitVal c ∧ (r : Int) * 10 + digitVal c < M) (by omega)]
        dsimp only
        rw [← ih _ h3]
        congr 1
      · rw [if_neg (c := (t.all isDigit && decide (digitsFrom (r * 10 + digitVal c) t < M)) = true)
          (by simp only [Bool.and_eq_true, decide_eq_true_eq, not_and]; omega)]
        by_cases h4 : r * 10 < M
        · rw [if_pos (c := -(M : Int) ≤ r * 10 ∧ (r : Int) * 10 < M) (by omega)]
          dsimp only
          rw [if_neg (c := -(M : Int) ≤ r * 10 + digitVal c ∧ (r : Int) * 10 + digitVal c < M) (by omega)]
        · rw [if_neg (c := -(M : Int) ≤ r * 10 ∧ (r : Int) * 10 < M) (by omega)]

theorem signedLoop_neg (bits : Nat) (s : Str) (r : Nat) (hr : r ≤ 2 ^ (bits - 1)) : signedLoop bits true (-(r : Int)) (encode s) =
    if s.all isDigit && digitsFrom r s ≤ 2 ^ (bits - 1) then some (-(digitsFrom r s : Int)) else none := by
  induction s generalizing r with
  | nil => simp [encode, signedLoop, digitsFrom, hr]
  | cons c t ih =>
    have hle := digitsFrom_le (r * 10 + digitVal c) t
    have hpow : (2 ^ (bits - 1) : Int) = ((2 ^ (bits - 1) : Nat) : Int) := by norm_cast
    have hpos : 0 < 2 ^ (bits - 1) := Nat.pow_pos (by decide)
    rw [encode_cons]
    cases hc : isDigit c with
    | false =>
      obtain ⟨b, bs, h1, h2⟩ := not_digit_char hc
      rw [h1]
      simp [signedLoop, h2, hc]
    | true =>
      obtain ⟨b, h1, h2⟩ := digit_char hc
      rw [h1]
      have hstep : digitsFrom r (c :: t) = digitsFrom (r * 10 + digitVal c) t := rfl
      rw [hstep]
      simp only [List.cons_append, List.nil_append, signedLoop, h2, checkedSigned, hpow, List.all_cons, hc, Bool.true_and, if_true]
      generalize 2 ^ (bits - 1) = M at *
      by_cases h3 : r * 10 + digitVal c ≤ M
      · rw [if_pos (c := -(M : Int) ≤ -r * 10 ∧ -(r : Int) * 10 < M) (by omega)]
        dsimp only
        rw [if_pos (c := -(M : Int) ≤ -r * 10 - digitVal c ∧ -(r : Int) * 10 - digitVal c < M) (by omega)]
        dsimp only
        rw [← ih _ h3]
        congr 1
        omega
      · rw [if_neg (c := (t.all isDigit && decide (digitsFrom (r * 10 + digitVal c) t ≤ M)) = true)
          (by simp only [Bool.and_eq_true, decide_eq_true_eq, not_and]; omega)]
        by_cases h4 : r * 10 ≤ M
        · rw [if_pos (c := -(M : Int) ≤ -r * 10 ∧ -(r : Int) * 10 < M) (by omega)]
          dsimp only
          rw [if_neg (c := -(M : Int) ≤ -r * 10 - digitVal c ∧ -(r : Int) * 10 - digitVal c < M) (by omega)]
        · rw [if_neg (c := -(M : Int) ≤ -r * 10 ∧ -(r : Int) * 10 < M) (by omega)]

/-- C98: the loops of std for signed integers, which check each step, accept the digit texts whose number fits. -/
theorem C98_signed (bits : Nat) (s : Str) : signedFromStr bits (encode s) = parseSigned bits s := by
  have hp : (0 : Nat) < 2 ^ (bits - 1) := Nat.pow_pos (by decide)
  have hpos : ∀ s, signedLoop bits false 0 (encode s) = if s.all isDigit && digitsFrom 0 s < 2 ^ (bits - 1) then some (digitsFrom 0 s : Int)
      else none := fun s => by simpa using signedLoop_pos bits s 0 hp
  have hneg : ∀ s, signedLoop bits true 0 (encode s) = if s.all isDigit && digitsFrom 0 s ≤ 2 ^ (bits - 1) then some (-(digitsFrom 0 s : Int))
      else none := fun s => by simpa using signedLoop_neg bits s 0 (Nat.zero_le _)
  have hval : ∀ s, digitsVal s = digitsFrom 0 s := fun _ => rfl
  cases s with
  | nil => simp [encode, signedFromStr, parseSigned, splitSign]
  | cons c t =>
    by_cases hplus : c = '+'
    · subst hplus
      rw [encode_single (by decide)]
      show signedFromStr bits (0x2B :: encode t) = _
      unfold signedFromStr parseSigned
      simp only [splitSign, if_true, decide_true, Bool.true_or, Bool.true_and]
      cases t with
      | nil => simp [encode]
      | cons d u =>
        have : encode (d :: u) ≠ [] := by rw [ne_eq, encode_nil]; simp
        rw [if_neg (by simp [this]), hpos, hval]
        simp only [List.isEmpty_cons, Bool.false_eq_true, if_false]
        cases (d :: u).all isDigit <;> simp
    · by_cases hminus : c = '-'
      · subst hminus
        rw [encode_single (by decide)]
        show signedFromStr bits (0x2D :: encode t) = _
        unfold signedFromStr parseSigned
        simp only [splitSign, if_neg (show ¬ '-' = '+' by decide), if_true, if_neg (show ¬ (0x2D : UInt8) = 0x2B by decide), decide_true,
          Bool.or_true, Bool.true_and]
        cases t with
        | nil => simp [encode]
        | cons d u =>
          have : encode (d :: u) ≠ [] := by rw [ne_eq, encode_nil]; simp
          rw [if_neg (by simp [this]), hneg, hval]
          simp only [List.isEmpty_cons, Bool.false_eq_true, if_false]
          cases (d :: u).all isDigit <;> simp
      · obtain ⟨b, bs, hb⟩ := List.exists_cons_of_ne_nil (encodeChar_ne c)
        have h1 : b ≠ 0x2B := by
          intro h
          exact hplus ((plus_iff c).1 (by rw [hb, h]; rfl))
        have h2 : b ≠ 0x2D := by
          intro h
          exact hminus ((minus_iff c).1 (by rw [hb, h]; rfl))
        have hsplit : splitSign (c :: t) = (false, c :: t) := by simp [splitSign, hplus, hminus]
        have hloop := hpos (c :: t)
        rw [encode_cons, hb] at hloop ⊢
        simp only [List.cons_append] at hloop ⊢
        unfold signedFromStr parseSigned
        rw [hsplit]
        simp only [h1, h2, decide_false, Bool.false_or, Bool.false_and, if_false, List.isEmpty_cons, Bool.false_eq_true, hval, hloop]
        cases (c :: t).all isDigit <;> simp

/-- C98: what the loop for unsigned integers accepts: digits, after a plus sign or not, whose number fits. -/
theorem C98_accepts (bits : Nat) (s : Str) (x : Nat) : unsignedFromStr bits (encode s) = some x ↔
    ∃ l : List (Fin 10), (s = digitText l ∨ s = '+' :: digitText l) ∧ l ≠ [] ∧ digitsNum l = x ∧ x < 2 ^ bits := by
  rw [C98_unsigned, Strings.parseUnsigned_some]

/-- C98: what the loops for signed integers accept: digits, after a sign or not, whose number fits. -/
theorem C98_accepts_signed (bits : Nat) (s : Str) (x : Int) : signedFromStr bits (encode s) = some x ↔
    ∃ l : List (Fin 10), l ≠ [] ∧ ((s = digitText l ∨ s = '+' :: digitText l) ∧ x = digitsNum l ∨ s = '-' :: digitText l ∧ x = -digitsNum l) ∧
      -2 ^ (bits - 1) ≤ x ∧ x < 2 ^ (bits - 1) := by
  rw [C98_signed]
  have hpow : (2 ^ (bits - 1) : Int) = ((2 ^ (bits - 1) : Nat) : Int) := by norm_cast
  have hp : 0 < 2 ^ (bits - 1) := Nat.pow_pos (by decide)
  rw [hpow]
  generalize hM : 2 ^ (bits - 1) = M at *
  constructor
  · intro h
    unfold parseSigned at h
    dsimp only at h
    split at h
    · cases h
    · rename_i h1
      split at h
      · cases h
      · rename_i h2
        simp only [Bool.not_eq_true', Bool.not_eq_false] at h2
        obtain ⟨l, hl⟩ := Strings.all_digits _ h2
        have hne : l ≠ [] := by
          rintro rfl
          rw [hl] at h1
          exact h1 rfl
        rw [hl, Strings.digitsVal_digitText, hM] at h
        refine ⟨l, hne, ?_⟩
        cases s with
        | nil => exact absurd rfl h1
        | cons c t =>
          unfold splitSign at hl h
          by_cases hc : c = '+'
          · subst hc
            simp only [if_true] at hl h
            simp only [Bool.false_eq_true, if_false] at h
            split at h
            · cases h
              exact ⟨.inl ⟨.inr (by rw [hl]), rfl⟩, by omega, by omega⟩
            · cases h
          · by_cases hm : c = '-'
            · subst hm
              simp only [hc, if_false, if_true] at hl h
              split at h
              · cases h
                exact ⟨.inr ⟨by rw [hl], rfl⟩, by omega, by omega⟩
              · cases h
            · simp only [hc, hm, if_false] at hl h
              simp only [Bool.false_eq_true, if_false] at h
              split at h
              · cases h
                exact ⟨.inl ⟨.inl hl, rfl⟩, by omega, by omega⟩
              · cases h
  · rintro ⟨l, hne, h, h1, h2⟩
    have hemp : (digitText l).isEmpty = false := by
      cases l with
      | nil => exact absurd rfl hne
      | cons d l => rfl
    have hall := Strings.digitText_all l
    have hval := Strings.digitsVal_digitText l
    have main : ∀ neg : Bool, splitSign s = (neg, digitText l) → x = (if neg then -(digitsNum l : Int) else digitsNum l) →
        parseSigned bits s = some x := by
      intro neg hsp hx
      unfold parseSigned
      dsimp only
      rw [hsp]
      simp only [hemp, hall, hval, hM, Bool.not_true, Bool.false_eq_true, if_false]
      cases neg with
      | true =>
        simp only [if_true] at hx ⊢
        rw [if_pos (by omega), hx]
      | false =>
        simp only [Bool.false_eq_true, if_false] at hx ⊢
        rw [if_pos (by omega), hx]
    rcases h with ⟨rfl | rfl, hx⟩ | ⟨rfl, hx⟩
    · refine main false ?_ (by simpa using hx)
      cases l with
      | nil => exact absurd rfl hne
      | cons d l =>
        rw [Strings.digitText_cons, splitSign, if_neg (Strings.digitChar_ne d '+' rfl), if_neg (Strings.digitChar_ne d '-' rfl)]
    · exact main false rfl (by simpa using hx)
    · exact main true rfl (by simpa using hx)

example : signedFromStr 8 (encode c!"-128") = some (-128) := (C98_accepts_signed 8 _ _).2 ⟨[1, 2, 8], by simp, .inr ⟨rfl, rfl⟩, by decide, by decide⟩
example : signedFromStr 8 (encode c!"+128") = none ∧ unsignedFromStr 8 (encode c!"+128") = some 128 ∧ unsignedFromStr 8 (encode c!"256") = none := by decide

/-! ## The conversion -/

theorem find_none (a : Char) (ha : a.toNat < 0x80) (s : Str) (h : a ∉ s) (t : Bytes) :
    find (UInt8.ofNat a.toNat) (encode s ++ t) = (find (UInt8.ofNat a.toNat) t).map (· + (encode s).length) := by
  have hstep : ∀ (l : Bytes) t, (∀ x ∈ l, x ≠ UInt8.ofNat a.toNat) →
      find (UInt8.ofNat a.toNat) (l ++ t) = (find (UInt8.ofNat a.toNat) t).map (· + l.length) := by
    intro l t hl
    induction l with
    | nil => simp
    | cons x l ih =>
      rw [List.cons_append, find, if_neg (hl x (by simp)), ih fun y hy => hl y (by simp [hy]), Option.map_map]
      congr 1
  refine hstep _ _ fun x hx => ?_
  obtain ⟨c, hc, hx⟩ := List.mem_flatMap.1 hx
  rintro rfl
  apply h
  by_cases h1 : c.toNat < 0x80
  · rw [encodeChar_ascii h1, List.mem_singleton] at hx
    have := congrArg UInt8.toNat hx
    rw [Lemmas.byte_ofNat _ (by omega), Lemmas.byte_ofNat _ (by omega)] at this
    rwa [char_ext this]
  · have := encodeChar_big (by omega) _ hx
    rw [Lemmas.byte_ofNat _ (by omega)] at this
    omega

theorem splitPoint_spec (s : Str) : (PluralOperands.splitPoint s = none ∧ '.' ∉ s) ∨
    ∃ a b, PluralOperands.splitPoint s = some (a, b) ∧ s = a ++ '.' :: b ∧ '.' ∉ a := by
  induction s with
  | nil => exact .inl ⟨rfl, by simp⟩
  | cons c t ih =>
    unfold PluralOperands.splitPoint
    by_cases hc : c = '.'
    · subst hc
      exact .inr ⟨[], t, by simp, rfl, by simp⟩
    · rw [if_neg (by simpa using hc)]
      rcases ih with ⟨h1, h2⟩ | ⟨a, b, h1, h2, h3⟩
      · rw [h1]
        exact .inl ⟨rfl, by simp [h2, Ne.symm hc]⟩
      · rw [h1]
        exact .inr ⟨c :: a, b, rfl, by rw [h2]; rfl, by simp [h3, Ne.symm hc]⟩

theorem trimEndZeros_encode (s : Str) : ByteText.trimEndZeros (encode s) = encode (PluralOperands.trimEndZeros s) := by
  obtain ⟨r, rfl⟩ : ∃ r, s = r.reverse := ⟨s.reverse, by simp⟩
  unfold ByteText.trimEndZeros PluralOperands.trimEndZeros
  rw [List.reverse_reverse]
  induction r with
  | nil => rfl
  | cons c t ih =>
    rw [List.reverse_cons, encode_append, List.reverse_append]
    have h1 : encode [c] = encodeChar c := by simp [encode]
    rw [h1]
    by_cases hc : c = '0'
    · subst hc
      have : encodeChar '0' = [0x30] := by decide
      rw [this]
      simp only [List.reverse_cons, List.reverse_nil, List.nil_append, List.cons_append, List.dropWhile_cons, beq_self_eq_true, if_true]
      exact ih
    · have hlast : ∀ x ∈ encodeChar c, x ≠ 0x30 := by
        rintro x hx rfl
        by_cases h2 : c.toNat < 0x80
        · rw [encodeChar_ascii h2, List.mem_singleton] at hx
          have := congrArg UInt8.toNat hx
          rw [Lemmas.byte_ofNat _ (by omega)] at this
          exact hc (char_ext this.symm)
        · have := encodeChar_big (by omega) _ hx
          revert this; decide
      obtain ⟨b, bs, hb⟩ := List.exists_cons_of_ne_nil (l := (encodeChar c).reverse) (by simp [encodeChar_ne])
      have hbne : b ≠ 0x30 := hlast b (by rw [← List.mem_reverse, hb]; simp)
      rw [hb, List.cons_append, List.dropWhile_cons, if_neg (by simpa using hbne), List.dropWhile_cons, if_neg (by simpa using hc),
        ← List.cons_append, ← hb, List.reverse_append, List.reverse_reverse, List.reverse_reverse, List.reverse_cons, encode_append, h1]

theorem encode_length {s : Str} (h : ∀ c ∈ s, c.toNat < 0x80) : (encode s).length = s.length := by
  induction s with
  | nil => rfl
  | cons c t ih =>
    rw [encode_single (h c (by simp)), List.length_cons, List.length_cons, ih fun x hx => h x (by simp [hx])]

theorem unsigned_ascii {bits : Nat} {s : Str} {n : Nat} (h : parseUnsigned bits s = some n) : ∀ c ∈ s, c.toNat < 0x80 := by
  unfold parseUnsigned at h
  dsimp only at h
  split at h
  · cases h
  · split at h
    · cases h
    · rename_i h2
      have h2 : ∀ c ∈ stripPlus s, isDigit c = true := by simpa using h2
      have hd : ∀ c, isDigit c = true → c.toNat < 0x80 := by
        intro c hc
        simp only [isDigit, Bool.and_eq_true, decide_eq_true_eq] at hc
        have : '9'.toNat = 0x39 := rfl
        omega
      intro c hc
      cases s with
      | nil => cases hc
      | cons x t =>
        simp only [stripPlus] at h2
        split at h2
        · rename_i hx
          rcases List.mem_cons.1 hc with rfl | hc
          · rw [hx]; decide
          · exact hd c (h2 c hc)
        · exact hd c (h2 c hc)

theorem slice_all (s : Str) : slice (encode s) 0 (encode s).length = some (encode s) := by
  have := slice_mid [] s []
  simpa [encode] using this

/-- C98: on the bytes of any text, the conversion does not panic, cuts no character in two, and gives what it gives for the
characters. -/
theorem C98_conversion (s : Str) : ByteText.tryFromStr (encode s) = some (PluralOperands.tryFromStr s) := by
  have hcut : (if (encode s).head? = some 0x2D then slice (encode s) 1 (encode s).length else slice (encode s) 0 (encode s).length) =
      some (encode (PluralOperands.absStr s)) := by
    cases s with
    | nil => decide
    | cons c t =>
      have hhead : (encode (c :: t)).head? = (encodeChar c).head? := by
        rw [encode_cons]
        obtain ⟨b, bs, hb⟩ := List.exists_cons_of_ne_nil (encodeChar_ne c)
        rw [hb]; rfl
      rw [hhead]
      by_cases hc : c = '-'
      · rw [if_pos ((minus_iff c).2 hc)]
        subst hc
        have := slice_mid ['-'] t []
        rw [List.append_nil] at this
        have h1 : encode ['-'] = [0x2D] := by decide
        rw [h1] at this
        have h2 : (encode ('-' :: t)).length = 1 + (encode t).length := by
          rw [encode_cons, List.length_append]; rfl
        rw [h2]
        simpa [PluralOperands.absStr] using this
      · rw [if_neg (by rw [minus_iff]; exact hc), slice_all]
        simp [PluralOperands.absStr, hc]
  unfold ByteText.tryFromStr PluralOperands.tryFromStr
  rw [hcut]
  dsimp only
  generalize PluralOperands.absStr s = a
  rw [Lemmas.decode_encode]
  dsimp only
  cases Flt.fromStr b64 a with
  | none => rfl
  | some x =>
    dsimp only
    rcases splitPoint_spec a with ⟨h1, h2⟩ | ⟨i, d, h1, rfl, h2⟩
    · have := find_none '.' (by decide) a h2 []
      rw [List.append_nil] at this
      have hf : find 0x2E (encode a) = none := this
      rw [h1, hf]
    · have hf : find 0x2E (encode (i ++ '.' :: d)) = some (encode i).length := by
        have := find_none '.' (by decide) i h2 (encode ('.' :: d))
        rw [← encode_append] at this
        rw [show (0x2E : UInt8) = UInt8.ofNat '.'.toNat from rfl, this, encode_single (by decide), find, if_pos rfl]
        simp
      have hs1 : slice (encode (i ++ '.' :: d)) 0 (encode i).length = some (encode i) := by
        have := slice_mid [] i ('.' :: d)
        simpa [encode] using this
      have hs2 : slice (encode (i ++ '.' :: d)) ((encode i).length + 1) (encode (i ++ '.' :: d)).length = some (encode d) := by
        have := slice_mid (i ++ ['.']) d []
        have h3 : (encode (i ++ ['.'])).length = (encode i).length + 1 := by
          rw [encode_append, List.length_append]; rfl
        rw [← h3]
        have h4 : (encode (i ++ '.' :: d)).length = (encode (i ++ ['.'])).length + (encode d).length := by
          rw [← List.length_append, ← encode_append]; simp
        rw [h4]
        simpa using this
      rw [h1, hf]
      dsimp only
      rw [hs1, hs2]
      dsimp only
      rw [C98_unsigned, C98_unsigned, trimEndZeros_encode, C98_unsigned]
      cases parseUnsigned 64 i with
      | none => rfl
      | some k =>
        dsimp only
        cases hd : parseUnsigned 64 d with
        | none => rfl
        | some f =>
          have hasc := unsigned_ascii hd
          have htrim : ∀ c ∈ PluralOperands.trimEndZeros d, c.toNat < 0x80 := by
            intro c hc
            refine hasc c ?_
            unfold PluralOperands.trimEndZeros at hc
            rw [List.mem_reverse] at hc
            exact List.mem_reverse.1 ((List.dropWhile_sublist _).mem hc)
          dsimp only
          rw [encode_length hasc, encode_length htrim]

/-- A text with characters of several bytes, cut after its first character and at its point; and an offset inside a character,
where cutting would panic. -/
example : (ByteText.tryFromStr (encode c!"-1.50")).map Except.toOption = some (some ⟨Flt.ofRat b64 false 3 2, 1, 2, 1, 50, 5⟩) ∧
    (ByteText.tryFromStr (encode c!"-é.٣")).map Except.toOption = some none ∧
    (encode c!"-é.٣").length = 6 ∧ slice (encode c!"-é.٣") 1 3 = some (encode c!"é") ∧ slice (encode c!"-é.٣") 1 2 = none := by
  decide +kernel

/-- The checks matter: 20 digits, of which the first 19 fit. -/
example : unsignedFromStr 64 (encode c!"18446744073709551615") = some 18446744073709551615 ∧
    unsignedFromStr 64 (encode c!"18446744073709551616") = none ∧ unsignedFromStr 64 (encode c!"+7") = some 7 ∧
    unsignedFromStr 64 (encode c!"+") = none ∧ signedFromStr 8 (encode c!"-128") = some (-128) ∧
    signedFromStr 8 (encode c!"128") = none := by
  decide +kernel

end Verif.Props
