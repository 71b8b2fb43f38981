import Verif.Utf8
import Mathlib.Tactic.SplitIfs

/-! # Lemmas: UTF-8 -/

namespace Verif.Lemmas
open Verif Utf8

theorem toNat_char (c : Char) : c.toNat < 0xD800 ∨ 0xDFFF < c.toNat ∧ c.toNat < 0x110000 := by
  have := c.valid
  simpa [UInt32.isValidChar, Nat.isValidChar] using this

theorem ofNat_toNat (n : Nat) (h : n < 0xD800 ∨ 0xDFFF < n ∧ n < 0x110000) : (Char.ofNat n).toNat = n := by
  have hv : n.isValidChar := h
  simp [Char.ofNat, hv, Char.toNat, Char.ofNatAux]

theorem byte_ext {a b : UInt8} (h : a.toNat = b.toNat) : a = b := UInt8.toNat_inj.1 h

theorem byte_ofNat (n : Nat) (h : n < 256) : (UInt8.ofNat n).toNat = n := by
  simp [UInt8.toNat_ofNat', Nat.mod_eq_of_lt h]

theorem decode_encodeChar (c : Char) (r : Bytes) : decode (encodeChar c ++ r) = (decode r).map (c :: ·) := by
  have hv := toNat_char c
  have hc : ∀ m, m = c.toNat → Char.ofNat m = c := by rintro _ rfl; exact Char.ofNat_toNat c
  generalize hn : c.toNat = n at hv hc
  unfold encodeChar
  simp only [hn]
  split_ifs with h1 h2 h3
  · rw [List.singleton_append, decode.eq_def]
    dsimp only
    rw [byte_ofNat n (by omega), if_pos h1, hc _ rfl]
  · rw [List.cons_append, List.singleton_append, decode.eq_def]
    dsimp only
    rw [byte_ofNat (0xC0 + n / 64) (by omega), if_neg (by omega),
      if_pos (by simp; omega)]
    simp only [cont, byte_ofNat (0x80 + n % 64) (by omega)]
    rw [if_pos (by simp; omega), hc _ (by omega)]
  · rw [List.cons_append, List.cons_append, List.singleton_append, decode.eq_def]
    dsimp only
    rw [byte_ofNat (0xE0 + n / 4096) (by omega), if_neg (by omega),
      if_neg (by simp; omega), if_pos (by simp; omega)]
    simp only [cont, second, byte_ofNat (0xE0 + n / 4096) (by omega), byte_ofNat (0x80 + n % 64) (by omega), byte_ofNat (0x80 + n / 64 % 64) (by omega)]
    rw [if_pos, hc _ (by omega)]
    split_ifs <;> simp <;> omega
  · rw [List.cons_append, List.cons_append, List.cons_append, List.singleton_append, decode.eq_def]
    dsimp only
    rw [byte_ofNat (0xF0 + n / 262144) (by omega), if_neg (by omega),
      if_neg (by simp; omega), if_neg (by simp; omega), if_pos (by simp; omega)]
    simp only [cont, second, byte_ofNat (0xF0 + n / 262144) (by omega), byte_ofNat (0x80 + n % 64) (by omega), byte_ofNat (0x80 + n / 64 % 64) (by omega),
      byte_ofNat (0x80 + n / 4096 % 64) (by omega)]
    rw [if_pos, hc _ (by omega)]
    split_ifs <;> simp <;> omega

theorem decode_encode (s : Str) : decode (encode s) = some s := by
  induction s with
  | nil => rfl
  | cons c s ih => rw [encode, List.flatMap_cons, decode_encodeChar, ← encode, ih]; rfl

theorem encodeChar_ofNat (n : Nat) (h : n < 0xD800 ∨ 0xDFFF < n ∧ n < 0x110000) (bs : Bytes)
    (e : (if n < 0x80 then [n] else if n < 0x800 then [0xC0 + n / 64, 0x80 + n % 64]
      else if n < 0x10000 then [0xE0 + n / 4096, 0x80 + n / 64 % 64, 0x80 + n % 64]
      else [0xF0 + n / 262144, 0x80 + n / 4096 % 64, 0x80 + n / 64 % 64, 0x80 + n % 64]) = bs.map (·.toNat)) :
    encodeChar (Char.ofNat n) = bs := by
  have hb : bs = (bs.map (·.toNat)).map UInt8.ofNat := by
    clear e
    induction bs with
    | nil => rfl
    | cons x t ih => simp only [List.map_cons, UInt8.ofNat_toNat, ← ih]
  rw [hb, ← e]
  unfold encodeChar
  simp only [ofNat_toNat n h]
  split_ifs <;> rfl

theorem encode_decode (b : Bytes) (s : Str) (h : decode b = some s) : b = encode s := by
  induction hl : b.length using Nat.strongRecOn generalizing b s with
  | _ k ih =>
  cases b with
  | nil => cases h; rfl
  | cons a rest =>
    have step : ∀ (bs : Bytes) (n : Nat) (rest' : Bytes), bs ≠ [] → a :: rest = bs ++ rest' →
        (decode rest').map (Char.ofNat n :: ·) = some s → encodeChar (Char.ofNat n) = bs → a :: rest = encode s := by
      intro bs n rest' hne hb hd he
      cases hr : decode rest' with
      | none => rw [hr] at hd; cases hd
      | some t =>
        rw [hr] at hd
        cases hd
        have hlen : rest'.length < k := by
          have := congrArg List.length hb
          cases bs with
          | nil => exact absurd rfl hne
          | cons x y => simp at this hl; omega
        rw [hb, encode, List.flatMap_cons, he, ← encode, ← ih _ hlen rest' t hr rfl]
    have ha := a.toNat_lt
    rw [decode.eq_def] at h
    dsimp only at h
    split_ifs at h with h1 h2 h3 h4
    · exact step [a] _ rest (by simp) rfl h (encodeChar_ofNat _ (by omega) _ (by simp [h1]))
    · cases rest with
      | nil => cases h
      | cons b rest =>
        simp only [cont] at h h2
        simp only [Bool.and_eq_true, decide_eq_true_eq] at h h2
        split_ifs at h with h5
        refine step [a, b] _ rest (by simp) rfl h (encodeChar_ofNat _ (by omega) _ ?_)
        rw [if_neg (by omega), if_pos (by omega)]
        simp; omega
    · cases rest with
      | nil => cases h
      | cons b rest =>
        cases rest with
        | nil => cases h
        | cons c rest =>
          simp only [cont, second] at h h2 h3
          simp only [Bool.and_eq_true, decide_eq_true_eq] at h h2 h3
          split_ifs at h <;> simp only [Bool.and_eq_true, decide_eq_true_eq] at * <;>
          (refine step [a, b, c] _ rest (by simp) rfl h (encodeChar_ofNat _ (by omega) _ ?_)
           rw [if_neg (by omega), if_neg (by omega), if_pos (by omega)]
           simp; omega)
    · cases rest with
      | nil => cases h
      | cons b rest =>
        cases rest with
        | nil => cases h
        | cons c rest =>
          cases rest with
          | nil => cases h
          | cons d rest =>
            simp only [cont, second] at h h2 h3 h4
            simp only [Bool.and_eq_true, decide_eq_true_eq] at h h2 h3 h4
            split_ifs at h <;> simp only [Bool.and_eq_true, decide_eq_true_eq] at * <;>
            (refine step [a, b, c, d] _ rest (by simp) rfl h (encodeChar_ofNat _ (by omega) _ ?_)
             rw [if_neg (by omega), if_neg (by omega), if_neg (by omega)]
             simp; omega)

theorem encodeChar_core (c : Char) : encodeChar c = String.utf8EncodeChar c := by
  have hv := toNat_char c
  unfold encodeChar String.utf8EncodeChar
  change _ = (let n := c.toNat; _)
  have e : c.val.toNat = c.toNat := rfl
  simp only [e]
  generalize c.toNat = n at hv
  split_ifs <;> first | omega | rfl | skip
  · rw [Nat.mod_eq_of_lt (show n / 64 < 32 by omega), Nat.add_comm, Nat.add_comm (n % 64)]
  · rw [Nat.mod_eq_of_lt (show n / 4096 < 16 by omega), Nat.add_comm, Nat.add_comm (n % 64), Nat.add_comm (n / 64 % 64)]
  · rw [Nat.mod_eq_of_lt (show n / 262144 < 8 by omega), Nat.add_comm, Nat.add_comm (n % 64), Nat.add_comm (n / 64 % 64),
      Nat.add_comm (n / 4096 % 64)]

end Verif.Lemmas
