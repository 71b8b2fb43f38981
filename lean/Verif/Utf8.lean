import Verif.Chars

/-!
# UTF-8

What `fs::read_to_string` (main.rs:25) does with the bytes of a file, and what `as_bytes` (main.rs:32) gives.
-/

namespace Verif.Utf8
open Verif

abbrev Bytes := List UInt8

/-- A byte from 128 to 191, which continues a character. -/
def cont (b : UInt8) : Bool := 0x80 ≤ b.toNat && b.toNat ≤ 0xBF

/-- Which second bytes are possible after the first of three or four: no character in more bytes than needed, no surrogate,
none above 10FFFF. -/
def second (a b : UInt8) : Bool :=
  if a.toNat = 0xE0 then 0xA0 ≤ b.toNat && b.toNat ≤ 0xBF
  else if a.toNat = 0xED then 0x80 ≤ b.toNat && b.toNat ≤ 0x9F
  else if a.toNat = 0xF0 then 0x90 ≤ b.toNat && b.toNat ≤ 0xBF
  else if a.toNat = 0xF4 then 0x80 ≤ b.toNat && b.toNat ≤ 0x8F
  else cont b

/-- `str::from_utf8` of the standard library, which `fs::read_to_string` (main.rs:25) uses: `none` is the error `InvalidUtf8`
(`InvalidData`). -/
def decode : Bytes → Option Str
  | [] => some []
  | a :: rest =>
    if a.toNat < 0x80 then (decode rest).map (Char.ofNat a.toNat :: ·)
    else if 0xC2 ≤ a.toNat && a.toNat ≤ 0xDF then
      match rest with
      | b :: rest =>
        if cont b then (decode rest).map (Char.ofNat ((a.toNat - 0xC0) * 64 + (b.toNat - 0x80)) :: ·) else none
      | _ => none
    else if 0xE0 ≤ a.toNat && a.toNat ≤ 0xEF then
      match rest with
      | b :: c :: rest =>
        if second a b && cont c then
          (decode rest).map (Char.ofNat ((a.toNat - 0xE0) * 4096 + (b.toNat - 0x80) * 64 + (c.toNat - 0x80)) :: ·)
        else none
      | _ => none
    else if 0xF0 ≤ a.toNat && a.toNat ≤ 0xF4 then
      match rest with
      | b :: c :: d :: rest =>
        if second a b && cont c && cont d then
          (decode rest).map (Char.ofNat ((a.toNat - 0xF0) * 262144 + (b.toNat - 0x80) * 4096 + (c.toNat - 0x80) * 64 +
            (d.toNat - 0x80)) :: ·)
        else none
      | _ => none
    else none

/-- The bytes of a character, by the table of RFC 3629, section 3. -/
def encodeChar (c : Char) : Bytes :=
  let n := c.toNat
  if n < 0x80 then [.ofNat n]
  else if n < 0x800 then [.ofNat (0xC0 + n / 64), .ofNat (0x80 + n % 64)]
  else if n < 0x10000 then [.ofNat (0xE0 + n / 4096), .ofNat (0x80 + n / 64 % 64), .ofNat (0x80 + n % 64)]
  else [.ofNat (0xF0 + n / 262144), .ofNat (0x80 + n / 4096 % 64), .ofNat (0x80 + n / 64 % 64), .ofNat (0x80 + n % 64)]

/-- The bytes of a text: `String::as_bytes` (main.rs:32). -/
def encode (s : Str) : Bytes := s.flatMap encodeChar

end Verif.Utf8
