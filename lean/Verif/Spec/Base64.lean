import Verif.Spec.Crc32

/-!
Specification of Base64 (RFC 4648): the message read as one big-endian bit string, cut into 6-bit groups.
-/

namespace Verif.Spec

/-- bit `n` of a byte string read big-endian; zero beyond its end -/
def msbBit (s : List UInt8) (n : Nat) : Nat :=
  if (s.getD (n / 8) 0).toNat.testBit (7 - n % 8) then 1 else 0

/-- the `k`-th 6-bit group, zero padded -/
def sextet (s : List UInt8) (k : Nat) : Nat :=
  32 * msbBit s (6 * k) + 16 * msbBit s (6 * k + 1) + 8 * msbBit s (6 * k + 2) +
    4 * msbBit s (6 * k + 3) + 2 * msbBit s (6 * k + 4) + msbBit s (6 * k + 5)

/-- alphabet of RFC 4648, tables 1 (standard) and 2 (url) -/
def alphabet (url : Bool) (v : Nat) : UInt8 :=
  if v < 26 then UInt8.ofNat (65 + v)          -- A-Z
  else if v < 52 then UInt8.ofNat (97 + (v - 26))  -- a-z
  else if v < 62 then UInt8.ofNat (48 + (v - 52))  -- 0-9
  else if v = 62 then (if url then 45 else 43)     -- - or +
  else (if url then 95 else 47)                    -- _ or /

/-- padding character of the library: `=`; `.` for url -/
def padChar (url : Bool) : UInt8 := if url then 46 else 61

/-- a character that some alphabet contains -/
def isAlpha (c : UInt8) : Bool :=
  (65 ≤ c && c ≤ 90) || (97 ≤ c && c ≤ 122) || (48 ≤ c && c ≤ 57) || c == 43 || c == 45 || c == 47 || c == 95

/-- standard Base64 text of a message: the groups that contain message bits, then padding up to a multiple of four -/
def b64Text (s : List UInt8) : List UInt8 :=
  (List.range (4 * ((s.length + 2) / 3))).map fun k => if 6 * k < 8 * s.length then alphabet false (sextet s k) else padChar false

/-- the checksum part of an armored text: the CRC-32 of the body as four bytes, least significant first, in Base64 -/
def checksumText (body : List UInt8) : List UInt8 :=
  b64Text ((List.range 4).map fun k => UInt8.ofNat (crc32 body / 256 ^ k))

/-- The part of a text that its checksum covers: the length is passed on in 32 bits.  All of it below 2³² characters. -/
def covered (body : List UInt8) : List UInt8 := body.take (body.length % 2 ^ 32)

end Verif.Spec
