/-!
Specification of CRC-32 (ISO-HDLC): the bit-at-a-time shift register, reflected polynomial
`0xEDB88320`, register preset to ones, final complement.
-/

namespace Verif.Spec

/-- shift the register one bit -/
def crcBit (h : Nat) : Nat := if h % 2 = 1 then (h / 2) ^^^ 0xEDB88320 else h / 2

/-- `n` shifts -/
def crcBits : Nat → Nat → Nat
  | 0, h => h
  | n + 1, h => crcBits n (crcBit h)

/-- feed one byte, least significant bit first -/
def crcByte (h : Nat) (b : UInt8) : Nat := crcBits 8 (h ^^^ b.toNat)

/-- CRC-32 of a byte string -/
def crc32 (s : List UInt8) : Nat := (s.foldl crcByte 0xFFFFFFFF) ^^^ 0xFFFFFFFF

/-- bit `k` of a byte string: byte by byte, least significant bit first (false beyond the end) -/
def bitOf (s : List UInt8) (k : Nat) : Bool := (s.getD (k / 8) 0).toNat.testBit (k % 8)

end Verif.Spec
