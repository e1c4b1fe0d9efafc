import Verif.Model.BitMatrix

/-! Specification vocabulary for C11–C14. -/

namespace Verif.Spec

/-- value of a little-endian byte string -/
def leVal : List UInt8 → Nat
  | [] => 0
  | b :: bs => b.toNat + 256 * leVal bs

/-- bit `n` of a byte string, bytes in order, least significant bit of each byte first -/
def lsbBit (p : List UInt8) (n : Nat) : Bool := (p.getD (n / 8) 0).toNat.testBit (n % 8)

end Verif.Spec
