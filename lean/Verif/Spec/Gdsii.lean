import Mathlib.Data.Rat.Floor

/-!
Specification vocabulary for C44 and C45: the number formats of GDSII files.
-/

namespace Verif.Spec.Gdsii

/-- two's complement value of an `n`-bit number -/
def signed (n : Nat) (v : Nat) : Int := if v < 2 ^ (n - 1) then v else (v : Int) - 2 ^ n

/-- the number with the given bytes, most significant first -/
def bigEndian (bs : List UInt8) : Nat := bs.foldl (fun a b => 256 * a + b.toNat) 0

/-- the value of an eight-byte real: sign bit, seven bits of exponent (base 16, excess 64), 56 bits of mantissa
after the point -/
def realValue (b0 : UInt8) (mantissa : List UInt8) : ℚ :=
  (if 128 ≤ b0.toNat then -1 else 1) * ((bigEndian mantissa : ℚ) / 2 ^ 56) * (16 : ℚ) ^ ((b0.toNat % 128 : Int) - 64)

/-- `q` is a number with at most 53 significant bits -/
def Is53 (q : ℚ) : Prop := ∃ k e : Int, |k| ≤ 2 ^ 53 ∧ q = k * (2 : ℚ) ^ e

/-- `q` is plus or minus a power of 16 -/
def PowerOf16 (q : ℚ) : Prop := ∃ n : Int, |q| = (16 : ℚ) ^ n

end Verif.Spec.Gdsii
