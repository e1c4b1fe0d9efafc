import Mathlib.Data.Int.Log
import Mathlib.Data.Rat.Floor

/-!
IEEE-754 binary64 rounding on rationals (round to nearest, ties to even), the rounding applied to every
`double` operation of the modelled code (x86-64 SSE2 / ARM64 default mode).

Not modelled: overflow to infinity and subnormals (the exponent is unbounded); C82 proves that no modelled
computation comes near either limit.
-/

namespace Verif.Ieee

/-- Round to the nearest integer, ties to even. -/
def roundEven (x : ℚ) : ℤ :=
  if x - ⌊x⌋ < 1 / 2 then ⌊x⌋
  else if 1 / 2 < x - ⌊x⌋ then ⌊x⌋ + 1
  else if ⌊x⌋ % 2 = 0 then ⌊x⌋ else ⌊x⌋ + 1

/-- Unit in the last place of the binade of `q`: `2^(e-52)` for `2^e ≤ |q| < 2^(e+1)`. -/
def ulp (q : ℚ) : ℚ := 2 ^ (Int.log 2 |q| - 52)

/-- binary64 rounding -/
def rne (q : ℚ) : ℚ := if q = 0 then 0 else roundEven (q / ulp q) * ulp q

/-- What the proofs use about rounding. -/
structure Rounding (rnd : ℚ → ℚ) : Prop where
  mono : ∀ x y, x ≤ y → rnd x ≤ rnd y
  relErr : ∀ x, |rnd x - x| ≤ |x| / 2 ^ 53
  /-- numbers with at most 53 significant bits are exact -/
  exact : ∀ (k : ℤ) (e : ℤ), |k| ≤ 2 ^ 53 → rnd (k * 2 ^ e) = k * 2 ^ e

end Verif.Ieee
