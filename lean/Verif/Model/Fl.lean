import Verif.Base
import Verif.Model.Ieee

/-!
`double` values with both infinities and NaN.  Finite results are rounded by the parameter `rnd`
(`Ieee.rne` for binary64).  Overflow, subnormals (see C82) and the sign of zero are not modelled; a zero
divisor counts as `+0.0`.
-/

namespace Verif

inductive Fl where
  | nan
  | pinf
  | ninf
  | fin (q : ℚ)
deriving DecidableEq, Repr

namespace Fl

def neg : Fl → Fl
  | nan => nan
  | pinf => ninf
  | ninf => pinf
  | fin q => fin (-q)

/-- `a + b` -/
def add (rnd : ℚ → ℚ) : Fl → Fl → Fl
  | fin a, fin b => fin (rnd (a + b))
  | nan, _ => nan
  | _, nan => nan
  | pinf, ninf => nan
  | ninf, pinf => nan
  | pinf, _ => pinf
  | _, pinf => pinf
  | ninf, _ => ninf
  | _, ninf => ninf

/-- `a - b` -/
def sub (rnd : ℚ → ℚ) (a b : Fl) : Fl :=
  match a, b with
  | fin a, fin b => fin (rnd (a - b))
  | a, b => add rnd a (neg b)

/-- an infinity with the sign of `q` -/
def infOf (q : ℚ) : Fl := if 0 < q then pinf else if q < 0 then ninf else nan

/-- `a * b` -/
def mul (rnd : ℚ → ℚ) : Fl → Fl → Fl
  | fin a, fin b => fin (rnd (a * b))
  | nan, _ => nan
  | _, nan => nan
  | pinf, pinf => pinf
  | pinf, ninf => ninf
  | ninf, pinf => ninf
  | ninf, ninf => pinf
  | pinf, fin q => infOf q
  | fin q, pinf => infOf q
  | ninf, fin q => infOf (-q)
  | fin q, ninf => infOf (-q)

/-- `a / b` -/
def div (rnd : ℚ → ℚ) : Fl → Fl → Fl
  | fin a, fin b => if b = 0 then infOf a else fin (rnd (a / b))
  | nan, _ => nan
  | _, nan => nan
  | pinf, fin b => if b < 0 then ninf else pinf
  | ninf, fin b => if b < 0 then pinf else ninf
  | fin _, pinf => fin 0
  | fin _, ninf => fin 0
  | pinf, pinf => nan
  | pinf, ninf => nan
  | ninf, pinf => nan
  | ninf, ninf => nan

/-- `a < b` (false for NaN) -/
def lt : Fl → Fl → Bool
  | fin a, fin b => decide (a < b)
  | nan, _ => false
  | _, nan => false
  | ninf, ninf => false
  | ninf, _ => true
  | _, ninf => false
  | pinf, _ => false
  | _, pinf => true

/-- `a <= b` (false for NaN) -/
def le : Fl → Fl → Bool
  | fin a, fin b => decide (a ≤ b)
  | nan, _ => false
  | _, nan => false
  | ninf, _ => true
  | _, ninf => false
  | _, pinf => true
  | pinf, _ => false

/-- integer part, towards zero -/
def truncQ (q : ℚ) : ℤ := if 0 ≤ q then ⌊q⌋ else ⌈q⌉

/-- nearest integer, halves away from zero -/
def roundQ (q : ℚ) : ℤ := if 0 ≤ q then ⌊q + 1 / 2⌋ else ⌈q - 1 / 2⌉

/-- `std::trunc` (integers below 2^53 are exact) -/
def trunc : Fl → Fl
  | fin q => fin (truncQ q)
  | x => x

/-- `round` -/
def round : Fl → Fl
  | fin q => fin (roundQ q)
  | x => x

/-- `static_cast<int32_t>(x)`: UB when the integer part does not fit -/
def toI32 : Fl → Res Int
  | fin q => if -2147483648 ≤ truncQ q ∧ truncQ q ≤ 2147483647 then .ok (truncQ q) else .ub
  | _ => .ub

/-- `static_cast<size_t>(x)`: UB when the integer part does not fit -/
def toSize : Fl → Res Nat
  | fin q => if 0 ≤ truncQ q ∧ truncQ q < 18446744073709551616 then .ok (truncQ q).toNat else .ub
  | _ => .ub

/-- conversion of an integer to `double` -/
def ofInt (rnd : ℚ → ℚ) (n : Int) : Fl := fin (rnd n)

end Fl
end Verif
