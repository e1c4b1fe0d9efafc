import Verif.Spec.Enlarge

/-! Specification vocabulary for C87: a rectangle cut in two by a line parallel to an axis.  Positions are in cells. -/

namespace Verif.Spec
open Verif

/-- The rectangle begins (at `b`) before cell `j - 1`, the cut (at `x`) is in the second half of that cell, the rectangle ends (at `e`) in the
first half of cell `j`, more than `t` before its centre, and `j` is not the last of the `n` cells. -/
def Gains (b x e t : ℚ) (n j : Nat) : Prop :=
  b < (j : ℚ) - 1 ∧ ((j : ℚ) - 1 / 2 ≤ x ∧ x < j) ∧ ((j : ℚ) ≤ e ∧ e + t < j + 1 / 2) ∧ j + 1 < n

/-- The rectangle begins (at `b`) before cell `j - 1`, the cut (at `x`) is in the first half of that cell and the rectangle ends (at `e`) in its
second half. -/
def Loses (b x e : ℚ) (j : Nat) : Prop :=
  b < (j : ℚ) - 1 ∧ ((j : ℚ) - 1 ≤ x ∧ x < j - 1 / 2) ∧ ((j : ℚ) - 1 / 2 ≤ e ∧ e < j)

end Verif.Spec
