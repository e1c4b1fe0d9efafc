import Verif.Spec.Zond

/-! Specification vocabulary for C94: one window, drawn with a finer grid. -/

namespace Verif.Spec
open Verif

/-- The cell of a grid that is `2q+1` times as fine whose centre is the centre of cell `j`: cell `j` consists of `2q+1` cells of the finer grid,
and this is the middle one. -/
def middle (q j : Nat) : Nat := (2 * q + 1) * j + q

/-- One axis, positions in cells: the rectangle ends (at `e`) within one cell before the centre of cell `j`. -/
def EndsBefore (e : ℚ) (j : Nat) : Prop := (j : ℚ) - 1 / 2 ≤ e ∧ e < j + 1 / 2

end Verif.Spec
