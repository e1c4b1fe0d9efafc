import Verif.Spec.Zond

/-! Specification vocabulary for C90: two windows on one grid of cells. -/

namespace Verif.Spec
open Verif

/-- The window `ws` (`R`×`C` cells) is made of whole cells of the larger window `ws'` (`R'`×`C'` cells): the cells have the same size, and its
left top cell is cell `(k, l)` of the larger window. -/
structure Aligned (ws ws' : Workspace) (R C R' C' k l : Nat) : Prop where
  width : wsW ws * C' = wsW ws' * C
  height : wsH ws * R' = wsH ws' * R
  left : (ws.leftTop.x - ws'.leftTop.x) * C = l * wsW ws
  top : (ws'.leftTop.y - ws.leftTop.y) * R = k * wsH ws
  cols : l + C ≤ C'
  rows : k + R ≤ R'

/-- One axis, positions in cells of the smaller window: cell `j` is the last of its `n` cells but the larger window (`n'` cells, of which `l` are
before the smaller one) goes on; the rectangle begins (at `b`) before the cell and ends (at `e`) in its first half, more than `t` before the
centre. -/
def Rim (b e t : ℚ) (n n' l j : Nat) : Prop :=
  j + 1 = n ∧ l + n < n' ∧ b < j ∧ (j : ℚ) ≤ e ∧ e + t < j + 1 / 2

end Verif.Spec
