import Verif.Spec.Zond

/-! Specification vocabulary for C73: a rasteriser that draws into a part of the bitmap. -/

namespace Verif.Spec

/-- the rasteriser is set up for the `R` rows from `i0` on and the `C` columns from `j0` on of a bitmap, which are to show the
window `ws` -/
structure PartSetUp (rnd : ℚ → ℚ) (z : Zond) (ws : Workspace) (i0 R j0 C : Nat) (ep : ℚ) : Prop where
  bound : z.bound = ⟨i0, i0 + R - 1, j0, j0 + C - 1⟩
  wks : z.ws = ws
  dx : z.dx = .fin (rnd ((wsW ws : ℚ) / C))
  dy : z.dy = .fin (rnd ((wsH ws : ℚ) / R))
  eps : z.eps = .fin ep
  rpos : 0 < R
  cpos : 0 < C
  rmax : i0 + R ≤ 2147483647
  cmax : j0 + C ≤ 2147483647
  wpos : 0 < wsW ws
  hpos : 0 < wsH ws

/-- One axis of such a part that begins at index `f` and has `n` cells: cell `r` of the part (index `f + r` of the bitmap) is
drawn if it would be drawn in a grid of `f + n` cells (`AxisCell`), but if the rectangle begins before `f` *cells of the part* and
is longer than a cell, only from `r = f` on: the begin index is counted twice. -/
def PartCell (b e t : ℚ) (f n r : Nat) : Prop :=
  AxisCell b e t (f + n) r ∧ (⌊b⌋ ≠ ⌊e⌋ → b ≤ f → f ≤ r)

/-- the rectangle contains all centres of the part, and `ep` cells more -/
def CoversCentres (ws : Workspace) (R C : Nat) (ep : ℚ) (lt rb : Coord) : Prop :=
  (lt.x + ep * ((wsW ws : ℚ) / C) ≤ centreX ws C 0 ∧ centreX ws C (C - 1) + ep * ((wsW ws : ℚ) / C) ≤ rb.x) ∧
  (centreY ws R 0 + ep * ((wsH ws : ℚ) / R) ≤ lt.y ∧ rb.y + ep * ((wsH ws : ℚ) / R) ≤ centreY ws R (R - 1))

end Verif.Spec
