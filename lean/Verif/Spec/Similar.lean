import Verif.Spec.Client
import Verif.Spec.BitMatrixRatio

/-! Specification vocabulary for C71: layouts whose rectangles differ a little. -/

namespace Verif.Spec.Client
open Verif Spec

/-- `x` and `y` differ by at most `d` -/
def Within (d : ℚ) (x y : Int) : Prop := (x : ℚ) ≤ y + d ∧ (y : ℚ) ≤ x + d

/-- each side of the second rectangle is at most `δ` cells away from that side of the first one, in an `R × C` grid on the
window from `mn` to `mx` -/
structure CloseRect (mn mx : Coord) (R C : Nat) (δ : ℚ) (r r' : Msk.Rect) : Prop where
  left : Within (δ * (((mx.x - mn.x : Int) : ℚ) / C)) r.x r'.x
  right : Within (δ * (((mx.x - mn.x : Int) : ℚ) / C)) (r.x + r.w) (r'.x + r'.w)
  bottom : Within (δ * (((mx.y - mn.y : Int) : ℚ) / R)) r.y r'.y
  top : Within (δ * (((mx.y - mn.y : Int) : ℚ) / R)) (r.y + r.h) (r'.y + r'.h)

end Verif.Spec.Client

namespace Verif.Spec.Client
open Verif Spec

/-- a bound on the number of cells along the rim of a rectangle that a displacement of its sides by `δ` cells can change: a strip of
`2δ + 4` cells along each pair of sides, whose lengths are measured in cells -/
def rimCells (mn mx : Coord) (R C : Nat) (δ : ℚ) (r : Msk.Rect) : ℚ :=
  (2 * δ + 4) * ((r.w : ℚ) / (((mx.x - mn.x : Int) : ℚ) / C) + (r.h : ℚ) / (((mx.y - mn.y : Int) : ℚ) / R) + 4 * δ + 6)

end Verif.Spec.Client
