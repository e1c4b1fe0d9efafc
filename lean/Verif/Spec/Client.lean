import Verif.Spec.Generator
import Verif.Spec.Msk

/-! Specification vocabulary for C62: a file of rectangles and the bitmaps of its layers. -/

namespace Verif.Spec.Client
open Verif Spec

/-- left top and right bottom corner of a rectangle of the file -/
def lt (r : Msk.Rect) : Coord := ⟨r.x, r.y + r.h⟩
def rb (r : Msk.Rect) : Coord := ⟨r.x + r.w, r.y⟩

/-- the rectangle and the window from `mn` (left bottom) to `mx` (right top) have a point in common -/
def Meets (mn mx : Coord) (r : Msk.Rect) : Prop :=
  r.x ≤ mx.x ∧ mn.x ≤ r.x + r.w ∧ r.y ≤ mx.y ∧ mn.y ≤ r.y + r.h

/-- the rectangle contains the window -/
def Covers (mn mx : Coord) (r : Msk.Rect) : Prop :=
  r.x ≤ mn.x ∧ mx.x ≤ r.x + r.w ∧ r.y ≤ mn.y ∧ mx.y ≤ r.y + r.h

/-- the rectangle starts inside the window (it may stick out to the right and to the bottom), and its far corner
is at most 2^30 cells away -/
structure StartsInside (mn mx : Coord) (R C : Nat) (r : Msk.Rect) : Prop where
  left : mn.x ≤ r.x
  top : r.y + r.h ≤ mx.y
  xfit : inI32 (r.x + r.w - mn.x)
  yfit : inI32 (mx.y - r.y)
  cols : (r.x + r.w - mn.x) * C ≤ 1073741824 * (mx.x - mn.x)
  rows : (mx.y - r.y) * R ≤ 1073741824 * (mx.y - mn.y)

/-- the window as the library's workspace: left top and right bottom corner -/
def window (mn mx : Coord) : Workspace := ⟨⟨mn.x, mx.y⟩, ⟨mx.x, mn.y⟩⟩

/-- The bitmap shows the rectangles: every cell whose centre lies in one of them is on, and every cell that is
on overlaps one of them after it was extended by half a cell to the right and to the bottom. -/
structure Shows (mn mx : Coord) (R C : Nat) (rs : List Msk.Rect) (m : BitMatrix) : Prop where
  rows : m.isize = R
  cols : m.jsize = C
  covered : ∀ i j, i < R → j < C →
    (∃ r ∈ rs, InRect (lt r) (rb r) (centreX (window mn mx) C j) (centreY (window mn mx) R i)) → Lit m i j
  near : ∀ i j, Lit m i j → ∃ r ∈ rs, NearRect (window mn mx) R C (lt r) (rb r) i j

end Verif.Spec.Client
