import Verif.Spec.Similar

/-! Specification vocabulary for C91: the area that rectangles cover in a window. -/

namespace Verif.Spec.Client
open Verif Spec

/-- The rectangle contains the unit square of the window in row `p.1` (from the top) and column `p.2` (from the left); corners are integers. -/
def HasUnit (mn mx : Coord) (r : Msk.Rect) (p : Nat × Nat) : Prop :=
  r.x ≤ mn.x + p.2 ∧ mn.x + p.2 + 1 ≤ r.x + r.w ∧ r.y ≤ mx.y - p.1 - 1 ∧ mx.y - p.1 ≤ r.y + r.h

instance (mn mx : Coord) (r : Msk.Rect) (p : Nat × Nat) : Decidable (HasUnit mn mx r p) := by unfold HasUnit; infer_instance

/-- all unit squares of the window -/
def units (mn mx : Coord) : Finset (Nat × Nat) := cells (mx.y - mn.y).toNat (mx.x - mn.x).toNat

/-- the fraction of the window that the rectangles cover together -/
def coveredArea (mn mx : Coord) (rs : List Msk.Rect) : ℚ :=
  (((units mn mx).filter fun p => ∃ r ∈ rs, HasUnit mn mx r p).card : ℚ) / (units mn mx).card

/-- the fraction of the window that is covered by the rectangles of exactly one of the two lists -/
def differingArea (mn mx : Coord) (rs rs' : List Msk.Rect) : ℚ :=
  (((units mn mx).filter fun p => ¬ ((∃ r ∈ rs, HasUnit mn mx r p) ↔ ∃ r ∈ rs', HasUnit mn mx r p)).card : ℚ) / (units mn mx).card

instance (mn mx : Coord) (r : Msk.Rect) : Decidable (Meets mn mx r) := by unfold Meets; infer_instance

/-- the rectangles of layer `n` that have a point in common with the window -/
def visible (mn mx : Coord) (n : Int) (rs : List (Msk.Rect × Int)) : List Msk.Rect :=
  (rs.filter fun q => q.2 = n ∧ Meets mn mx q.1).map Prod.fst

/-- the two rectangles have no inner point in common -/
def Apart (r r' : Msk.Rect) : Prop := r.x + r.w ≤ r'.x ∨ r'.x + r'.w ≤ r.x ∨ r.y + r.h ≤ r'.y ∨ r'.y + r'.h ≤ r.y

/-- a number that depends on the layout and the window, not on the grid: per rectangle, its width and height as fractions of the window plus 6,
times 4 -/
def roughness (mn mx : Coord) (rs : List Msk.Rect) : ℚ :=
  (rs.map fun r => 4 * ((r.w : ℚ) / ((mx.x - mn.x : Int) : ℚ) + (r.h : ℚ) / ((mx.y - mn.y : Int) : ℚ) + 6)).sum

end Verif.Spec.Client
