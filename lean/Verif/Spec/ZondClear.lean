import Verif.Spec.Zond

/-! Specification vocabulary for the exact set of cells in `double` arithmetic (C39) and for scaling (C80). -/

namespace Verif.Spec

/-- The position, in cells, is at least a thousandth of a cell away from every border between cells and from every
centre line. -/
def OffLines (c : ℚ) : Prop := ∀ k : ℤ, 1 / 1000 ≤ |c - k / 2|

/-- Both near sides of the rectangle are on the near border of the window or off the lines; both far sides are off the lines
or on or beyond the far border of the window. -/
def SidesClear (ws : Workspace) (R C : Nat) (lt rb : Coord) : Prop :=
  (lt.x = ws.leftTop.x ∨ OffLines (colOf ws C lt.x)) ∧ (lt.y = ws.leftTop.y ∨ OffLines (rowOf ws R lt.y)) ∧
  (ws.rightBot.x ≤ rb.x ∨ OffLines (colOf ws C rb.x)) ∧ (rb.y ≤ ws.rightBot.y ∨ OffLines (rowOf ws R rb.y))

end Verif.Spec
