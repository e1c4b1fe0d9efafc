import Verif.Model.Zond

/-! Specification vocabulary for rasterisation (C37–C39): a workspace divided into `R`×`C` equal cells, row 0
at the top. -/

namespace Verif.Spec

/-- the caller reads bit 1 at `(i,j)` -/
def Lit (m : BitMatrix) (i j : Nat) : Prop := m.get i j = .ok true

/-- width and height of a workspace -/
def wsW (ws : Workspace) : Int := ws.rightBot.x - ws.leftTop.x
def wsH (ws : Workspace) : Int := ws.leftTop.y - ws.rightBot.y

/-- centre of cell `(i,j)` -/
def centreX (ws : Workspace) (C j : Nat) : ℚ := ws.leftTop.x + (j + 1 / 2) * ((wsW ws : ℚ) / C)
def centreY (ws : Workspace) (R i : Nat) : ℚ := ws.leftTop.y - (i + 1 / 2) * ((wsH ws : ℚ) / R)

/-- the point lies in the closed rectangle with corners `lt` (left top) and `rb` (right bottom) -/
def InRect (lt rb : Coord) (x y : ℚ) : Prop := (lt.x : ℚ) ≤ x ∧ x ≤ rb.x ∧ (rb.y : ℚ) ≤ y ∧ y ≤ lt.y

/-- position of an x (y) coordinate in units of columns (rows) from the left (top) border -/
def colOf (ws : Workspace) (C : Nat) (x : Int) : ℚ := ((x - ws.leftTop.x : Int) : ℚ) / ((wsW ws : ℚ) / C)
def rowOf (ws : Workspace) (R : Nat) (y : Int) : ℚ := ((ws.leftTop.y - y : Int) : ℚ) / ((wsH ws : ℚ) / R)

/-- `g` is a rectangle geometry whose first and third stored points are `lt` and `rb` -/
def RectGeom (g : Geometry) (lt rb : Coord) : Prop :=
  g.type = .rectangle ∧ ∃ q rest, g.coords = lt :: q :: rb :: rest

/-- coordinate differences that are `int` values -/
def DiffsFit (ws : Workspace) (lt rb : Coord) : Prop :=
  inI32 (lt.x - ws.leftTop.x) ∧ inI32 (rb.x - ws.leftTop.x) ∧
  inI32 (ws.leftTop.y - lt.y) ∧ inI32 (ws.leftTop.y - rb.y)

/-- the rasteriser is set up for an `R`×`C` bitmap of the whole workspace, as the generator does it -/
structure SetUp (rnd : ℚ → ℚ) (z : Zond) (ws : Workspace) (R C : Nat) (ep : ℚ) : Prop where
  bound : z.bound = ⟨0, R - 1, 0, C - 1⟩
  wks : z.ws = ws
  dx : z.dx = .fin (rnd ((wsW ws : ℚ) / C))
  dy : z.dy = .fin (rnd ((wsH ws : ℚ) / R))
  eps : z.eps = .fin ep
  rpos : 0 < R
  cpos : 0 < C
  rmax : R ≤ 2147483647
  cmax : C ≤ 2147483647
  wpos : 0 < wsW ws
  hpos : 0 < wsH ws

/-- One axis: begin `b` and end `e` in units of cells, tolerance `t`, `n` cells.  Cell `j` is painted when its
centre is between the ends (up to the tolerance), or at the far end as an overshoot: the cell *after* the
one containing `e` if `e` is in the second half of its cell, or the last cell as soon as `e` reaches its
near border. -/
def AxisCell (b e t : ℚ) (n j : Nat) : Prop :=
  b ≤ j + 1 / 2 + t ∧
  ((j : ℚ) + 1 / 2 ≤ e + t ∨
    (⌊b⌋ ≠ ⌊e⌋ ∧ ((e < (n : ℚ) - 1 ∧ 1 / 2 ≤ e - ⌊e⌋ ∧ (j : ℤ) = ⌊e⌋ + 1) ∨ ((n : ℚ) - 1 ≤ e ∧ j + 1 = n))))

end Verif.Spec

namespace Verif.Spec

/-- The cell overlaps the rectangle after that was extended by half a cell to the right and to the bottom, with
a leeway of a thousandth of a cell for rounding: its centre is at most half a cell left of or above the
rectangle and at most a whole cell right of or below it. -/
def NearRect (ws : Workspace) (R C : Nat) (lt rb : Coord) (i j : Nat) : Prop :=
  (lt.x : ℚ) ≤ centreX ws C j + (1 / 2 + 1 / 1000) * ((wsW ws : ℚ) / C) ∧
  centreX ws C j ≤ rb.x + (1 + 1 / 1000) * ((wsW ws : ℚ) / C) ∧
  centreY ws R i ≤ lt.y + (1 / 2 + 1 / 1000) * ((wsH ws : ℚ) / R) ∧
  (rb.y : ℚ) ≤ centreY ws R i + (1 + 1 / 1000) * ((wsH ws : ℚ) / R)

end Verif.Spec

namespace Verif.Spec

/-- the rectangle misses the centre of some cell by at least a thousandth of a cell -/
def MissesACentre (ws : Workspace) (R C : Nat) (lt rb : Coord) : Prop :=
  ∃ i j, i < R ∧ j < C ∧
    (centreX ws C j + (1 / 1000) * ((wsW ws : ℚ) / C) ≤ lt.x ∨ rb.x + (1 / 1000) * ((wsW ws : ℚ) / C) ≤ centreX ws C j ∨
     lt.y + (1 / 1000) * ((wsH ws : ℚ) / R) ≤ centreY ws R i ∨ centreY ws R i + (1 / 1000) * ((wsH ws : ℚ) / R) ≤ rb.y)

end Verif.Spec
