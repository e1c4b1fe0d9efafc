import Verif.Spec.Generator

/-! Specification vocabulary for C65: moving a layout and its window together. -/

namespace Verif.Spec

/-- the point moved by `v` -/
def movePt (v c : Coord) : Coord := ⟨c.x + v.x, c.y + v.y⟩

/-- the geometry moved by `v`: all its points and its bounding box -/
def moveGeom (v : Coord) (g : Geometry) : Geometry :=
  { g with coords := g.coords.map (movePt v), min := movePt v g.min, max := movePt v g.max }

/-- all geometries of a layer moved -/
def moveLayer (v : Coord) (l : Layer) : Layer := { l with geometries := l.geometries.map (Option.map (moveGeom v)) }

/-- all layers of a library moved -/
def moveLib (v : Coord) (l : Library) : Library := { l with layers := l.layers.map (moveLayer v) }

/-- the window moved -/
def moveWs (v : Coord) (w : Workspace) : Workspace := ⟨movePt v w.leftTop, movePt v w.rightBot⟩

/-- layouts without paths and references in their layers -/
def ShapesOnly (L : LayoutData) : Prop :=
  ∀ lib l p, some lib ∈ L.libraries → l ∈ lib.layers → some p ∈ l.geometries → p.type ≠ .path ∧ p.type ≠ .reference

/-- no side of the rectangle is within a thousandth of a cell of the line through the centres of the first or the last
column (row) -/
def ClearOfCentres (ws : Workspace) (R C : Nat) (lt rb : Coord) : Prop :=
  (1 / 1000) * ((wsW ws : ℚ) / C) ≤ |(lt.x : ℚ) - centreX ws C 0| ∧
  (1 / 1000) * ((wsW ws : ℚ) / C) ≤ |(rb.x : ℚ) - centreX ws C (C - 1)| ∧
  (1 / 1000) * ((wsH ws : ℚ) / R) ≤ |(lt.y : ℚ) - centreY ws R 0| ∧
  (1 / 1000) * ((wsH ws : ℚ) / R) ≤ |(rb.y : ℚ) - centreY ws R (R - 1)|

end Verif.Spec
