import Verif.Spec.Generator
import Verif.Spec.Zond

/-! Specification vocabulary for C76: a layout reflected in a falling diagonal, (x, y) ↦ (-y, -x). -/

namespace Verif.Spec

/-- the reflected point -/
def flipPt (c : Coord) : Coord := ⟨-c.y, -c.x⟩

/-- the reflected geometry: all its points in the same order, and its bounding box -/
def flipGeom (g : Geometry) : Geometry :=
  { g with coords := g.coords.map flipPt, min := flipPt g.max, max := flipPt g.min }

/-- all geometries of a layer reflected -/
def flipLayer (l : Layer) : Layer := { l with geometries := l.geometries.map (Option.map flipGeom) }

/-- all layers of a library reflected -/
def flipLib (l : Library) : Library := { l with layers := l.layers.map flipLayer }

/-- the window reflected: its left top corner becomes the left top corner -/
def flipWs (w : Workspace) : Workspace := ⟨flipPt w.leftTop, flipPt w.rightBot⟩

/-- the settings of a rasteriser reflected: rows become columns -/
def flipZond (z : Zond) : Zond :=
  { bound := ⟨z.bound.jBegin, z.bound.jEnd, z.bound.iBegin, z.bound.iEnd⟩, ws := flipWs z.ws, dx := z.dy, dy := z.dx, eps := z.eps }

/-- the second bitmap is the first with rows and columns exchanged -/
structure Transposed (m m' : BitMatrix) : Prop where
  rows : m'.isize = m.jsize
  cols : m'.jsize = m.isize
  bits : ∀ i j, BitMatrix.get m' j i = .ok true ↔ BitMatrix.get m i j = .ok true

end Verif.Spec
