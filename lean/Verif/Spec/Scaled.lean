import Verif.Spec.Moved
import Verif.Spec.ZondClear

/-! Specification vocabulary for C80: a layout and its window stretched by integer factors, `k` in x and `l` in y. -/

namespace Verif.Spec

/-- the stretched point -/
def scalePt (k l : Int) (c : Coord) : Coord := ⟨k * c.x, l * c.y⟩

/-- the stretched geometry: all its points and its bounding box -/
def scaleGeom (k l : Int) (g : Geometry) : Geometry :=
  { g with coords := g.coords.map (scalePt k l), min := scalePt k l g.min, max := scalePt k l g.max }

/-- all geometries of a layer stretched -/
def scaleLayer (k l : Int) (y : Layer) : Layer := { y with geometries := y.geometries.map (Option.map (scaleGeom k l)) }

/-- all layers of a library stretched -/
def scaleLib (k l : Int) (y : Library) : Library := { y with layers := y.layers.map (scaleLayer k l) }

/-- the window stretched -/
def scaleWs (k l : Int) (w : Workspace) : Workspace := ⟨scalePt k l w.leftTop, scalePt k l w.rightBot⟩

/-- A rectangle whose drawing into an `R`×`C` bitmap of the window does not depend on rounding: its corners are in order and
not further than 2³⁰ cells away, and either it starts inside the window and its sides keep off the lines, or it sticks out at
the left or the top and its sides keep off the centres of the border cells. -/
structure PlainRect (ws : Workspace) (R C : Nat) (lt rb : Coord) : Prop where
  width : lt.x ≤ rb.x
  height : rb.y ≤ lt.y
  far_x : colOf ws C rb.x ≤ 1073741824
  far_y : rowOf ws R rb.y ≤ 1073741824
  clear : (ws.leftTop.x ≤ lt.x ∧ lt.y ≤ ws.leftTop.y ∧ SidesClear ws R C lt rb) ∨
    ((lt.x < ws.leftTop.x ∨ ws.leftTop.y < lt.y) ∧ ClearOfCentres ws R C lt rb)

end Verif.Spec
