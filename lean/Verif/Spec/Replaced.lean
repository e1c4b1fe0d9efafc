import Verif.Spec.Generator

/-! Specification vocabulary for C101: a layout in which geometries were replaced. -/

namespace Verif.Spec

/-- a layer with every geometry `g` replaced by the list `f g`, in place -/
def replacedLayer (f : Geometry → List Geometry) (l : Layer) : Layer :=
  { l with geometries := l.geometries.flatMap fun o => match o with
      | none => [none]
      | some g => (f g).map some }

/-- a layout with every geometry of every layer replaced, in place -/
def replacedLayout (f : Geometry → List Geometry) (L : LayoutData) : LayoutData :=
  { L with libraries := L.libraries.map fun lib => lib.map fun lib => { lib with layers := lib.layers.map (replacedLayer f) } }

/-- paths are deleted, everything else stays -/
def withoutPath (g : Geometry) : List Geometry := if g.type = .path then [] else [g]

open Classical in
/-- What a path amounts to: with at least two points and a box that touches the window, the rectangle of size zero at the origin; otherwise nothing.
Everything else stays. -/
noncomputable def pathAtOrigin (ws : Workspace) (g : Geometry) : List Geometry :=
  if g.type = .path then (if Touches ws g ∧ 2 ≤ g.coords.length then [originRect g.layer] else []) else [g]

end Verif.Spec

namespace Verif.Spec

open Classical in
/-- What is ever seen of a geometry, as rectangles: a rectangle itself; a path of at least two points whose box touches the window the rectangle
of size zero at the origin; a reference whose box touches the window the rectangles among the geometries `flat` lists for it; of anything else nothing. -/
noncomputable def rectanglesOf (ws : Workspace) (flat : Geometry → List Geometry) (p : Geometry) : List Geometry :=
  match p.type with
  | .rectangle => [p]
  | .path => if Touches ws p ∧ 2 ≤ p.coords.length then [originRect p.layer] else []
  | .reference => if Touches ws p then (flat p).filter fun s => s.type = .rectangle else []
  | .polygon | .text | .undefined => []

end Verif.Spec
