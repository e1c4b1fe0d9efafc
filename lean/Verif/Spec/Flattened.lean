import Verif.Spec.Generator

/-! Specification vocabulary for C100: a layout whose references were replaced by what they stand for. -/

namespace Verif.Spec

/-- a stored geometry with references replaced: a reference `g` becomes the list `flat g`, everything else stays -/
def flattened (flat : Geometry → List Geometry) : Option Geometry → List (Option Geometry)
  | none => [none]
  | some g => if g.type = .reference then (flat g).map some else [some g]

/-- a layer with references replaced, in place -/
def flattenedLayer (flat : Geometry → List Geometry) (l : Layer) : Layer :=
  { l with geometries := l.geometries.flatMap (flattened flat) }

/-- a layout with the references of all layers replaced, in place -/
def flattenedLayout (flat : Geometry → List Geometry) (L : LayoutData) : LayoutData :=
  { L with libraries := L.libraries.map fun lib => lib.map fun lib => { lib with layers := lib.layers.map (flattenedLayer flat) } }

end Verif.Spec
