import Verif.Model.LayoutData

/-!
Specification vocabulary for C58: who owns what in a layout.
-/

namespace Verif.Spec.Layout
open Verif

/-- the element pointers of a layout that are not null, in order -/
def pointers (data : LayoutData) : List Nat :=
  data.libraries.flatMap fun l => match l with
    | none => []
    | some l => l.elements.filterMap id

/-- a layout owns its elements: no element is listed twice, and each exists -/
def Owns (live : Nat → Bool) (data : LayoutData) : Prop := (pointers data).Nodup ∧ ∀ a ∈ pointers data, live a = true

/-- an element of the layout holds a geometry (an object of a class derived from `Geometry`) -/
def HasGeometry (heap : Elements) (data : LayoutData) : Prop :=
  ∃ a ∈ pointers data, ∃ g, some g ∈ (heap a).geometries ∧ g.type ≠ .undefined

end Verif.Spec.Layout
