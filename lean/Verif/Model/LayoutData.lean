import Verif.Model.Geometry

/-!
Model of the containers of `src/Common/Include/LayoutData.hpp` (geometries, elements and layers are in
`Model/Geometry.lean`).
-/

namespace Verif

/-- `struct Library`, Include/LayoutData.hpp:111-131.  `units` is the pair (`user`,
`physical`), initially the doubles `0.001` and `1e-9`.
`elements` holds pointers: addresses into an `Elements` heap (`none` = null pointer). -/
structure Library where
  name : List UInt8 := []
  units : Fl × Fl := (.fin (1152921504606847 / 1152921504606846976), .fin (4835703278458517 / 4835703278458516698824704))
  elements : List (Option Nat) := []
  layers : List Layer := []
  min : Coord := ⟨0, 0⟩
  max : Coord := ⟨0, 0⟩
deriving DecidableEq, Repr

/-- `enum class LayoutFileFormat`, Include/LayoutData.hpp:133-142. -/
inductive FileFormat where
  | undefined | gdsiiBin | gdsiiAscii | msk | cif | dxf | oasis | openAccess
deriving DecidableEq, Repr

/-- `struct LayoutData`, Include/LayoutData.hpp:144-156.  A `Library*` is `Option Library` (`none` = null pointer),
a wide character a natural number.  `fileFormat` has no initialiser in the code; theorems quantify over it. -/
structure LayoutData where
  libraries : List (Option Library) := []
  fileName : List Nat := []
  fileFormat : FileFormat := .undefined
deriving DecidableEq, Repr

end Verif
