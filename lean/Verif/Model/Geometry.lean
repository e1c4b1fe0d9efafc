import Verif.Model.LayoutMatrix
import Verif.Model.Fl

/-!
Model of `src/Common/Include/LayoutData.hpp` (geometry part) and of 32-bit signed arithmetic.
`struct Coord` is modelled in `Model/LayoutMatrix.lean`.
-/

namespace Verif

/-- Range of `int32_t`. -/
def inI32 (v : Int) : Prop := -2147483648 ≤ v ∧ v ≤ 2147483647

instance (v : Int) : Decidable (inI32 v) := by unfold inI32; infer_instance

/-- Result of an `int` operation: signed overflow is undefined behaviour. -/
def chk32 (v : Int) : Res Int := if inI32 v then .ok v else .ub

/-- `a + b` on `int32_t`. -/
def add32 (a b : Int) : Res Int := chk32 (a + b)

/-- `a - b` on `int32_t`. -/
def sub32 (a b : Int) : Res Int := chk32 (a - b)

/-- `enum class GeometryType`, Include/LayoutData.hpp:23-30. -/
inductive GType where
  | undefined | polygon | path | text | rectangle | reference
deriving DecidableEq, Repr

/-- `struct Geometry` and its subclasses, Include/LayoutData.hpp:32-83, as one record: the field
`width` belongs to `Path`, `element` (the pointer `pElement`, `none` = null) and `refName` to `Reference`,
`dataType` to `Polygon`/`Path`, `rectType` to `Rectangle`, and so on.  The members of the wrong subclass are never
read or written.  A property is its index and value.  Not modelled: `Reference::transformationFlags` (nothing
ever writes or reads it). -/
structure Geometry where
  type : GType
  layer : Int := -1
  coords : List Coord := []
  min : Coord := ⟨-1, -1⟩
  max : Coord := ⟨-1, -1⟩
  dataType : Int := 0
  width : Int := 0
  element : Option Nat := none
  refName : List UInt8 := []
  properties : List (Int × List UInt8) := []
  pathType : Int := 0
  textType : Int := 0
  flagsPresentation : Int := 0
  flagsTransformation : Int := 0
  magnification : Fl := .fin 1
  stringValue : List UInt8 := []
  rectType : Int := 0
deriving DecidableEq, Repr

/-- `struct Element`, Include/LayoutData.hpp:85-101.  A `Geometry*` in a container is `Option Geometry`
(`none` = null pointer). -/
structure Element where
  name : List UInt8 := []
  geometries : List (Option Geometry) := []
  isFlat : Bool := true
  min : Coord := ⟨-1, -1⟩
  max : Coord := ⟨-1, -1⟩
  nested : Bool := false
deriving DecidableEq, Repr

/-- `struct Layer`, Include/LayoutData.hpp:103-108. -/
structure Layer where
  layer : Int
  dataType : Int := 0
  name : List UInt8 := []
  geometries : List (Option Geometry) := []
deriving DecidableEq, Repr

/-- Elements by address: what the pointers `Reference::pElement` point to. -/
abbrev Elements := Nat → Element

end Verif
