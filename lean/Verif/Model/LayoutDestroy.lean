import Verif.Model.LayoutData

/-!
Model of the destructors of `src/Common/Include/LayoutData.hpp`.

Elements live at addresses; `live` says which of them have been allocated and not yet deleted.  Libraries and geometries
are owned by exactly one container in this model (they are values there), elements need not be.
-/

namespace Verif.Layout
open Verif

/-- `delete geometries[i]`, Include/LayoutData.hpp:97: the static type is `Geometry`, which has no virtual destructor, so
deleting an object of a derived class is undefined behaviour (`strict`); compilers merely run the wrong destructor.
Deleting a null pointer does nothing. -/
def deleteGeometry (strict : Bool) : Option Geometry → Res Unit
  | none => .ok ()
  | some g => if strict ∧ g.type ≠ .undefined then .ub else .ok ()

/-- The loop of `~Element`, Include/LayoutData.hpp:95-101. -/
def deleteGeometries (strict : Bool) : List (Option Geometry) → Res Unit
  | [] => .ok ()
  | g :: gs => do
    deleteGeometry strict g
    deleteGeometries strict gs

/-- `delete elements[i]`, Include/LayoutData.hpp:125: nothing for a null pointer, undefined for an element that is not
there (any more). -/
def deleteElement (strict : Bool) (heap : Elements) (live : Nat → Bool) : Option Nat → Res (Nat → Bool)
  | none => .ok live
  | some a =>
    if live a then do
      deleteGeometries strict (heap a).geometries
      pure fun b => if b = a then false else live b
    else .ub

/-- The loop of `~Library`, Include/LayoutData.hpp:123-130. -/
def deleteElements (strict : Bool) (heap : Elements) : List (Option Nat) → (Nat → Bool) → Res (Nat → Bool)
  | [], live => .ok live
  | e :: es, live => do
    let live ← deleteElement strict heap live e
    deleteElements strict heap es live

/-- The loop of `~LayoutData`, Include/LayoutData.hpp:149-155. -/
def deleteLibraries (strict : Bool) (heap : Elements) : List (Option Library) → (Nat → Bool) → Res (Nat → Bool)
  | [], live => .ok live
  | none :: ls, live => deleteLibraries strict heap ls live
  | some l :: ls, live => do
    let live ← deleteElements strict heap l.elements live
    deleteLibraries strict heap ls live

/-- `~LayoutData`, Include/LayoutData.hpp:149-155: which elements are still there afterwards. -/
def destroy (strict : Bool) (heap : Elements) (live : Nat → Bool) (data : LayoutData) : Res (Nat → Bool) :=
  deleteLibraries strict heap data.libraries live

end Verif.Layout
