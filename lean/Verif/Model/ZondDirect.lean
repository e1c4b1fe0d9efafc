import Verif.Model.Zond

/-! The overloads of `LayoutZond::ZondRectangle` and `ZondPolygon` taking a shared pointer (`none` = null). -/

namespace Verif.Zond

/-- `LayoutZond::ZondRectangle(GeometryPtr, LayoutMatrixPtr)`, LayoutBitmapZond.cpp:206-211: forwards the raw pointer, which
`ZondRectangle(LegacyGeometryPtr, …)` (131-194) dereferences without looking at the type of the geometry. -/
def zondRectanglePtr (rnd : ℚ → ℚ) (z : Zond) (g : Option Geometry) : M BitMatrix Unit :=
  match g with
  | none => M.undef
  | some g => zondRectangle rnd z g

/-- `LayoutZond::ZondPolygon(GeometryPtr, LayoutMatrixPtr)`, LayoutBitmapZond.cpp:214-219: forwards the raw pointer to the
function with the empty body (197-203), which does not dereference it. -/
def zondPolygonPtr (z : Zond) (g : Option Geometry) : M BitMatrix Unit :=
  match g with
  | none => pure ()
  | some g => zondPolygon z g

end Verif.Zond
