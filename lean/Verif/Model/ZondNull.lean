import Verif.Model.ZondDirect

/-!
Model of `src/Common/Impl/LayoutBitmapZond/LayoutBitmapZond.cpp` drawing onto a null matrix pointer.  There is no object to change,
so the functions work on `Unit`; the only use of the pointer is the call `Matrix->Set(i, j, 1)`.
-/

namespace Verif.Zond

/-- `try { Matrix->Set(i, j, 1); } catch (...) {}`, LayoutBitmapZond.cpp:149-155 and 186-192, with `Matrix` null: undefined,
which no `catch` intercepts. -/
def trySetNull (_ _ : Int) : M Unit Unit := M.tryCatch M.undef fun _ => pure ()

/-- LayoutBitmapZond.cpp:146-156 with `Matrix` null. -/
def fillAllNull (bd : Indicies) : M Unit Unit :=
  forUp (fun i => decide (toSz i ≤ bd.iEnd))
    (fun i => forUp (fun j => decide (toSz j ≤ bd.jEnd)) (fun j => trySetNull i j) (toI32 bd.jBegin))
    (toI32 bd.iBegin)

/-- LayoutBitmapZond.cpp:178-193 with `Matrix` null. -/
def fillRangeNull (bd n : Indicies) : M Unit Unit :=
  let iB := addSz n.iBegin bd.iBegin
  let iE := addSz n.iEnd bd.iBegin
  let jB := addSz n.jBegin bd.jBegin
  let jE := addSz n.jEnd bd.jBegin
  forUp (fun i => decide (toSz i ≤ iE) && decide (bd.iBegin ≤ toSz i) && decide (toSz i ≤ bd.iEnd))
    (fun i => forUp (fun j => decide (toSz j ≤ jE) && decide (bd.jBegin ≤ toSz j) && decide (toSz j ≤ bd.jEnd))
      (fun j => trySetNull i j) (toI32 jB))
    (toI32 iB)

/-- `LayoutZond::ZondRectangle`, LayoutBitmapZond.cpp:131-194, with `Matrix` null. -/
def zondRectangleNull (rnd : ℚ → ℚ) (z : Zond) (r : Geometry) : M Unit Unit := do
  let lt ← M.lift (Res.idx r.coords 0)
  let rb ← M.lift (Res.idx r.coords 2)
  if coversAll rnd z lt rb then fillAllNull z.bound
  else
    let (iB, iE, jB, jE) ← M.lift (rawIndicies rnd z lt rb)
    let n ← M.lift (normIndicies rnd z iB iE jB jE)
    fillRangeNull z.bound n

/-- `LayoutZond::ZondPolygon`, LayoutBitmapZond.cpp:197-203 and 214-219, with `Matrix` null: empty body. -/
def zondPolygonNull (_ : Zond) (_ : Option Geometry) : M Unit Unit := pure ()

/-- `LayoutZond::ZondGeometry`, LayoutBitmapZond.cpp:107-128, with `Matrix` null (`none` = null geometry pointer). -/
def zondGeometryNull (rnd : ℚ → ℚ) (z : Zond) (g : Option Geometry) : M Unit Unit :=
  match g with
  | none => M.undef
  | some g =>
    match g.type with
    | .polygon => zondPolygonNull z (some g)
    | .rectangle => zondRectangleNull rnd z g
    | _ => M.raise .invalidArgument

/-- `LayoutZond::ZondRectangle(GeometryPtr, LayoutMatrixPtr)`, LayoutBitmapZond.cpp:206-211, with `Matrix` null. -/
def zondRectanglePtrNull (rnd : ℚ → ℚ) (z : Zond) (g : Option Geometry) : M Unit Unit :=
  match g with
  | none => M.undef
  | some g => zondRectangleNull rnd z g

end Verif.Zond
