import Verif.Model.Zond

/-!
Model of `src/Common/Impl/LayoutFragment/LayoutFragment.cpp` and `src/Common/Include/LayoutFragment.h`.
-/

namespace Verif

/-- `СalcDelta`, LayoutFragment.cpp:9-17 and LayoutBitmapGenerator.cpp:97-105 (the same body): the difference is
an `int`, `PartCnt` a `uint32_t`, the division a `double` division. -/
def calcDelta (rnd : ℚ → ℚ) (n1 n2 : Int) (cnt : Nat) : Res Fl := do
  let d ← sub32 n2 n1
  pure (Fl.div rnd (Fl.ofInt rnd (if d < 0 then -d else d)) (Fl.ofInt rnd ((cnt % 4294967296 : Nat) : Int)))

/-- Closed bounding-box test, LayoutFragment.cpp:27-33 and LayoutBitmapGenerator.cpp:310-316. -/
def boxMeets (ws : Workspace) (g : Geometry) : Bool :=
  if g.min.x > ws.rightBot.x ∨ g.max.x < ws.leftTop.x ∨ g.max.y < ws.rightBot.y ∨ g.min.y > ws.leftTop.y then false
  else true

/-- `class Fragment`, Include/LayoutFragment.h:9-23.  The shared pointer `layoutMatrix` is the address of a
matrix (`none` = null). -/
structure Fragment where
  angle : Workspace := Workspace.new
  bound : Indicies := {}
  items : List (Option Geometry) := []
  legacy : List (Option Geometry) := []
  matrix : Option Nat := none
  dx : Fl := .fin 0
  dy : Fl := .fin 0
  zond : Zond := {}

namespace Fragment

/-- `Fragment::GeometryWorkspaceIntersection`, LayoutFragment.cpp:19-34. -/
def geometryWorkspaceIntersection (f : Fragment) (g : Option Geometry) : Bool :=
  match g with
  | none => false
  | some g => boxMeets f.angle g

/-- `Fragment::Reset`, LayoutFragment.cpp:36-45: neither the index bounds nor the second list nor the
rasteriser are reset. -/
def reset (f : Fragment) : Fragment :=
  { f with angle := (f.angle.setAngleCoords ⟨0, 0⟩ ⟨0, 0⟩).2, items := [], matrix := none, dx := .fin 0, dy := .fin 0 }

/-- `Fragment::SetMatrix`, LayoutFragment.cpp:47-53. -/
def setMatrix (mat : Option Nat) : M Fragment Unit := fun f =>
  match mat with
  | none => .throw .invalidArgument f
  | some a => .ok () { f with matrix := some a }

/-- `Fragment::SetWorkspaceCoords`, LayoutFragment.cpp:56-62. -/
def setWorkspaceCoords (ws : Workspace) (f : Fragment) : Fragment :=
  { f with angle := ws, zond := { f.zond with ws := ws } }

/-- `Fragment::SetIndicies(iBegin, jBegin, iEnd, jEnd)`, LayoutFragment.cpp:65-77. -/
def setIndicies (iBegin jBegin iEnd jEnd : Nat) (f : Fragment) : Fragment :=
  let b : Indicies := ⟨iBegin, iEnd, jBegin, jEnd⟩
  { f with bound := b, zond := { f.zond with bound := b } }

/-- `Fragment::PushGeometry(Geometry*)`, Include/LayoutFragment.h:31. -/
def pushLegacy (g : Option Geometry) (f : Fragment) : Fragment := { f with legacy := f.legacy ++ [g] }

/-- `Fragment::PushGeometry(GeometryPtr)`, Include/LayoutFragment.h:33. -/
def pushItem (g : Option Geometry) (f : Fragment) : Fragment := { f with items := f.items ++ [g] }

/-- `Fragment::Process`, LayoutFragment.cpp:80-99: the drawing loops are commented out. -/
def process (rnd : ℚ → ℚ) : M Fragment Unit := fun f =>
  match f.matrix with
  | none => .throw .runtimeError f
  | some _ =>
    match calcDelta rnd f.angle.leftTop.x f.angle.rightBot.x (Zond.addSz (subSz f.bound.jEnd f.bound.jBegin) 1) with
    | .ub => .ub
    | .throw e => .throw e f
    | .ok dx =>
      let f := { f with dx := dx }
      match calcDelta rnd f.angle.leftTop.y f.angle.rightBot.y (Zond.addSz (subSz f.bound.iEnd f.bound.iBegin) 1) with
      | .ub => .ub
      | .throw e => .throw e f
      | .ok dy =>
        let f := { f with dy := dy }
        match Zond.setDeltas f.dx f.dy f.zond with
        | .ub => .ub
        | .throw e z => .throw e { f with zond := z }
        | .ok _ z => .ok () { f with zond := z }

end Fragment
end Verif
