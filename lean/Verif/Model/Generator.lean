import Verif.Model.LayoutConverter
import Verif.Model.LayoutData
import Verif.Model.Fragment
import Verif.Model.Print

/-!
Model of `src/Common/Impl/LayoutBitmapGenerator/LayoutBitmapGenerator.cpp` and
`src/Common/Include/LayoutBitmapGenerator.h`.

The private functions no public function calls (LayoutBitmapGenerator.cpp:136-296) are in GeneratorFragments.lean.
-/

namespace Verif

/-- What the generator's pointers point to: layouts and elements by address. -/
structure Memory where
  layouts : Nat → LayoutData
  elements : Elements

/-- `class LayoutBitmapGenerator`, Include/LayoutBitmapGenerator.h:24-48.  `data` is the address of a layout
(`none` = null); `layers` a `std::set`, only asked for membership and emptiness; the matrix `bitmap` points to
is part of the object (address 0 for the fragments). -/
structure Generator where
  data : Option Nat := none
  ws : Workspace := Workspace.new
  layers : List Int := []
  bitmap : BitMatrix := BitMatrix.empty
  frags : V2 Fragment := [[{}]]
  geoms : List Geometry := []
  legacy : List Geometry := []
  zond : Zond := {}
  dx : Fl := .fin 0
  dy : Fl := .fin 0

namespace Generator
open Converter

/-- `LayoutBitmapGenerator()`, Include/LayoutBitmapGenerator.h:56: an empty matrix, one fragment, tolerance
`1e-13`. -/
def new (rnd : ℚ → ℚ) : Generator := { zond := { eps := .fin (rnd (1 / 10 ^ 13)) } }

/-- `LayoutBitmapGenerator::Reset`, LayoutBitmapGenerator.cpp:393-403: line 396 assigns `leftTop` twice and
never `rightBot`; the fragment matrix becomes empty. -/
def reset (g : Generator) : Generator :=
  { g with data := none, ws := { g.ws with leftTop := ⟨0, 0⟩ }, layers := [], geoms := [], legacy := [],
           dx := .fin 0, dy := .fin 0, frags := V2.reset g.frags }

/-- `LayoutBitmapGenerator::Init`, LayoutBitmapGenerator.cpp:18-35. -/
def init (data : Option Nat) (layers : List Int) (mn mx : Coord) : M Generator Unit := fun g =>
  if data = none ∨ layers = [] ∨ V2.opNot g.frags = true then .throw .invalidArgument g
  else
    let g := reset g
    match g.ws.setAngleCoords ⟨mn.x, mx.y⟩ ⟨mx.x, mn.y⟩ with
    | (false, ws) => .throw .invalidArgument { g with ws := ws }
    | (true, ws) => .ok () { g with ws := ws, data := data, layers := layers }

/-- `LayoutBitmapGenerator::SetLayerArray`, LayoutBitmapGenerator.cpp:385-390. -/
def setLayerArray (layers : List Int) (g : Generator) : Generator := { g with layers := layers }

/-- `LayoutBitmapGenerator::GetMatrix`, LayoutBitmapGenerator.cpp:107-111: the matrix the returned pointer
points to. -/
def getMatrix (g : Generator) : BitMatrix := g.bitmap

/-- The `switch` of `ProcessGeometries`, LayoutBitmapGenerator.cpp:327-362, for one pointer: what is appended to
`geometryList` and to `legacyGeometryList`.  `depth` bounds the nesting of `SplitSref` (`none` = deeper). -/
def gatherOne (H : Elements) (depth : Nat) (ws : Workspace) (p : Option Geometry) :
    Run (List Geometry × List Geometry) :=
  match p with
  | none => some (.ok ([], []))
  | some g =>
    if boxMeets ws g then
      match g.type with
      | .rectangle | .polygon => some (.ok ([], [g]))
      | .path => Run.bind (some (pathToRectList (some g))) fun rs => some (.ok (rs.filter (boxMeets ws), []))
      | .reference => Run.bind (splitSref H depth (some g) ⟨0, 0⟩) fun rs => some (.ok (rs.filter (boxMeets ws), []))
      | .text | .undefined => some (.ok ([], []))
    else some (.ok ([], []))

/-- `ProcessGeometries`, LayoutBitmapGenerator.cpp:319-365. -/
def gatherList (H : Elements) (depth : Nat) (ws : Workspace) : List (Option Geometry) →
    Run (List Geometry × List Geometry)
  | [] => some (.ok ([], []))
  | p :: ps => (gatherOne H depth ws p).bind fun a => (gatherList H depth ws ps).bind fun b =>
      some (.ok (a.1 ++ b.1, a.2 ++ b.2))

/-- The inner loop of `InitGeometryItems`, LayoutBitmapGenerator.cpp:373-380: the first layer whose number is
requested, then `break`. -/
def gatherLayers (H : Elements) (depth : Nat) (ws : Workspace) (req : List Int) : List Layer →
    Run (List Geometry × List Geometry)
  | [] => some (.ok ([], []))
  | l :: ls => if l.layer ∈ req then gatherList H depth ws l.geometries else gatherLayers H depth ws req ls

/-- The outer loop of `InitGeometryItems`, LayoutBitmapGenerator.cpp:371-381; a null library is undefined. -/
def gatherLibs (H : Elements) (depth : Nat) (ws : Workspace) (req : List Int) : List (Option Library) →
    Run (List Geometry × List Geometry)
  | [] => some (.ok ([], []))
  | none :: _ => some .ub
  | some l :: ls => (gatherLayers H depth ws req l.layers).bind fun a => (gatherLibs H depth ws req ls).bind fun b =>
      some (.ok (a.1 ++ b.1, a.2 ++ b.2))

/-- `InitGeometryItems`, LayoutBitmapGenerator.cpp:368-382, started on empty lists. -/
def initGeometryItems (mem : Memory) (depth : Nat) (g : Generator) : Run (List Geometry × List Geometry) :=
  match g.data with
  | none => some .ub
  | some a => gatherLibs mem.elements depth g.ws g.layers (mem.layouts a).libraries

/-- LayoutBitmapGenerator.cpp:52-58: every fragment gets the matrix. -/
def fragsSetMatrix (fs : V2 Fragment) : V2 Fragment := fs.map fun row => row.map fun f => { f with matrix := some 0 }

/-- LayoutBitmapGenerator.cpp:60-73: deltas and the rasteriser's set-up.  `stale` is `fragmentMatrix.ColCount()`
on an emptied fragment matrix, which reads `data[0]` of an empty vector: `.ub` by the standard; in practice some
number (it only reaches `dx`, which line 118 overwrites). -/
def setUp (rnd : ℚ → ℚ) (stale : Res Nat) (R C : Nat) (g : Generator) : Res Generator := do
  let cols ← (match g.frags with
    | [] => stale
    | fs => V2.colCount fs)
  let dx ← calcDelta rnd g.ws.leftTop.x g.ws.rightBot.x cols
  let dy ← calcDelta rnd g.ws.leftTop.y g.ws.rightBot.y (V2.rowCount g.frags)
  let cdx ← calcDelta rnd g.ws.leftTop.x g.ws.rightBot.x g.bitmap.jsize
  let cdy ← calcDelta rnd g.ws.leftTop.y g.ws.rightBot.y g.bitmap.isize
  let z ← (Zond.setDeltas cdx cdy g.zond).toRes
  pure { g with dx := dx, dy := dy, zond := { z with bound := ⟨0, subSz R 1, 0, subSz C 1⟩, ws := g.ws } }

/-- `ZondMatrix`, LayoutBitmapGenerator.cpp:115-131. -/
def zondMatrix (rnd : ℚ → ℚ) : M Generator Unit := fun g =>
  match calcDelta rnd g.ws.leftTop.x g.ws.rightBot.x g.bitmap.isize,
        calcDelta rnd g.ws.leftTop.y g.ws.rightBot.y g.bitmap.jsize with
  | .ok dx, .ok dy =>
    let g := { g with dx := dx, dy := dy }
    match Zond.zondAll rnd g.zond ((g.geoms ++ g.legacy).map some) g.bitmap with
    | .ok _ b => .ok () { g with bitmap := b }
    | .throw e b => .throw e { g with bitmap := b }
    | .ub => .ub
  | _, _ => .ub

/-- `LayoutBitmapGenerator::Process`, LayoutBitmapGenerator.cpp:38-94.  The result is the returned `bool` and the
text `bitmap->Print()` writes; `none` = `SplitSref` nests deeper than `depth`.  Neither `calcDelta`, `SetDeltas`
(the deltas are never negative) nor the collection of geometries throws, so the intermediate `throw` cases that
keep the state of the last completed statement are not reached. -/
def process (rnd : ℚ → ℚ) (al : Alloc) (stale : Res Nat) (mem : Memory) (depth : Nat) (R C : Nat) (g : Generator) :
    Option (Out Generator (Bool × List UInt8)) :=
  if R = 0 then some (.throw .invalidArgument g)
  else if C = 0 then some (.throw .invalidArgument g)
  else match BitMatrix.resize al R C g.bitmap with
    | .ub => some .ub
    | .throw e b => some (.throw e { g with bitmap := b })
    | .ok _ b =>
      let g := { g with bitmap := b, geoms := [], legacy := [], frags := fragsSetMatrix g.frags }
      match setUp rnd stale R C g with
      | .ub => some .ub
      | .throw e => some (.throw e g)
      | .ok g =>
        match initGeometryItems mem depth g with
        | none => none
        | some .ub => some .ub
        | some (.throw e) => some (.throw e g)
        | some (.ok (gs, ls)) =>
          match zondMatrix rnd { g with geoms := gs, legacy := ls } with
          | .ub => some .ub
          | .throw e g => some (.throw e g)
          | .ok _ g =>
            match BitMatrix.print g.bitmap with
            | .ub => some .ub
            | .throw e => some (.throw e g)
            | .ok txt => some (.ok (true, txt) g)

end Generator
end Verif
