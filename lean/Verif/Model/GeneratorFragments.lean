import Verif.Model.Generator

/-!
Model of the private functions of `LayoutBitmapGenerator` that divide the work among fragments:
`src/Common/Impl/LayoutBitmapGenerator/LayoutBitmapGenerator.cpp:136-296`.  `Process` has the calls of three of them
commented out (lines 76-78); both `pushRectangle` have no caller.
-/

namespace Verif
namespace Generator

/-- The double loop over all fragments, LayoutBitmapGenerator.cpp:139-152, 188-197, 205-214, 227-233.  The bound of the
inner loop is the length of row 0; the rows of a `Vector2D` have one length. -/
def forFrags (f : Nat → Nat → Fragment → Res Fragment) (fs : V2 Fragment) : Res (V2 Fragment) :=
  fs.zipIdx.mapM fun row => row.1.zipIdx.mapM fun x => f row.2 x.2 x.1

/-- `base + k * d` resp. `base - k * d` converted to a coordinate, LayoutBitmapGenerator.cpp:144-145: `int`, `size_t`
and `double` operands, so the arithmetic is that of `double`; the conversion to `int32_t` truncates. -/
def edge (rnd : ℚ → ℚ) (op : (ℚ → ℚ) → Fl → Fl → Fl) (base : Int) (k : Nat) (d : Fl) : Res Int :=
  (op rnd (Fl.ofInt rnd base) (Fl.mul rnd (Fl.ofInt rnd k) d)).toI32

/-- `InitFragmentsWorkspaces`, LayoutBitmapGenerator.cpp:136-154.  The result of `SetAngleCoords` is not tested. -/
def initFragmentsWorkspaces (rnd : ℚ → ℚ) (g : Generator) : Res Generator := do
  let fs ← forFrags (fun i j f => do
    let x0 ← edge rnd Fl.add g.ws.leftTop.x j g.dx
    let y0 ← edge rnd Fl.sub g.ws.leftTop.y i g.dy
    let x1 ← edge rnd Fl.add g.ws.leftTop.x (j + 1) g.dx
    let y1 ← edge rnd Fl.sub g.ws.leftTop.y (i + 1) g.dy
    let ws := (Workspace.new.setAngleCoords ⟨x0, y0⟩ ⟨x1, y1⟩).2
    pure { f.setWorkspaceCoords ws with matrix := some 0 }) g.frags
  pure { g with frags := fs }

/-- `GetFragmentIntersectionCnt`, LayoutBitmapGenerator.cpp:157-175; the counter is a `uint32_t`. -/
def getFragmentIntersectionCnt (fs : V2 Fragment) (p : Option Geometry) : Nat :=
  match p with
  | none => 0
  | some g => (fs.flatten.countP fun f => f.geometryWorkspaceIntersection (some g)) % 4294967296

/-- LayoutBitmapGenerator.cpp:188-197 and 205-214: the test is the generator's own
(`LayoutBitmapGenerator::GeometryWorkspaceIntersection`, line 302), not the fragment's. -/
def pushToFrags (push : Option Geometry → Fragment → Fragment) (ws : Workspace) (g : Geometry) (fs : V2 Fragment) :
    V2 Fragment :=
  fs.map fun row => row.map fun f => if boxMeets ws g then push (some g) f else f

/-- One loop of `DistributeGeometries`, LayoutBitmapGenerator.cpp:182-200 and 202-219: what stays in the list and the
fragments afterwards.  `erase` yields the next position; the result of `std::prev` is dropped, so the `++` of the loop
passes over the next geometry; at the end of the list it increments the end iterator, which is undefined. -/
def distribute (push : Option Geometry → Fragment → Fragment) (ws : Workspace) :
    List Geometry → V2 Fragment → Res (List Geometry × V2 Fragment)
  | [], fs => .ok ([], fs)
  | g :: rest, fs =>
    if 2 < getFragmentIntersectionCnt fs (some g) then do
      let r ← distribute push ws rest fs
      pure (g :: r.1, r.2)
    else
      match rest with
      | [] => .ub
      | h :: rest => do
        let r ← distribute push ws rest (pushToFrags push ws g fs)
        pure (h :: r.1, r.2)

/-- `DistributeGeometries`, LayoutBitmapGenerator.cpp:178-220. -/
def distributeGeometries (g : Generator) : Res Generator := do
  let a ← distribute Fragment.pushItem g.ws g.geoms g.frags
  let b ← distribute Fragment.pushLegacy g.ws g.legacy a.2
  pure { g with geoms := a.1, legacy := b.1, frags := b.2 }

/-- `InitFragmentsIndicies`, LayoutBitmapGenerator.cpp:222-235; all arithmetic on `size_t`. -/
def initFragmentsIndicies (g : Generator) : Res Generator := do
  let fr := V2.rowCount g.frags
  if fr = 0 then .ub
  else
    let fc ← V2.colCount g.frags
    if fc = 0 then .ub
    else
      let iAdd := g.bitmap.isize / fr
      let jAdd := g.bitmap.jsize / fc
      let fs ← forFrags (fun i j f => pure (f.setIndicies (mulSz i iAdd) (mulSz j jAdd)
        (subSz (mulSz (i + 1) iAdd) 1) (subSz (mulSz (j + 1) jAdd) 1))) g.frags
      pure { g with frags := fs }

/-- `tmp / dx` stored in a `size_t`, LayoutBitmapGenerator.cpp:249, 252, 255, 258. -/
def quotient (rnd : ℚ → ℚ) (tmp : Int) (d : Fl) : Res Nat := (Fl.div rnd (Fl.ofInt rnd tmp) d).toSize

/-- `j_begin` and `i_begin`, LayoutBitmapGenerator.cpp:248-249 and 254-255 (280-281, 286-287). -/
def startIdx (rnd : ℚ → ℚ) (tmp : Int) (d : Fl) : Res Nat := if tmp > 0 then quotient rnd tmp d else .ok 0

/-- `j_end`, LayoutBitmapGenerator.cpp:251-252 (283-284): `tmp >= 0`. -/
def endCol (rnd : ℚ → ℚ) (g : Generator) (fc : Nat) (tmp : Int) : Res Nat :=
  if tmp ≥ 0 then do
    let w ← sub32 g.ws.rightBot.x g.ws.leftTop.x
    if tmp < w then quotient rnd tmp g.dx else .ok (subSz fc 1)
  else .ok (subSz fc 1)

/-- `i_end`, LayoutBitmapGenerator.cpp:257-258 (289-290): `tmp > 0`. -/
def endRow (rnd : ℚ → ℚ) (g : Generator) (fr : Nat) (tmp : Int) : Res Nat :=
  if tmp > 0 then do
    let h ← sub32 g.ws.leftTop.y g.ws.rightBot.y
    if tmp < h then quotient rnd tmp g.dy else .ok (subSz fr 1)
  else .ok (subSz fr 1)

/-- The index computation both `pushRectangle` share, LayoutBitmapGenerator.cpp:242-258 and 274-290:
`i_begin, i_end, j_begin, j_end`. -/
def rectFragments (rnd : ℚ → ℚ) (g : Generator) (r : Geometry) : Res (Nat × Nat × Nat × Nat) := do
  let lt ← Res.idx r.coords 0
  let rb ← Res.idx r.coords 2
  let fc ← V2.colCount g.frags
  let t1 ← sub32 lt.x g.ws.leftTop.x
  let jB ← startIdx rnd t1 g.dx
  let t2 ← sub32 rb.x g.ws.leftTop.x
  let jE ← endCol rnd g fc t2
  let t3 ← sub32 g.ws.leftTop.y lt.y
  let iB ← startIdx rnd t3 g.dy
  let t4 ← sub32 g.ws.leftTop.y rb.y
  let iE ← endRow rnd g (V2.rowCount g.frags) t4
  pure (iB, iE, jB, jE)

/-- `pushRectangle` on raw pointers, LayoutBitmapGenerator.cpp:239-266: the use of the indices is commented out. -/
def pushRectangleRaw (rnd : ℚ → ℚ) (g : Generator) (r : Geometry) : Res Bool := do
  let _ ← rectFragments rnd g r
  pure false

/-- `pushRectangle` on shared pointers, LayoutBitmapGenerator.cpp:269-296. -/
def pushRectangleShared (rnd : ℚ → ℚ) (g : Generator) (r : Geometry) : Res Bool := do
  let q ← rectFragments rnd g r
  pure (decide (q.1 = q.2.1 ∧ q.2.2.1 = q.2.2.2))

end Generator
end Verif
