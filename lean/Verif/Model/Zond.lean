import Verif.Model.Geometry
import Verif.Model.Fl

/-!
Model of `src/Common/Impl/LayoutBitmapZond/LayoutBitmapZond.cpp` and `src/Common/Include/LayoutBitmapZond.h`.
-/

namespace Verif

/-- `struct Indicies`, Include/LayoutBitmapZond.h:25-31. -/
structure Indicies where
  iBegin : Nat := 0
  iEnd : Nat := 0
  jBegin : Nat := 0
  jEnd : Nat := 0
deriving DecidableEq, Repr

/-- `class LayoutZond`, Include/LayoutBitmapZond.h:39-57. -/
structure Zond where
  bound : Indicies := {}
  ws : Workspace := Workspace.new
  dx : Fl := .fin 0
  dy : Fl := .fin 0
  eps : Fl := .fin 0
deriving DecidableEq

namespace Zond

/-- conversion `size_t` → `int32_t` (modulo 2^32) -/
def toI32 (n : Nat) : Int := if n % 4294967296 < 2147483648 then n % 4294967296 else n % 4294967296 - 4294967296

/-- conversion `int32_t` → `size_t` in a mixed comparison or as an argument -/
def toSz (i : Int) : Nat := if 0 ≤ i then i.toNat else (18446744073709551616 + i).toNat

/-- `size_t` addition (wraps) -/
def addSz (a b : Nat) : Nat := (a + b) % 18446744073709551616

/-- `for (int32_t i = i0; cond(i); i++) body(i);` — incrementing `INT32_MAX` is UB. -/
def forUp {σ : Type} (cond : Int → Bool) (body : Int → M σ Unit) (i : Int) : M σ Unit := fun s =>
  if cond i then
    match body i s with
    | .ok _ s' => if h : i < 2147483647 then forUp cond body (i + 1) s' else .ub
    | .throw e s' => .throw e s'
    | .ub => .ub
  else .ok () s
termination_by (2147483648 - i).toNat

/-- `LayoutZond::SetEps`, LayoutBitmapZond.cpp:16-22: the check reads the *old* member `eps`. -/
def setEps (rnd : ℚ → ℚ) (v : Fl) : M Zond Unit := fun z =>
  if z.eps.lt (.fin 0) || (Fl.fin (rnd (1 / 2))).lt z.eps then .throw .invalidArgument z
  else .ok () { z with eps := v }

/-- `LayoutZond::SetDeltas`, LayoutBitmapZond.cpp:25-33. -/
def setDeltas (dx dy : Fl) : M Zond Unit := fun z =>
  if dy.lt (.fin 0) || dx.lt (.fin 0) then .throw .invalidArgument z
  else .ok () { z with dx := dx, dy := dy }

/-- `LayoutZond::NormIndicies` (static, one axis), LayoutBitmapZond.cpp:51-104. -/
def normPair (rnd : ℚ → ℚ) (b e delta eps : Fl) (b1 b2 : Nat) : Res (Nat × Nat) :=
  if b.lt (.fin 0) || e.lt (.fin 0) then .throw .invalidArgument
  else if e.lt b then .throw .invalidArgument
  else if delta.le (.fin 0) then .throw .invalidArgument
  else
    let mid : Fl := .fin (rnd (1 / 2))
    let error := Fl.mul rnd eps delta
    let lo := Fl.sub rnd mid error
    let hi := Fl.add rnd mid error
    do
      let ei ← e.toI32
      let bi ← b.toI32
      let d ← sub32 ei bi
      if d = 0 then
        let bm := Fl.sub rnd b b.trunc
        let em := Fl.sub rnd e e.trunc
        if (lo.le bm && bm.le hi) || (lo.le em && em.le hi) || (bm.le hi && lo.le em) then
          let f ← b.toSize
          let s ← b.toSize
          pure (f, s)
        else pure (1, 0)
      else
        let first ← (if b.le (Fl.ofInt rnd b1) then pure b1
          else
            let bm := Fl.sub rnd b b.trunc
            if bm.le hi then b.toSize
            else do
              let t ← b.toSize
              pure (addSz t 1))
        let second ← (if (Fl.ofInt rnd b2).le e then pure b2
          else
            let em := Fl.sub rnd e e.trunc
            if lo.le em then e.round.toSize
            else do
              let t ← e.toSize
              pure (subSz t 1))
        pure (first, second)

/-- `LayoutZond::NormIndicies` (both axes), LayoutBitmapZond.cpp:36-49. -/
def normIndicies (rnd : ℚ → ℚ) (z : Zond) (iB iE jB jE : Fl) : Res Indicies := do
  let i ← normPair rnd iB iE z.dy z.eps z.bound.iBegin z.bound.iEnd
  let j ← normPair rnd jB jE z.dx z.eps z.bound.jBegin z.bound.jEnd
  pure ⟨i.1, i.2, j.1, j.2⟩

/-- `try { Matrix->Set(i, j, 1); } catch (...) {}`, LayoutBitmapZond.cpp:149-155 and 186-192. -/
def trySet (i j : Int) : M BitMatrix Unit :=
  M.tryCatch (BitMatrix.set (toSz i) (toSz j) true) fun _ => pure ()

/-- The condition of LayoutBitmapZond.cpp:142-143: the rectangle covers the centres of all border cells. -/
def coversAll (rnd : ℚ → ℚ) (z : Zond) (lt rb : Coord) : Bool :=
  let two : Fl := .fin 2
  let i (n : Int) : Fl := Fl.ofInt rnd n
  ((i lt.x).le (Fl.sub rnd (Fl.add rnd (i z.ws.leftTop.x) (Fl.div rnd z.dx two)) (Fl.mul rnd z.dx z.eps)) &&
    (Fl.add rnd (Fl.sub rnd (i z.ws.rightBot.x) (Fl.div rnd z.dx two)) (Fl.mul rnd z.dx z.eps)).le (i rb.x)) &&
  ((Fl.add rnd (Fl.sub rnd (i z.ws.leftTop.y) (Fl.div rnd z.dy two)) (Fl.mul rnd z.dy z.eps)).le (i lt.y) &&
    (i rb.y).le (Fl.sub rnd (Fl.add rnd (i z.ws.rightBot.y) (Fl.div rnd z.dy two)) (Fl.mul rnd z.dy z.eps)))

/-- LayoutBitmapZond.cpp:146-156: all cells between the bound indices. -/
def fillAll (bd : Indicies) : M BitMatrix Unit :=
  forUp (fun i => decide (toSz i ≤ bd.iEnd))
    (fun i => forUp (fun j => decide (toSz j ≤ bd.jEnd)) (fun j => trySet i j) (toI32 bd.jBegin))
    (toI32 bd.iBegin)

/-- LayoutBitmapZond.cpp:178-193: the cells of the normalised index range, clipped to the bound indices. -/
def fillRange (bd n : Indicies) : M BitMatrix Unit :=
  let iB := addSz n.iBegin bd.iBegin
  let iE := addSz n.iEnd bd.iBegin
  let jB := addSz n.jBegin bd.jBegin
  let jE := addSz n.jEnd bd.jBegin
  forUp (fun i => decide (toSz i ≤ iE) && decide (bd.iBegin ≤ toSz i) && decide (toSz i ≤ bd.iEnd))
    (fun i => forUp (fun j => decide (toSz j ≤ jE) && decide (bd.jBegin ≤ toSz j) && decide (toSz j ≤ bd.jEnd))
      (fun j => trySet i j) (toI32 jB))
    (toI32 iB)

/-- The four quotients of LayoutBitmapZond.cpp:162-168 in the order in which they are passed on. -/
def rawIndicies (rnd : ℚ → ℚ) (z : Zond) (lt rb : Coord) : Res (Fl × Fl × Fl × Fl) := do
  let a ← sub32 lt.x z.ws.leftTop.x
  let b ← sub32 rb.x z.ws.leftTop.x
  let c ← sub32 z.ws.leftTop.y lt.y
  let d ← sub32 z.ws.leftTop.y rb.y
  pure (Fl.div rnd (Fl.ofInt rnd c) z.dy, Fl.div rnd (Fl.ofInt rnd d) z.dy,
    Fl.div rnd (Fl.ofInt rnd a) z.dx, Fl.div rnd (Fl.ofInt rnd b) z.dx)

/-- `LayoutZond::ZondRectangle`, LayoutBitmapZond.cpp:131-194. -/
def zondRectangle (rnd : ℚ → ℚ) (z : Zond) (r : Geometry) : M BitMatrix Unit := do
  let lt ← M.lift (Res.idx r.coords 0)
  let rb ← M.lift (Res.idx r.coords 2)
  if coversAll rnd z lt rb then fillAll z.bound
  else
    let (iB, iE, jB, jE) ← M.lift (rawIndicies rnd z lt rb)
    let n ← M.lift (normIndicies rnd z iB iE jB jE)
    fillRange z.bound n

/-- `LayoutZond::ZondPolygon`, LayoutBitmapZond.cpp:197-203: empty body. -/
def zondPolygon (_ : Zond) (_ : Geometry) : M BitMatrix Unit := pure ()

/-- `LayoutZond::ZondGeometry`, LayoutBitmapZond.cpp:107-128 (`none` = null pointer). -/
def zondGeometry (rnd : ℚ → ℚ) (z : Zond) (g : Option Geometry) : M BitMatrix Unit :=
  match g with
  | none => M.undef
  | some g =>
    match g.type with
    | .polygon => zondPolygon z g
    | .rectangle => zondRectangle rnd z g
    | _ => M.raise .invalidArgument

/-- The loops of `LayoutBitmapGenerator::ZondMatrix`, LayoutBitmapGenerator.cpp:122-130: one geometry after
the other onto the same bitmap. -/
def zondAll (rnd : ℚ → ℚ) (z : Zond) : List (Option Geometry) → M BitMatrix Unit
  | [] => pure ()
  | g :: gs => do zondGeometry rnd z g; zondAll rnd z gs

end Zond
end Verif
