import Verif.Model.Geometry

/-!
Model of `src/Common/Impl/LayoutConverter/LayoutConverter.cpp`.
-/

namespace Verif.Converter

/-- `enum class LineOrientation`, LayoutConverter.cpp:18-24. -/
inductive LineOrientation where
  | undefined | horizontal | vertical
deriving DecidableEq, Repr

/-- `enum class PathElemPos`, LayoutConverter.cpp:28-35. -/
inductive PathElemPos where
  | undefined | begin | mid | end'
deriving DecidableEq, Repr

/-- `InGetType`, LayoutConverter.cpp:53-58. -/
def getType : Option Geometry → GType
  | none => .undefined
  | some g => g.type

/-- The bounding-box loop of `InFillBox`, LayoutConverter.cpp:108-118 (and of `MskReader::FillBox`,
MskReader.cpp:233-243): `min = max = coords[0]`, then one comparison chain per further coordinate. -/
def bboxStep (mm : Coord × Coord) (c : Coord) : Coord × Coord :=
  let mn := mm.1
  let mx := mm.2
  let mn : Coord := if mn.x > c.x then ⟨c.x, mn.y⟩ else mn
  let mn : Coord := if mn.y > c.y then ⟨mn.x, c.y⟩ else mn
  let mx : Coord := if mx.x < c.x then ⟨c.x, mx.y⟩ else mx
  let mx : Coord := if mx.y < c.y then ⟨mx.x, c.y⟩ else mx
  (mn, mx)

/-- `InFillBox`, LayoutConverter.cpp:68-119, on a geometry whose type is `rectangle` (the only call site
passes a fresh `Rectangle`; any other argument throws). -/
def fillBox (box : Option Geometry) (leftBot rightTop : Coord) (layerNum : Int) : Res Geometry :=
  match box with
  | none => .throw .invalidArgument
  | some box =>
    if box.type ≠ .rectangle then .throw .invalidArgument
    else do
      let width ← sub32 rightTop.x leftBot.x
      let height ← sub32 rightTop.y leftBot.y
      let xl ← sub32 rightTop.x width
      let coords := box.coords ++ [⟨xl, rightTop.y⟩]
      let coords := coords ++ [rightTop]
      let yb ← sub32 rightTop.y height
      let coords := coords ++ [⟨rightTop.x, yb⟩]
      let xl2 ← sub32 rightTop.x width
      let yb2 ← sub32 rightTop.y height
      let coords := coords ++ [⟨xl2, yb2⟩]
      let xl3 ← sub32 rightTop.x width
      let coords := coords ++ [⟨xl3, rightTop.y⟩]
      match coords with
      | [] => .ub
      | c0 :: cs =>
        let mm := cs.foldl bboxStep (c0, c0)
        .ok { box with coords := c0 :: cs, layer := layerNum, min := mm.1, max := mm.2 }

/-- `InGetOrientation`, LayoutConverter.cpp:130-137. -/
def getOrientation (b e : Coord) : LineOrientation :=
  if b.x = e.x ∧ b.y = e.y then .undefined
  else if b.x = e.x then .vertical
  else .horizontal

/-- `InAddCoordValue`, LayoutConverter.cpp:146-160. -/
def addCoordValue (g : Geometry) (d : Coord) : Res Geometry := do
  let mnx ← add32 g.min.x d.x
  let mny ← add32 g.min.y d.y
  let mxx ← add32 g.max.x d.x
  let mxy ← add32 g.max.y d.y
  let cs ← g.coords.mapM fun c => do
    let x ← add32 c.x d.x
    let y ← add32 c.y d.y
    pure (⟨x, y⟩ : Coord)
  pure { g with min := ⟨mnx, mny⟩, max := ⟨mxx, mxy⟩, coords := cs }

/-- `leftTop = {a, b}; rightBot = {c, d};` with the two coordinates given by checked sums. -/
def mkAngles (lx ly rx ry : Res Int) : Res (Coord × Coord) := do
  let a ← lx
  let b ← ly
  let c ← rx
  let d ← ry
  pure (⟨a, b⟩, ⟨c, d⟩)

/-- Horizontal part of `InCalcRectAngles`, LayoutConverter.cpp:185-234; `none` is the early return of
`default`.  (In the branches that assign `rightBot` first the order of the four sums differs; they are
independent, so only the order of undefined operations would change.) -/
def anglesHorizontal (b e : Coord) (hw : Int) (pos : PathElemPos) : Res (Option (Coord × Coord)) :=
  let y := b.y
  match pos with
  | .begin =>
    if e.x > b.x then some <$> mkAngles (pure b.x) (add32 y hw) (add32 e.x hw) (sub32 y hw)
    else some <$> mkAngles (sub32 e.x hw) (add32 y hw) (pure b.x) (sub32 y hw)
  | .mid =>
    if e.x > b.x then some <$> mkAngles (sub32 b.x hw) (add32 y hw) (add32 e.x hw) (sub32 y hw)
    else some <$> mkAngles (sub32 e.x hw) (add32 y hw) (add32 b.x hw) (sub32 y hw)
  | .end' =>
    if e.x > b.x then some <$> mkAngles (sub32 b.x hw) (add32 y hw) (pure e.x) (sub32 y hw)
    else some <$> mkAngles (pure e.x) (add32 y hw) (add32 b.x hw) (sub32 y hw)
  | .undefined => pure none

/-- Vertical part of `InCalcRectAngles`, LayoutConverter.cpp:236-285; `none` is the early return of
`default`. -/
def anglesVertical (b e : Coord) (hw : Int) (pos : PathElemPos) : Res (Option (Coord × Coord)) :=
  let x := b.x
  match pos with
  | .begin =>
    if b.y > e.y then some <$> mkAngles (sub32 x hw) (pure b.y) (add32 x hw) (sub32 e.y hw)
    else some <$> mkAngles (sub32 x hw) (add32 e.y hw) (add32 x hw) (pure b.y)
  | .mid =>
    if b.y > e.y then some <$> mkAngles (sub32 x hw) (add32 b.y hw) (add32 x hw) (sub32 e.y hw)
    else some <$> mkAngles (sub32 x hw) (add32 e.y hw) (add32 x hw) (sub32 b.y hw)
  | .end' =>
    if b.y > e.y then some <$> mkAngles (sub32 x hw) (add32 b.y hw) (add32 x hw) (pure e.y)
    else some <$> mkAngles (sub32 x hw) (pure e.y) (add32 x hw) (sub32 b.y hw)
  | .undefined => pure none

/-- `std::make_pair(Coord(), Coord())` -/
def zeroAngles : Coord × Coord := (⟨0, 0⟩, ⟨0, 0⟩)

/-- `InCalcRectAngles`, LayoutConverter.cpp:172-289.  The outer `switch` has no `break`: the horizontal case
(185-234) runs on into the vertical one (236-285), and that one runs on into `default` (286), which returns
`{(0,0),(0,0)}`.  The `break`s of the code leave the inner `switch (Pos)` only, and line 288 is unreachable.
`leftTop`/`rightBot` are computed (and may overflow) but never returned. -/
def calcRectAngles (b e : Coord) (hw : Int) (pos : PathElemPos) : Res (Coord × Coord) :=
  if pos = .undefined then pure zeroAngles
  else match getOrientation b e with
    | .undefined => pure zeroAngles
    | .vertical => do
      let _ ← anglesVertical b e hw pos
      pure zeroAngles
    | .horizontal => do
      let h ← anglesHorizontal b e hw pos
      match h with
      | none => pure zeroAngles
      | some _ => do
        let _ ← anglesVertical b e hw pos
        pure zeroAngles

/-- One iteration of the loop of `PathToRectList`, LayoutConverter.cpp:303-313. -/
def pathStep (p : Geometry) (i : Nat) : M (List Geometry) Unit := fun boxes =>
  let pos : PathElemPos := if subSz p.coords.length 2 = i then .end' else .mid
  let box : Res Geometry := do
    let b ← Res.idx p.coords i
    let e ← Res.idx p.coords (i + 1)
    let a ← calcRectAngles b e (p.width.tdiv 2) pos
    fillBox (some { type := .rectangle }) ⟨a.1.x, a.2.y⟩ ⟨a.2.x, a.1.y⟩ p.layer
  match box with
  | .ok g => .ok () (boxes ++ [g])
  | .throw e => .throw e boxes
  | .ub => .ub

/-- `GeometryConverter::PathToRectList`, LayoutConverter.cpp:292-315.  `coords.size() - 1` is a `size_t`
subtraction: with no coordinates the loop bound is `2^64 - 1`. -/
def pathToRectList (path : Option Geometry) : Res (List Geometry) :=
  match path with
  | none => .throw .invalidArgument
  | some p =>
    if p.type ≠ .path then .throw .invalidArgument
    else (M.loop 0 (subSz p.coords.length 1) (pathStep p) []).toRes

/-- Outcome of a possibly non-terminating call: `none` = still running. -/
abbrev Run (α : Type) := Option (Res α)

/-- sequencing of two runs -/
def Run.bind {α β : Type} (x : Run α) (f : α → Run β) : Run β :=
  match x with
  | none => none
  | some .ub => some .ub
  | some (.throw e) => some (.throw e)
  | some (.ok a) => f a

/-- The `switch` in the loop of `SplitSref`, LayoutConverter.cpp:333-373, for one geometry pointer; `rec` is
the recursive call. -/
def splitOne (rec : Option Geometry → Coord → Run (List Geometry)) (mn : Coord) (it : Option Geometry) :
    Run (List Geometry) :=
  match it with
  | none => some (.ok [])
  | some g =>
    match g.type with
    | .polygon | .rectangle => some ((addCoordValue g mn) >>= fun g' => .ok [g'])
    | .path => some (pathToRectList (some g) >>= fun rs => rs.mapM fun r => addCoordValue r mn)
    | .reference => rec (some g) mn
    | .text | .undefined => some (.ok [])

/-- The loop of `SplitSref`, LayoutConverter.cpp:331-374; results are appended in order. -/
def splitAll (rec : Option Geometry → Coord → Run (List Geometry)) (mn : Coord) :
    List (Option Geometry) → Run (List Geometry)
  | [] => some (.ok [])
  | it :: rest => (splitOne rec mn it).bind fun a => (splitAll rec mn rest).bind fun b => some (.ok (a ++ b))

/-- `GeometryConverter::SplitSref`, LayoutConverter.cpp:318-376, with at most `depth` nested calls
(`none` = deeper).  A null argument gives the empty list; the unchecked `static_cast` of a geometry that is
not a `Reference` and a null `pElement` are undefined behaviour. -/
def splitSref (H : Elements) : Nat → Option Geometry → Coord → Run (List Geometry)
  | 0, _, _ => none
  | n + 1, s, mn =>
    match s with
    | none => some (.ok [])
    | some r =>
      if r.type ≠ .reference then some .ub
      else match r.element with
        | none => some .ub
        | some e =>
          Run.bind (some (do
            let x ← add32 mn.x (H e).min.x
            let y ← add32 mn.y (H e).min.y
            pure (⟨x, y⟩ : Coord))) fun mn' =>
          splitAll (splitSref H n) mn' (H e).geometries

end Verif.Converter
