import Verif.Model.LayoutData
import Verif.Model.LayoutConverter
import Verif.Model.Scan

/-!
Model of `src/Common/Impl/LayoutReader/ReaderImpl/MskReader.cpp`, `Include/MskReader.hpp` and
`Impl/LayoutReader/LayoutReader.cpp`.

Files are a map from names to contents.  Geometries are values; the pointer shared by a layer and the element is
two equal copies (no modelled function changes a geometry after it was stored).  Allocation does not fail.
-/

namespace Verif.Msk
open Verif Scan

/-- What the reader depends on: the files, the conversion of wide strings to UTF-8 (`none` = it throws
`range_error`), and the indeterminate value of `Layer::dataType`, which the reader never sets. -/
structure Env where
  fs : List UInt8 → Option (List UInt8)
  utf8 : List Nat → Option (List UInt8)
  junk : Int := 0

/-- `class MskReader`, Include/MskReader.hpp:16-24, and its base, Include/LayoutReader.hpp:17-27.  `stuck`: the file
stream was left open at its end; `active`: the element and library of an earlier successful `Read`, now owned
by that layout, are still recorded. -/
structure Reader where
  fileName : List Nat := []
  stuck : Bool := false
  active : Bool := false
deriving DecidableEq, Repr

/-- `std::string(Fname.begin(), Fname.end())` of a wide string: every character cut to a byte. -/
def narrow (s : List Nat) : List UInt8 := s.map UInt8.ofNat

/-- `g_layerMap`, MskReader.cpp:19-37. -/
def layerMap : List (List UInt8 × Int) :=
  [(lit "TITLE", -6), (lit "BB", -5), (lit "VI", -4), (lit "NW", 1), (lit "DN", 16), (lit "DP", 17), (lit "PO", 13),
   (lit "CO", 19), (lit "ME", 23), (lit "M2", 27), (lit "M3", 34), (lit "M4", 36), (lit "M5", 53), (lit "M6", 55)]

/-- `g_undefinedLayerNum`, MskReader.cpp:39-41. -/
def undefinedLayerNum : Int := -32768

/-- `LayerNameToLayerNum`, MskReader.cpp:71-79. -/
def layerNum (name : List UInt8) : Int :=
  match layerMap.lookup name with
  | some n => n
  | none => undefinedLayerNum

/-- ASCII lower case, for the case-insensitive regular expression. -/
def lower (c : UInt8) : UInt8 := if 65 ≤ c && c ≤ 90 then c + 32 else c

/-- `\w` in the "C" locale. -/
def isWord (c : UInt8) : Bool := isDigit c || (97 ≤ c && c ≤ 122) || (65 ≤ c && c ≤ 90) || c == 95

/-- `std::regex_search(name, "\\w+\\.msk$", icase)`, MskReader.cpp:51-52: the last four characters are `.msk` in any
case and the one before is a word character. -/
def nameMatches (s : List UInt8) : Bool :=
  match s.reverse with
  | a :: b :: c :: d :: w :: _ => lower a == 107 && lower b == 115 && lower c == 109 && d == 46 && isWord w
  | _ => false

/-- The lines `std::getline` delivers until it fails. -/
def fileLines : List UInt8 → List (List UInt8)
  | [] => []
  | c :: cs =>
    if c = 10 then [] :: fileLines cs
    else match fileLines cs with
      | [] => [[c]]
      | l :: ls => (c :: l) :: ls

/-- `MskReader::IsMyFormat`, MskReader.cpp:44-68.  `open` fails on a stream that is still open.  An empty file makes
`getline` fail, so that line 65 does not close it. -/
def isMyFormat (env : Env) (name : List Nat) : M Reader Bool := fun r =>
  if nameMatches (narrow name) then
    if r.stuck then .ok false r
    else match env.fs (narrow name) with
      | none => .ok false r
      | some content =>
        match fileLines content with
        | [] => .ok false { r with fileName := name, stuck := true }
        | l :: _ =>
          if l.length < 7 then .ok false { r with fileName := name }
          else .ok (l.take 7 = lit "VERSION") { r with fileName := name }
  else .ok false r

/-- `std::wstring::find_last_of(c)`; `npos` is `2^64-1`. -/
def findLastOf (c : Nat) (s : List Nat) : Nat :=
  match s.reverse.findIdx? (· == c) with
  | some k => s.length - 1 - k
  | none => 18446744073709551615

/-- `std::wstring::substr(pos, n)` (all calls have `pos ≤ size()`). -/
def substr (s : List Nat) (pos n : Nat) : List Nat := (s.drop pos).take n

/-- The argument of `WcsStrToUtf8` in `GetElemName`, MskReader.cpp:90-98. -/
def elemName (s : List Nat) : List Nat :=
  let dot := findLastOf 46 s
  let slash := findLastOf 47 s
  if slash = 18446744073709551615 then substr s 0 dot
  else substr s (slash + 1) (subSz (subSz dot slash) 1)

/-- `"REC(%d,%d,%d,%d,%s)"`, MskReader.cpp:186. -/
def recFormat : List Piece :=
  [.chr 82, .chr 69, .chr 67, .chr 40, .int, .chr 44, .int, .chr 44, .int, .chr 44, .int, .chr 44, .str 8, .chr 41]

/-- `"BB(%d,%d,%d,%d)"`, MskReader.cpp:296. -/
def bbFormat : List Piece :=
  [.chr 66, .chr 66, .chr 40, .int, .chr 44, .int, .chr 44, .int, .chr 44, .int, .chr 41]

/-- `"TITLE %d %d  #%s"`, MskReader.cpp:329. -/
def titleFormat : List Piece :=
  [.chr 84, .chr 73, .chr 84, .chr 76, .chr 69, .ws, .int, .ws, .int, .ws, .chr 35, .str 64]

/-- MskReader.cpp:189: `LayerName[LayerName.length() - 1]` is position -1 of an empty name. -/
def stripBracket (name : List UInt8) : Res (List UInt8) :=
  match name.getLast? with
  | none => .ub
  | some c => .ok (if c = 41 then name.dropLast else name)

/-- `MskReader::ParseRecLine`, MskReader.cpp:176-194: `none` = it returned false.  The parameters `LeftBot`
arrive as (0, 0). -/
def parseRecLine (line : List UInt8) : Res (Option (Coord × Coord × List UInt8)) := do
  let d ← scan recFormat (cstr line)
  if d.isZero then pure none
  else
    let x := d.intAt 0 0
    let y := d.intAt 1 0
    let name ← stripBracket (d.strAt 4)
    let rx ← add32 x (d.intAt 2 0)
    let ry ← add32 y (d.intAt 3 0)
    pure (some (⟨x, y⟩, ⟨rx, ry⟩, name))

/-- `MskReader::FillBox`, MskReader.cpp:197-244, on a fresh `Rectangle` (`CalcDelta`, MskReader.cpp:347-354). -/
def fillBox (leftBot rightTop : Coord) (num : Int) : Res Geometry := do
  let dx ← sub32 rightTop.x leftBot.x
  let dy ← sub32 rightTop.y leftBot.y
  let x1 ← sub32 rightTop.x dx
  let x2 ← sub32 rightTop.x dx
  let y2 ← sub32 rightTop.y dy
  let y1 ← sub32 rightTop.y dy
  let c0 : Coord := ⟨x1, rightTop.y⟩
  let cs : List Coord := [rightTop, ⟨rightTop.x, y1⟩, ⟨x2, y2⟩, ⟨x1, rightTop.y⟩]
  let mm := cs.foldl Converter.bboxStep (c0, c0)
  pure { type := .rectangle, coords := c0 :: cs, layer := num, min := mm.1, max := mm.2 }

/-- The layers of the active library and the geometries of the active element. -/
structure Acc where
  layers : List Layer := []
  geoms : List (Option Geometry) := []
deriving DecidableEq, Repr

/-- MskReader.cpp:263-274: `find_if` and push into the layer found, or a new layer at the end. -/
def addToLayer (junk num : Int) (name : List UInt8) (box : Geometry) : List Layer → List Layer
  | [] => [{ layer := num, dataType := junk, name := name, geometries := [some box] }]
  | l :: ls => if num = l.layer then { l with geometries := l.geometries ++ [some box] } :: ls
      else l :: addToLayer junk num name box ls

/-- `ReadSectionRectangle`, MskReader.cpp:247-285; its exceptions stay inside. -/
def readRectangle (env : Env) (line : List UInt8) (acc : Acc) : Res Acc := do
  match ← parseRecLine line with
  | none => pure acc
  | some (lb, rt, name) =>
    if layerNum name = undefinedLayerNum then pure acc
    else
      let box ← fillBox lb rt (layerNum name)
      pure ⟨addToLayer env.junk (layerNum name) name box acc.layers, acc.geoms ++ [some box]⟩

/-- `ReadSectionBoundingBox`, MskReader.cpp:288-315. -/
def readBoundingBox (env : Env) (line : List UInt8) (acc : Acc) : Res Acc := do
  let d ← scan bbFormat (cstr line)
  if d.isZero then pure acc
  else
    let box ← fillBox ⟨d.intAt 0 0, d.intAt 1 0⟩ ⟨d.intAt 2 0, d.intAt 3 0⟩ (layerNum (lit "BB"))
    pure ⟨acc.layers ++ [{ layer := layerNum (lit "BB"), dataType := env.junk, name := lit "BB", geometries := [some box] }],
      acc.geoms ++ [some box]⟩

/-- `ReadSectionTitle`, MskReader.cpp:318-344: the text object it fills is never stored anywhere (it leaks). -/
def readTitle (line : List UInt8) (acc : Acc) : Res Acc := do
  let _ ← scan titleFormat (cstr line)
  pure acc

/-- One round of the loop of `Read`, MskReader.cpp:123-128; `contains` is `find(..) != npos`. -/
def readLine (env : Env) (line : List UInt8) (acc : Acc) : Res Acc :=
  let l := (line.filter (· ≠ 13)).filter (· ≠ 10)
  (if lit "BB" <:+: l then readBoundingBox env l acc else .ok acc) >>= fun acc =>
  (if lit "REC" <:+: l then readRectangle env l acc else .ok acc) >>= fun acc =>
  if lit "TITLE" <:+: l then readTitle l acc else .ok acc

/-- The loop of `Read`, MskReader.cpp:121-129. -/
def readLines (env : Env) : List (List UInt8) → Acc → Res Acc
  | [], acc => .ok acc
  | l :: ls, acc => readLine env l acc >>= readLines env ls

/-- One round of the loop at MskReader.cpp:139-148; a null geometry is undefined. -/
def joinBox (mm : Coord × Coord) (g : Option Geometry) : Res (Coord × Coord) :=
  match g with
  | none => .ub
  | some g =>
    let mn := mm.1
    let mx := mm.2
    let mn : Coord := if mn.x > g.min.x then ⟨g.min.x, mn.y⟩ else mn
    let mn : Coord := if mn.y > g.min.y then ⟨mn.x, g.min.y⟩ else mn
    let mx : Coord := if mx.x < g.max.x then ⟨g.max.x, mx.y⟩ else mx
    let mx : Coord := if mx.y < g.max.y then ⟨mx.x, g.max.y⟩ else mx
    .ok (mn, mx)

/-- MskReader.cpp:136-148: the bounding box of the first element of the first library. -/
def fixBox (libs : List (Option Library)) (heap : Elements) : Res Elements :=
  match libs with
  | some lib :: _ =>
    match lib.elements with
    | some a :: _ =>
      match (heap a).geometries with
      | some g :: gs => do
        let mm ← gs.foldlM joinBox (g.min, g.max)
        pure fun b => if b = a then { heap a with min := mm.1, max := mm.2 } else heap b
      | _ => .ub
    | _ => .ub
  | _ => .ub

/-- The reader, the caller's layout and the elements. -/
structure World where
  reader : Reader
  data : LayoutData
  heap : Elements

/-- `MskReader::Read`, MskReader.cpp:101-173.  `null`: the layout argument is null; `addr`: the address of the
new element.  The `catch` block deletes the recorded element and library; when they are those of an earlier
successful call, the element is deleted twice (once more by `~Library`). -/
def read (env : Env) (addr : Nat) (null : Bool) : M World Bool := fun w =>
  if null then .ok false { w with reader := { w.reader with stuck := false } }
  else
    match (if w.reader.stuck then some [] else (env.fs (narrow w.reader.fileName)).map fileLines) with
    | none =>
      if w.reader.active then .ub
      else .ok false { w with data := { w.data with fileFormat := .undefined } }
    | some lines =>
      let data := { w.data with fileName := w.reader.fileName }
      match env.utf8 (elemName w.reader.fileName), env.utf8 w.reader.fileName with
      | some ename, some lname =>
        match readLines env lines {} with
        | .ok acc =>
          let heap : Elements := fun b => if b = addr then { name := ename, geometries := acc.geoms } else w.heap b
          let lib : Library := { name := lname, elements := [some addr], layers := acc.layers }
          let data := { data with libraries := data.libraries ++ [some lib], fileFormat := .msk }
          match fixBox data.libraries heap with
          | .ok heap => .ok true ⟨{ w.reader with stuck := false, active := true }, data, heap⟩
          | _ => .ub
        | _ => .ub
      | _, _ => .ok false ⟨{ w.reader with stuck := false, active := false }, { data with fileFormat := .undefined }, w.heap⟩

/-- `GetReader`, Impl/LayoutReader/LayoutReader.cpp:7-20: the reader, or `none` for null.  (The `delete` of a
refused reader goes through a base class without virtual destructor; only its effect on memory is
affected, which is not modelled.) -/
def getReader (env : Env) (name : List Nat) : Option Reader :=
  match isMyFormat env name {} with
  | .ok true r => some r
  | _ => none

end Verif.Msk
