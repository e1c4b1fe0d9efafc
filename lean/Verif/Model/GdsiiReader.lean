import Verif.Model.GdsiiHelpers
import Verif.Model.MskReader

/-!
Model of `src/Common/Impl/LayoutReader/ReaderImpl/GdsiiBinaryReader.cpp` and `Include/GdsiiReader.hpp`
(class `LayoutReader_GDSIIbin`), little-endian host, `sizeof(Coord) = 8`, `sizeof(GDSIIRecord) = 4`.

The active geometry, when there is one, is always the last geometry of the active element, so the pointer is a flag.
Reading a member or local that was never written is undefined behaviour.  Allocation does not fail.
-/

namespace Verif.Gds
open Verif

/-- What the reader depends on: the files, the rounding of `double`, and the bytes of a `double` in memory. -/
structure Env where
  fs : List UInt8 → Option (List UInt8)
  rnd : ℚ → ℚ
  mem : Fl → List UInt8

/-- An open `std::ifstream`: the bytes ahead, and whether the end was hit (`eofbit` and `failbit`). -/
structure Strm where
  rest : List UInt8
  eof : Bool := false
deriving DecidableEq, Repr

/-- `file.read(dst, n)` where `dst` holds the `n` bytes `old`: a short read overwrites a prefix; after the end nothing
is read. -/
def rd {α : Type} (cell : UInt8 → α) (n : Nat) (old : List α) (s : Strm) : List α × Strm :=
  if s.eof then (old, s)
  else if s.rest.length < n then (s.rest.map cell ++ old.drop s.rest.length, ⟨[], true⟩)
  else ((s.rest.take n).map cell, ⟨s.rest.drop n, false⟩)

/-- `file.seekg(n, std::ios_base::cur)` on a good stream; the position may lie behind the end. -/
def seek (n : Nat) (s : Strm) : Strm := { s with rest := s.rest.drop n }

/-- The `int16_t` with the given bytes in memory (other lists do not occur). -/
def wordOf : List UInt8 → BitVec 16
  | [b0, b1] => word b0.toBitVec b1.toBitVec
  | _ => 0

/-- The bytes of an `int16_t` in memory. -/
def wordBytes (v : BitVec 16) : List UInt8 := [UInt8.ofBitVec (byte v 0), UInt8.ofBitVec (byte v 1)]

/-- The `int32_t` with the given bytes in memory (other lists do not occur). -/
def dwordOf : List UInt8 → BitVec 32
  | [b0, b1, b2, b3] => dword b0.toBitVec b1.toBitVec b2.toBitVec b3.toBitVec
  | _ => 0

/-- The bytes of an `int32_t` in memory. -/
def dwordBytes (v : BitVec 32) : List UInt8 :=
  [UInt8.ofBitVec (byte v 0), UInt8.ofBitVec (byte v 1), UInt8.ofBitVec (byte v 2), UInt8.ofBitVec (byte v 3)]

/-- `file.read(&v, sizeof(int16_t)); Normalize_WORD(v);` with `v` initialised to `old`. -/
def readWord (old : Int) (s : Strm) : Int × Strm :=
  let r := rd id 2 (wordBytes (BitVec.ofInt 16 old)) s
  ((normalizeWord (wordOf r.1)).toInt, r.2)

/-- The same with `v` uninitialised: a short read leaves an indeterminate value. -/
def readWordNew (s : Strm) : Res (Int × Strm) :=
  if s.eof ∨ s.rest.length < 2 then .ub else .ok (readWord 0 s)

/-- `file.read(&v, sizeof(int32_t)); Normalize_DWORD(v);` -/
def readDword (old : Int) (s : Strm) : Res (Int × Strm) := do
  let r := rd id 4 (dwordBytes (BitVec.ofInt 32 old)) s
  let v ← normalizeDword (dwordOf r.1)
  pure (v.toInt, r.2)

/-- `file.read(&coord, sizeof(Coord)); Normalize_DWORD(coord.x); Normalize_DWORD(coord.y);` -/
def readCoord (old : Coord) (s : Strm) : Res (Coord × Strm) := do
  let r := rd id 8 (dwordBytes (BitVec.ofInt 32 old.x) ++ dwordBytes (BitVec.ofInt 32 old.y)) s
  let x ← normalizeDword (dwordOf (r.1.take 4))
  let y ← normalizeDword (dwordOf (r.1.drop 4))
  pure (⟨x.toInt, y.toInt⟩, r.2)

/-- The loops of `ReadSection_XY`, GdsiiBinaryReader.cpp:489-496, 501-508, 513-520: `coord` keeps its value between the
rounds. -/
def readCoords : Nat → Coord → Strm → Res (List Coord × Strm)
  | 0, _, s => .ok ([], s)
  | n + 1, old, s => do
    let (c, s) ← readCoord old s
    let (cs, s) ← readCoords n c s
    pure (c :: cs, s)

/-- `char *str = new char[length + 1]; memset(...); file.read(str, length); ... = str;` — the string ends at the first
zero. -/
def readString (length : Nat) (s : Strm) : List UInt8 × Strm :=
  let r := rd id length (List.replicate length 0) s
  (r.1.takeWhile (· ≠ 0), r.2)

/-- `struct GDSIIRecord`, Include/GDSIITypes.hpp:3-7. -/
structure Rec where
  length : Nat
  recordType : UInt8
deriving DecidableEq, Repr

/-- The state of a running `Read`: the stream, `p_data->libraries`, the elements, the address of the next new element,
and the three active pointers (the active library is an index into `libs`, the active element an address). -/
structure PS where
  file : Strm
  libs : List (Option Library)
  heap : Elements
  next : Nat
  lib : Option Nat := none
  elem : Option Nat := none
  geom : Bool := false

namespace PS

/-- `p_activeLibrary` is set, `p_activeElement` and `p_activeGeometry` are not. -/
def inLib (p : PS) : Bool := p.lib.isSome && !p.elem.isSome && !p.geom
/-- `p_activeLibrary` and `p_activeElement` are set, `p_activeGeometry` is not. -/
def inElem (p : PS) : Bool := p.lib.isSome && p.elem.isSome && !p.geom
/-- All three are set. -/
def inGeom (p : PS) : Bool := p.lib.isSome && p.elem.isSome && p.geom

/-- an assignment to `*p_activeLibrary` -/
def onLib (p : PS) (f : Library → Library) : PS :=
  match p.lib with
  | none => p
  | some i => { p with libs := p.libs.modify i (Option.map f) }

/-- an assignment to `*p_activeElement` -/
def onElem (p : PS) (f : Element → Element) : PS :=
  match p.elem with
  | none => p
  | some a => { p with heap := fun b => if b = a then f (p.heap a) else p.heap b }

/-- an assignment to `*p_activeGeometry` -/
def onGeom (p : PS) (f : Geometry → Geometry) : PS :=
  p.onElem fun (e : Element) => { e with geometries := e.geometries.modify (e.geometries.length - 1) (Option.map f) }

/-- `*p_activeGeometry` -/
def theGeom (p : PS) : Geometry :=
  match p.elem with
  | none => { type := .undefined }
  | some a => match (p.heap a).geometries.getLast? with
    | some (some g) => g
    | _ => { type := .undefined }

end PS

/-- `ReadSection_HEADER`, GdsiiBinaryReader.cpp:141-145. -/
def secHeader (p : PS) : Res PS := .ok { p with file := (readWord 0 p.file).2 }

/-- two `DateTime`s, read into uninitialised variables, GdsiiBinaryReader.cpp:156-172 and 238-254 -/
def readDates (s : Strm) : Res Strm :=
  if s.eof ∨ s.rest.length < 24 then .ub else .ok ⟨s.rest.drop 24, false⟩

/-- `ReadSection_BEGINLIBRARY`, GdsiiBinaryReader.cpp:148-173. -/
def secBgnLib (p : PS) : Res PS :=
  if p.lib.isSome then .ok p
  else do
    let p := { p with libs := p.libs ++ [some ({} : Library)], lib := some p.libs.length }
    let s ← readDates p.file
    pure { p with file := s }

/-- `ReadSection_LIBNAME`, GdsiiBinaryReader.cpp:175-195. -/
def secLibName (r : Rec) (p : PS) : Res PS :=
  if p.inLib then
    let x := readString r.length p.file
    .ok ({ p with file := x.2 }.onLib fun (l : Library) => { l with name := x.1 })
  else .ok p

/-- `ReadSection_UNITS`, GdsiiBinaryReader.cpp:197-215.  A file that ends inside the record leaves the rest of the old
bytes. -/
def secUnits (env : Env) (p : PS) : Res PS :=
  if p.inLib then
    match p.lib with
    | none => .ok p
    | some i => match p.libs[i]? with
      | some (some l) => do
        let x := rd id 16 (env.mem l.units.1 ++ env.mem l.units.2) p.file
        let u ← normalizeDouble env.rnd (x.1.take 8)
        let v ← normalizeDouble env.rnd (x.1.drop 8)
        pure ({ p with file := x.2 }.onLib fun (l : Library) => { l with units := (u, v) })
      | _ => .ub
  else .ok p

/-- `ReadSection_ENDLIBRARY`, GdsiiBinaryReader.cpp:217-222. -/
def secEndLib (p : PS) : Res PS := .ok { p with lib := none }

/-- `ReadSection_BEGINSTRUCTURE`, GdsiiBinaryReader.cpp:224-255. -/
def secBgnStr (p : PS) : Res PS :=
  if p.inLib then do
    let s ← readDates p.file
    pure { p with file := s, heap := fun b => if b = p.next then {} else p.heap b, elem := some p.next, next := p.next + 1 }
  else .ok p

/-- `ReadSection_STRNAME`, GdsiiBinaryReader.cpp:257-277. -/
def secStrName (r : Rec) (p : PS) : Res PS :=
  if p.inElem then
    let x := readString r.length p.file
    .ok ({ p with file := x.2 }.onElem fun (e : Element) => { e with name := x.1 })
  else .ok p

/-- The loop of `ReadSection_ENDSTRUCTURE`, GdsiiBinaryReader.cpp:297-306, is the one of the MSK reader (`Msk.joinBox`). -/
def elemBox (e : Element) : Res Element :=
  match e.geometries with
  | [] => .ok e
  | none :: _ => .ub
  | some g :: gs => do
    let mm ← gs.foldlM Msk.joinBox (g.min, g.max)
    pure { e with min := mm.1, max := mm.2 }

/-- `ReadSection_ENDSTRUCTURE`, GdsiiBinaryReader.cpp:279-310. -/
def secEndStr (p : PS) : Res PS :=
  if p.inElem then
    match p.elem with
    | none => .ok p
    | some a => do
      let e ← elemBox (p.heap a)
      let p := p.onElem fun _ => e
      let p := p.onLib fun (l : Library) => { l with elements := l.elements ++ [some a] }
      pure { p with elem := none }
  else .ok p

/-- `ReadSection_BOUNDARY`, `_PATH`, `_TEXT` and `_BOX`, GdsiiBinaryReader.cpp:312-329, 331-348, 373-390, 858-875: a new
geometry of the given type. -/
def secNewGeom (t : GType) (p : PS) : Res PS :=
  if p.inElem then
    .ok { p.onElem (fun (e : Element) => { e with geometries := e.geometries ++ [some { type := t }] }) with geom := true }
  else .ok p

/-- `ReadSection_SREF`, GdsiiBinaryReader.cpp:350-368. -/
def secSref (p : PS) : Res PS :=
  if p.inElem then
    .ok { p.onElem (fun (e : Element) => { e with geometries := e.geometries ++ [some { type := .reference }], isFlat := false })
      with geom := true }
  else .ok p

/-- `ReadSection_LAYER`, GdsiiBinaryReader.cpp:392-408. -/
def secLayer (p : PS) : Res PS :=
  if p.inGeom then
    let x := readWord p.theGeom.layer p.file
    .ok ({ p with file := x.2 }.onGeom fun (g : Geometry) => { g with layer := x.1 })
  else .ok p

/-- `ReadSection_DATATYPE`, GdsiiBinaryReader.cpp:410-440. -/
def secDataType (p : PS) : Res PS :=
  if p.inGeom then
    let x := readWord 0 p.file
    .ok ({ p with file := x.2 }.onGeom fun (g : Geometry) =>
      if g.type = GType.polygon ∨ g.type = GType.path then { g with dataType := x.1 } else g)
  else .ok p

/-- `ReadSection_WIDTH`, GdsiiBinaryReader.cpp:442-472. -/
def secWidth (p : PS) : Res PS :=
  if p.inGeom then do
    let x ← readDword 0 p.file
    pure ({ p with file := x.2 }.onGeom fun (g : Geometry) => if g.type = GType.path ∨ g.type = GType.text then { g with width := x.1 } else g)
  else .ok p

/-- The end of `ReadSection_XY`, GdsiiBinaryReader.cpp:545-559. -/
def geomBox (g : Geometry) : Geometry :=
  match g.coords with
  | [] => g
  | c :: cs =>
    let mm := cs.foldl Converter.bboxStep (c, c)
    { g with min := mm.1, max := mm.2 }

/-- `ReadSection_XY`, GdsiiBinaryReader.cpp:474-560. -/
def secXy (r : Rec) (p : PS) : Res PS :=
  if p.inGeom then
    match p.theGeom.type with
    | .polygon | .path | .rectangle => do
      let x ← readCoords (r.length / 8) ⟨0, 0⟩ p.file
      pure ({ p with file := x.2 }.onGeom fun (g : Geometry) => geomBox { g with coords := x.1 })
    | .reference | .text => do
      let x ← readCoord ⟨0, 0⟩ p.file
      pure ({ p with file := x.2 }.onGeom fun (g : Geometry) => geomBox { g with coords := g.coords ++ [x.1] })
    | .undefined => .ok (p.onGeom geomBox)
  else .ok p

/-- `ReadSection_ENDELEMENT`, GdsiiBinaryReader.cpp:562-577. -/
def secEndEl (p : PS) : Res PS :=
  if p.inGeom then .ok { p with geom := false } else .ok p

/-- `ReadSection_SNAME`, GdsiiBinaryReader.cpp:579-603. -/
def secSname (r : Rec) (p : PS) : Res PS :=
  if p.inGeom && p.theGeom.type = GType.reference then
    let x := readString r.length p.file
    .ok ({ p with file := x.2 }.onGeom fun (g : Geometry) => { g with refName := x.1 })
  else .ok p

/-- `ReadSection_TEXTTYPE`, GdsiiBinaryReader.cpp:609-632. -/
def secTextType (p : PS) : Res PS :=
  if p.inGeom && p.theGeom.type = GType.text then do
    let x ← readWordNew p.file
    pure ({ p with file := x.2 }.onGeom fun (g : Geometry) => { g with textType := x.1 })
  else .ok p

/-- `ReadSection_PRESENTATION`, GdsiiBinaryReader.cpp:634-657. -/
def secPresentation (p : PS) : Res PS :=
  if p.inGeom && p.theGeom.type = GType.text then do
    let x ← readWordNew p.file
    pure ({ p with file := x.2 }.onGeom fun (g : Geometry) => { g with flagsPresentation := x.1 })
  else .ok p

/-- `ReadSection_STRING`, GdsiiBinaryReader.cpp:661-685. -/
def secString (r : Rec) (p : PS) : Res PS :=
  if p.inGeom && p.theGeom.type = GType.text then
    let x := readString r.length p.file
    .ok ({ p with file := x.2 }.onGeom fun (g : Geometry) => { g with stringValue := x.1 })
  else .ok p

/-- `ReadSection_STRANS`, GdsiiBinaryReader.cpp:687-719: for a reference the flags are dropped. -/
def secStrans (p : PS) : Res PS :=
  if p.inGeom then do
    let x ← readWordNew p.file
    pure ({ p with file := x.2 }.onGeom fun (g : Geometry) => if g.type = GType.text then { g with flagsTransformation := x.1 } else g)
  else .ok p

/-- `ReadSection_MAG`, GdsiiBinaryReader.cpp:721-754. -/
def secMag (env : Env) (p : PS) : Res PS :=
  if p.inGeom then do
    let x := rd id 8 (List.replicate 8 0) p.file
    let m ← normalizeDouble env.rnd x.1
    pure ({ p with file := x.2 }.onGeom fun (g : Geometry) =>
      if g.type = GType.reference ∨ g.type = GType.text then { g with magnification := m } else g)
  else .ok p

/-- `ReadSection_PATHTYPE`, GdsiiBinaryReader.cpp:762-792. -/
def secPathType (p : PS) : Res PS :=
  if p.inGeom then do
    let x ← readWordNew p.file
    pure ({ p with file := x.2 }.onGeom fun (g : Geometry) => if g.type = GType.path ∨ g.type = GType.text then { g with pathType := x.1 } else g)
  else .ok p

/-- `ReadSection_PROPATTR`, GdsiiBinaryReader.cpp:804-828. -/
def secPropAttr (p : PS) : Res PS :=
  if p.inGeom then
    match p.theGeom.properties.getLast? with
    | some (_, []) => .ok p
    | _ =>
      let x := readWord 0 p.file
      .ok ({ p with file := x.2 }.onGeom fun (g : Geometry) => { g with properties := g.properties ++ [(x.1, [])] })
  else .ok p

/-- `ReadSection_BOXTYPE`, GdsiiBinaryReader.cpp:877-900. -/
def secBoxType (p : PS) : Res PS :=
  if p.inGeom && p.theGeom.type = GType.rectangle then
    let x := readWord 0 p.file
    .ok ({ p with file := x.2 }.onGeom fun (g : Geometry) => { g with rectType := x.1 })
  else .ok p

/-- The `switch` of `Read`, GdsiiBinaryReader.cpp:68-130, with the record types of Include/GDSIITypes.hpp:28-90;
everything not dispatched is skipped.  (`ReadSection_PROPVALUE` is not dispatched.) -/
def dispatch (env : Env) (r : Rec) (p : PS) : Res PS :=
  match r.recordType with
  | 0x00 => secHeader p
  | 0x01 => secBgnLib p
  | 0x02 => secLibName r p
  | 0x03 => secUnits env p
  | 0x04 => secEndLib p
  | 0x05 => secBgnStr p
  | 0x06 => secStrName r p
  | 0x07 => secEndStr p
  | 0x08 => secNewGeom .polygon p
  | 0x09 => secNewGeom .path p
  | 0x0A => secSref p
  | 0x0C => secNewGeom .text p
  | 0x0D => secLayer p
  | 0x0E => secDataType p
  | 0x0F => secWidth p
  | 0x10 => secXy r p
  | 0x11 => secEndEl p
  | 0x12 => secSname r p
  | 0x16 => secTextType p
  | 0x17 => secPresentation p
  | 0x19 => secString r p
  | 0x1A => secStrans p
  | 0x1B => secMag env p
  | 0x21 => secPathType p
  | 0x2B => secPropAttr p
  | 0x2D => secNewGeom .rectangle p
  | 0x2E => secBoxType p
  | _ => .ok { p with file := seek r.length p.file }

/-- `_record.length` after `Normalize_WORD` and `-= sizeof(GDSIIRecord)` (on `uint16_t`). -/
def recLength (b0 b1 : UInt8) : Nat := (normalizeWord (wordOf [b0, b1]) - 4#16).toNat

/-- The loop of `Read`, GdsiiBinaryReader.cpp:60-131: a record header that cannot be read completely ends it.  Every
round reads four bytes, so `fuel` = the number of bytes + 1 is enough (C57_outcome). -/
def readRecords (env : Env) : Nat → PS → Res PS
  | 0, p => .ok p
  | fuel + 1, p =>
    if p.file.eof then .ok p
    else match p.file.rest with
      | b0 :: b1 :: t :: _ :: rest => do
        let p ← dispatch env ⟨recLength b0 b1, t⟩ { p with file := ⟨rest, false⟩ }
        readRecords env fuel p
      | _ => .ok { p with file := ⟨[], true⟩ }

/-- The inner loop of `ResolveStructureReference`, GdsiiBinaryReader.cpp:944-950. -/
def findInLib (heap : Elements) (name : List UInt8) : List (Option Nat) → Res (Option Nat)
  | [] => .ok none
  | none :: _ => .ub
  | some a :: t => if (heap a).name = name then .ok (some a) else findInLib heap name t

/-- `ResolveStructureReference`, GdsiiBinaryReader.cpp:942-952: the element it finds. -/
def findElem (heap : Elements) (name : List UInt8) : List (Option Library) → Res (Option Nat)
  | [] => .ok none
  | none :: _ => .ub
  | some l :: t => do
    match ← findInLib heap name l.elements with
    | some a => pure (some a)
    | none => findElem heap name t

/-- The loop over the geometries `ks` of the element at `a`, GdsiiBinaryReader.cpp:925-930. -/
def resolveGeoms (libs : List (Option Library)) (a : Nat) : List Nat → Elements → Res (Elements × Bool)
  | [], heap => .ok (heap, true)
  | k :: ks, heap =>
    match (heap a).geometries[k]? with
    | some (some g) =>
      if g.type ≠ GType.reference then resolveGeoms libs a ks heap
      else do
        match ← findElem heap g.refName libs with
        | none => pure (heap, false)
        | some b =>
          let heap : Elements := fun c =>
            if c = a then { heap a with geometries := (heap a).geometries.set k (some { g with element := some b }) } else heap c
          let heap : Elements := fun c => if c = b then { heap b with nested := true } else heap c
          resolveGeoms libs a ks heap
    | _ => .ub

/-- The loop over elements, GdsiiBinaryReader.cpp:924. -/
def resolveElems (libs : List (Option Library)) : List (Option Nat) → Elements → Res (Elements × Bool)
  | [], heap => .ok (heap, true)
  | none :: _, _ => .ub
  | some a :: t, heap => do
    let (heap, done) ← resolveGeoms libs a (List.range (heap a).geometries.length) heap
    if done then resolveElems libs t heap else pure (heap, false)

/-- The loop over libraries, GdsiiBinaryReader.cpp:923. -/
def resolveLibs (libs : List (Option Library)) : List (Option Library) → Elements → Res (Elements × Bool)
  | [], heap => .ok (heap, true)
  | none :: _, _ => .ub
  | some l :: t, heap => do
    let (heap, done) ← resolveElems libs l.elements heap
    if done then resolveLibs libs t heap else pure (heap, false)

/-- `dtype` in `EnumerateLayers`, GdsiiBinaryReader.cpp:964-973. -/
def dtypeOf (g : Geometry) : Int := if g.type = GType.polygon ∨ g.type = GType.path then g.dataType else 0

/-- One round of the innermost loop of `EnumerateLayers`, GdsiiBinaryReader.cpp:961-986. -/
def addLayer (layers : List Layer) (g : Option Geometry) : Res (List Layer) :=
  match g with
  | none => .ub
  | some g =>
    if g.type = GType.reference then .ok layers
    else if layers.any (fun l => l.layer == g.layer && l.dataType == dtypeOf g) then .ok layers
    else .ok (layers ++ [{ layer := g.layer, dataType := dtypeOf g }])

/-- The loop over the elements of a library, GdsiiBinaryReader.cpp:959-988. -/
def collectLayers (heap : Elements) (l : Library) : Res (List Layer) :=
  l.elements.foldlM (fun ls e => match e with
    | none => .ub
    | some a => (heap a).geometries.foldlM addLayer ls) l.layers

/-- GdsiiBinaryReader.cpp:996-999 for neighbours `a` (at `k - 1`) and `b` (at `k`). -/
def swapStep (a b : Layer) : Layer × Layer :=
  let (a, b) := if b.layer < a.layer then ({ a with layer := b.layer }, { b with layer := a.layer }) else (a, b)
  if b.layer = a.layer ∧ b.dataType < a.dataType then ({ a with layer := b.layer }, { b with layer := a.layer }) else (a, b)

/-- The loop over `k`, GdsiiBinaryReader.cpp:995-1000, with the layer at `k - 1` in hand. -/
def sortPass : Layer → List Layer → List Layer
  | a, [] => [a]
  | a, b :: t => (swapStep a b).1 :: sortPass (swapStep a b).2 t

/-- The loop over `j`, GdsiiBinaryReader.cpp:994-1001. -/
def sortPasses : Nat → List Layer → List Layer
  | 0, ls => ls
  | _ + 1, [] => []
  | n + 1, a :: t => sortPasses n (sortPass a t)

/-- `EnumerateLayers`, GdsiiBinaryReader.cpp:954-1004, on one library. -/
def enumLib (heap : Elements) (l : Library) : Res Library := do
  let ls ← collectLayers heap l
  pure { l with layers := sortPasses ls.length ls }

/-- `EnumerateLayers`, GdsiiBinaryReader.cpp:954-1004.  (The code first collects the layers of every library and then
sorts them; a library is touched by its own rounds only.) -/
def enumerateLayers (heap : Elements) : List (Option Library) → Res (List (Option Library))
  | [] => .ok []
  | none :: _ => .ub
  | some l :: t => do
    let l ← enumLib heap l
    let t ← enumerateLayers heap t
    pure (some l :: t)

/-- One round of `EvaluateBoundingBox`, GdsiiBinaryReader.cpp:1011-1026. -/
def evalElem (heap : Elements) (l : Library) (e : Option Nat) : Res Library :=
  match e with
  | none => .ub
  | some a =>
    let e := heap a
    if e.nested then .ok l
    else
      let mn := e.min
      let mx := e.max
      let mn : Coord := if mn.x > e.min.x then ⟨e.min.x, mn.y⟩ else mn
      let mn : Coord := if mn.y > e.min.y then ⟨mn.x, e.min.y⟩ else mn
      let mx : Coord := if mx.x > e.max.x then ⟨e.max.x, mx.y⟩ else mx
      let mx : Coord := if mx.y > e.max.y then ⟨mx.x, e.max.y⟩ else mx
      .ok { l with min := mn, max := mx }

/-- `EvaluateBoundingBox`, GdsiiBinaryReader.cpp:1006-1028. -/
def evaluateBoundingBox (heap : Elements) : List (Option Library) → Res (List (Option Library))
  | [] => .ok []
  | none :: _ => .ub
  | some l :: t => do
    let l ← l.elements.foldlM (evalElem heap) l
    let t ← evaluateBoundingBox heap t
    pure (some l :: t)

/-- `PostProcessLayout`, GdsiiBinaryReader.cpp:920-940. -/
def postProcess (libs : List (Option Library)) (heap : Elements) : Res (List (Option Library) × Elements × Bool) := do
  let (heap, done) ← resolveLibs libs libs heap
  if done then
    let libs ← enumerateLayers heap libs
    let libs ← evaluateBoundingBox heap libs
    pure (libs, heap, true)
  else pure (libs, heap, false)

/-- `class LayoutReader_GDSIIbin`, Include/GdsiiReader.hpp:13-16, and its base; `hasData`: `p_data` is not null.  The
constructors (GdsiiBinaryReader.cpp:17, LayoutReader.cpp:5) give the default values.  The active pointers are null
between calls as far as this model goes: a `Read` that gets past its first test is modelled from a fresh parser
state. -/
structure Reader where
  fileName : List Nat := []
  hasData : Bool := false
deriving DecidableEq, Repr

/-- `fileName.substr(fileName.find_last_of(L".") + 1)`; `npos + 1` is 0. -/
def extension (s : List Nat) : List Nat := s.drop ((Msk.findLastOf 46 s + 1) % 18446744073709551616)

/-- a member or local that must have been written before it is read -/
def cell : Option UInt8 → Res UInt8
  | none => .ub
  | some b => .ok b

/-- The test of one record header in `IsMyFormat`, GdsiiBinaryReader.cpp:31-34 and 39-42: `m` is the memory of the
record, the outcome says whether it is the wanted one, and the memory of the `length` field afterwards. -/
def checkRecord (m : List (Option UInt8)) (wantType wantData : UInt8) (wantLength : Nat) : Res (Bool × List UInt8) := do
  let b0 ← cell m[0]?.join
  let b1 ← cell m[1]?.join
  let len := normalizeWord (wordOf [b0, b1]) - 4#16
  let t ← cell m[2]?.join
  if t ≠ wantType then pure (false, wordBytes len)
  else do
    let d ← cell m[3]?.join
    if d ≠ wantData then pure (false, wordBytes len)
    else pure (decide (len.toNat = wantLength), wordBytes len)

/-- `IsMyFormat`, GdsiiBinaryReader.cpp:20-48. -/
def isMyFormat (env : Env) (name : List Nat) : M Reader Bool := fun r =>
  let r := { r with fileName := name }
  if extension name ≠ [103, 100, 115] ∧ extension name ≠ [103, 100, 115, 105, 105] then .ok false r
  else match env.fs (Msk.narrow name) with
    | none => .ok false r
    | some content =>
      let x := rd some 4 [none, none, none, none] ⟨content, false⟩
      match checkRecord x.1 0x00 2 2 with
      | .ok (true, len) =>
        let s := seek 2 x.2
        let y := rd some 4 (len.map some ++ (x.1.drop 2)) s
        match checkRecord y.1 0x01 2 24 with
        | .ok (b, _) => .ok b r
        | _ => .ub
      | .ok (false, _) => .ok false r
      | _ => .ub

/-- The reader, the caller's layout and the elements. -/
structure World where
  reader : Reader
  data : LayoutData
  heap : Elements

/-- `Read`, GdsiiBinaryReader.cpp:50-139.  `null`: the argument is null; `next`: the address of the first new
element. -/
def read (env : Env) (next : Nat) (null : Bool) : M World Bool := fun w =>
  if !w.reader.hasData then .ok false w
  else
    match env.fs (Msk.narrow w.reader.fileName) with
    | none => .ok false { w with reader := { w.reader with hasData := !null } }
    | some content =>
      if null then .ub
      else match readRecords env (content.length + 1) { file := ⟨content, false⟩, libs := w.data.libraries, heap := w.heap, next := next } with
        | .ok p =>
          match postProcess p.libs p.heap with
          | .ok (libs, heap, b) =>
            .ok b ⟨w.reader, { libraries := libs, fileName := w.reader.fileName, fileFormat := .gdsiiBin }, heap⟩
          | _ => .ub
        | _ => .ub

end Verif.Gds
