import Verif.Model.MskReader

/-!
`MskReader::Read` (`src/Common/Impl/LayoutReader/ReaderImpl/MskReader.cpp:101-344`) once more, with every object at an address of
its own and with memory requests that may fail.

* Libraries, elements and geometries are objects at addresses; containers hold addresses.  The address of an object is never
  used again (a pointer to a deleted object is invalid even when its memory is reused).
* `fails p` says whether the memory request at the program point `p` fails (with `bad_alloc`).  Every point is passed at most once
  in a call.  Statements that make several requests without an effect in between (the five `push_back` of `FillBox`, a layer
  and the list of layers) are one point.  `std::map::find` with a short key, the copies of layer names (at most 7 characters) and the
  second assignment of the same file name (line 133) make no request in the implementations at hand and have no point.
* `delete` of a `Geometry*` is taken as compilers do it (C58 has the letter of the standard).
* Null pointers in the caller's layout are not modelled here.
-/

namespace Verif.Msk.Mem
open Verif Msk Scan

/-- The three kinds of lines `Read` looks for, MskReader.cpp:126-128. -/
inductive Part where
  | bb | rect | title
deriving DecidableEq, Repr

/-- Where `Read` asks for memory; lines of the file are counted from 0. -/
inductive Point where
  /-- the narrow file name, line 108 -/
  | pathString
  /-- the buffer of the stream, line 108 -/
  | openStream
  /-- lines 112 and 113 -/
  | newLibrary | newElement
  /-- the assignments of lines 115, 116 and 117 -/
  | layoutName | elementName | libraryName
  /-- the buffer of `std::getline`, line 121 -/
  | getline (line : Nat)
  /-- `new Rectangle`, `new Text`: lines 251, 292, 322 -/
  | newObject (line : Nat) (part : Part)
  /-- the coordinates (`FillBox`, line 331) and the text (line 335) -/
  | fill (line : Nat) (part : Part)
  /-- the layer: lines 265-274 and 304-305 -/
  | layer (line : Nat) (part : Part)
  /-- the list of the element: lines 276 and 306 -/
  | element (line : Nat) (part : Part)
  /-- lines 130 and 131 -/
  | listElement | listLibrary
deriving DecidableEq, Repr

/-- `struct Layer`, Include/LayoutData.hpp:103-108, with pointers. -/
structure LayerObj where
  layer : Int
  dataType : Int := 0
  name : List UInt8 := []
  geometries : List Nat := []
deriving DecidableEq, Repr

/-- `struct Element`, Include/LayoutData.hpp:85-101, with pointers (`isFlat` and `nested` are not used here). -/
structure ElemObj where
  name : List UInt8 := []
  geometries : List Nat := []
  min : Coord := ⟨-1, -1⟩
  max : Coord := ⟨-1, -1⟩
deriving DecidableEq, Repr

/-- `struct Library`, Include/LayoutData.hpp:111-131, with pointers (`units`, `min` and `max` keep their initial values). -/
structure LibObj where
  name : List UInt8 := []
  elements : List Nat := []
  layers : List LayerObj := []
deriving DecidableEq, Repr

/-- `struct LayoutData`, Include/LayoutData.hpp:144-156, with pointers. -/
structure LayoutObj where
  libraries : List Nat := []
  fileName : List Nat := []
  fileFormat : FileFormat := .undefined
deriving DecidableEq, Repr

/-- The memory, the reader (`p_activeLibrary`, `p_activeElement`, MskReader.hpp:19-21, `none` = null; `fileName`, `stuck` as in
`Msk.Reader`) and the caller's layout. -/
structure St where
  next : Nat
  live : Nat → Bool
  libs : Nat → LibObj
  elems : Nat → ElemObj
  geos : Nat → Geometry
  fileName : List Nat
  stuck : Bool := false
  activeLibrary : Option Nat := none
  activeElement : Option Nat := none
  data : LayoutObj

/-- a memory request that is not for an object of its own -/
def ask (fails : Point → Bool) (p : Point) : M St Unit := fun s =>
  if fails p then .throw .badAlloc s else .ok () s

/-- `new`: a fresh address -/
def alloc (fails : Point → Bool) (p : Point) : M St Nat := fun s =>
  if fails p then .throw .badAlloc s
  else .ok s.next { s with next := s.next + 1, live := fun b => if b = s.next then true else s.live b }

/-- an object leaves the memory -/
def kill (a : Nat) : M St Unit := fun s => .ok () { s with live := fun b => if b = a then false else s.live b }

/-- `delete` of a geometry. -/
def deleteGeometry (a : Nat) : M St Unit := fun s => if s.live a then kill a s else .ub

/-- The loop of `~Element`, Include/LayoutData.hpp:95-101. -/
def deleteGeometries : List Nat → M St Unit
  | [] => pure ()
  | a :: as => do
    deleteGeometry a
    deleteGeometries as

/-- `delete` of an element. -/
def deleteElement (a : Nat) : M St Unit := fun s =>
  if s.live a then (do deleteGeometries (s.elems a).geometries; kill a : M St Unit) s else .ub

/-- The loop of `~Library`, Include/LayoutData.hpp:123-130. -/
def deleteElements : List Nat → M St Unit
  | [] => pure ()
  | a :: as => do
    deleteElement a
    deleteElements as

/-- `delete` of a library. -/
def deleteLibrary (a : Nat) : M St Unit := fun s =>
  if s.live a then (do deleteElements (s.libs a).elements; kill a : M St Unit) s else .ub

/-- The loop of `~LayoutData`, Include/LayoutData.hpp:149-155. -/
def deleteLibraries : List Nat → M St Unit
  | [] => pure ()
  | a :: as => do
    deleteLibrary a
    deleteLibraries as

/-- `~LayoutData` of the caller's layout, Include/LayoutData.hpp:149-155. -/
def destroy : M St Unit := fun s => deleteLibraries s.data.libraries s

/-- a geometry gets its contents -/
def setGeo (a : Nat) (g : Geometry) : M St Unit := fun s => .ok () { s with geos := fun b => if b = a then g else s.geos b }

/-- MskReader.cpp:263-274 with pointers. -/
def addPtr (junk num : Int) (name : List UInt8) (a : Nat) : List LayerObj → List LayerObj
  | [] => [{ layer := num, dataType := junk, name := name, geometries := [a] }]
  | l :: ls => if num = l.layer then { l with geometries := l.geometries ++ [a] } :: ls
      else l :: addPtr junk num name a ls

/-- the layers of a library change -/
def setLayers (lib : Nat) (f : List LayerObj → List LayerObj) : M St Unit := fun s =>
  .ok () { s with libs := fun b => if b = lib then { s.libs lib with layers := f (s.libs lib).layers } else s.libs b }

/-- `p_activeElement->geometries.push_back(a)`. -/
def pushGeometry (el a : Nat) : M St Unit := fun s =>
  .ok () { s with elems := fun b => if b = el then { s.elems el with geometries := (s.elems el).geometries ++ [a] } else s.elems b }

/-- The `try` block of `ReadSectionRectangle`, MskReader.cpp:252-277, with the box at `a`. -/
def rectangleBody (env : Env) (fails : Point → Bool) (lib el k : Nat) (line : List UInt8) (a : Nat) : M St Unit := do
  match ← M.lift (parseRecLine line) with
  | none => M.raise .runtimeError
  | some (lb, rt, name) =>
    if layerNum name = undefinedLayerNum then M.raise .runtimeError
    else
      let box ← M.lift (fillBox lb rt (layerNum name))
      ask fails (.fill k .rect)
      setGeo a box
      ask fails (.layer k .rect)
      setLayers lib (addPtr env.junk (layerNum name) name a)
      ask fails (.element k .rect)
      pushGeometry el a

/-- The `try` block of `ReadSectionBoundingBox`, MskReader.cpp:293-307. -/
def boundingBoxBody (env : Env) (fails : Point → Bool) (lib el k : Nat) (line : List UInt8) (a : Nat) : M St Unit := do
  let d ← M.lift (scan bbFormat (cstr line))
  if d.isZero then M.raise .runtimeError
  else
    let box ← M.lift (fillBox ⟨d.intAt 0 0, d.intAt 1 0⟩ ⟨d.intAt 2 0, d.intAt 3 0⟩ (layerNum (lit "BB")))
    ask fails (.fill k .bb)
    setGeo a box
    ask fails (.layer k .bb)
    setLayers lib fun ls => ls ++ [{ layer := layerNum (lit "BB"), dataType := env.junk, name := lit "BB", geometries := [a] }]
    ask fails (.element k .bb)
    pushGeometry el a

/-- The `try` block of `ReadSectionTitle`, MskReader.cpp:324-336: the text is filled and stored nowhere. -/
def titleBody (fails : Point → Bool) (k : Nat) (line : List UInt8) : M St Unit := do
  let d ← M.lift (scan titleFormat (cstr line))
  if d.isZero then M.raise .runtimeError
  else ask fails (.fill k .title)

/-- The frame of the three sections, MskReader.cpp:251, 278-284; 292, 308-314; 322, 337-343: `new` outside the `try`, `delete` in the
handler. -/
def sect (fails : Point → Bool) (k : Nat) (part : Part) (fresh : Geometry) (body : Nat → M St Unit) : M St Unit := do
  let a ← alloc fails (.newObject k part)
  setGeo a fresh
  M.tryCatch (body a) fun _ => deleteGeometry a

/-- `l.find(k) != npos` -/
def occurs (k l : List UInt8) : Bool := decide (k <:+: l)

/-- `if (c) { x }` -/
def onlyIf (c : Bool) (x : M St Unit) : M St Unit := if c then x else pure ()

/-- One round of the loop of `Read`, MskReader.cpp:123-128. -/
def readLine (env : Env) (fails : Point → Bool) (lib el k : Nat) (line : List UInt8) : M St Unit := do
  let l := (line.filter (· ≠ 13)).filter (· ≠ 10)
  onlyIf (occurs (lit "BB") l) (sect fails k .bb { type := .rectangle } (boundingBoxBody env fails lib el k l))
  onlyIf (occurs (lit "REC") l) (sect fails k .rect { type := .rectangle } (rectangleBody env fails lib el k l))
  onlyIf (occurs (lit "TITLE") l) (sect fails k .title { type := .text } fun _ => titleBody fails k l)

/-- The loop of `Read`, MskReader.cpp:121-129, from line `k` on.  `std::getline` catches an exception and sets `badbit`, which
ends the loop like the end of the file. -/
def readLines (env : Env) (fails : Point → Bool) (lib el : Nat) : Nat → List (List UInt8) → M St Unit
  | _, [] => pure ()
  | k, l :: ls =>
    if fails (.getline k) then pure ()
    else do
      readLine env fails lib el k l
      readLines env fails lib el (k + 1) ls

/-- One round of the loop at MskReader.cpp:139-148. -/
def joinPtr (s : St) (mm : Coord × Coord) (a : Nat) : Res (Coord × Coord) :=
  if s.live a then joinBox mm (some (s.geos a)) else .ub

/-- MskReader.cpp:136-148; a pointer to an object that is not there (any more) may not be used. -/
def fixBox : M St Unit := fun s =>
  match s.data.libraries with
  | [] => .ub
  | l :: _ =>
    if s.live l then
      match (s.libs l).elements with
      | [] => .ub
      | e :: _ =>
        if s.live e then
          match (s.elems e).geometries with
          | [] => .ub
          | g :: gs =>
            if s.live g then
              match gs.foldlM (joinPtr s) ((s.geos g).min, (s.geos g).max) with
              | .ok mm => .ok () { s with elems := fun b => if b = e then { s.elems e with min := mm.1, max := mm.2 } else s.elems b }
              | .throw x => .throw x s
              | .ub => .ub
            else .ub
        else .ub
    else .ub

/-- MskReader.cpp:108-109: the lines `getline` will deliver.  `open` does nothing on a stream that is still open. -/
def openFile (env : Env) (fails : Point → Bool) : M St (List (List UInt8)) := do
  ask fails .pathString
  let s ← M.get
  if s.stuck then pure []
  else
    ask fails .openStream
    match env.fs (narrow s.fileName) with
    | none => M.raise .runtimeError
    | some content => pure (fileLines content)

/-- `WcsStrToUtf8`, MskReader.cpp:83-87; `range_error` is a `runtime_error`. -/
def toUtf8 (env : Env) (w : List Nat) : M St (List UInt8) :=
  match env.utf8 w with
  | some n => pure n
  | none => M.raise .runtimeError

/-- MskReader.cpp:112-117: the two objects and the names; their addresses. -/
def begin (env : Env) (fails : Point → Bool) : M St (Nat × Nat) := do
  let lib ← alloc fails .newLibrary
  M.modify fun s => { s with activeLibrary := some lib, libs := fun b => if b = lib then {} else s.libs b }
  let el ← alloc fails .newElement
  M.modify fun s => { s with activeElement := some el, elems := fun b => if b = el then {} else s.elems b }
  ask fails .layoutName
  M.modify fun s => { s with data := { s.data with fileName := s.fileName } }
  let s ← M.get
  let ename ← toUtf8 env (elemName s.fileName)
  ask fails .elementName
  M.modify fun s => { s with elems := fun b => if b = el then { s.elems el with name := ename } else s.elems b }
  let lname ← toUtf8 env s.fileName
  ask fails .libraryName
  M.modify fun s => { s with libs := fun b => if b = lib then { s.libs lib with name := lname } else s.libs b }
  pure (lib, el)

/-- MskReader.cpp:130-148. -/
def finish (fails : Point → Bool) (lib el : Nat) : M St Unit := do
  ask fails .listElement
  M.modify fun s => { s with libs := fun b => if b = lib then { s.libs lib with elements := (s.libs lib).elements ++ [el] } else s.libs b }
  ask fails .listLibrary
  M.modify fun s => { s with data := { s.data with libraries := s.data.libraries ++ [lib] } }
  M.modify fun s => { s with data := { s.data with fileName := s.fileName, fileFormat := .msk } }
  fixBox

/-- The `try` block of `Read`, MskReader.cpp:105-149, for a layout that is not null. -/
def readBody (env : Env) (fails : Point → Bool) : M St Unit := do
  let lines ← openFile env fails
  let (lib, el) ← begin env fails
  readLines env fails lib el 0 lines
  finish fails lib el

/-- `if (p_activeElement) { delete p_activeElement; p_activeElement = nullptr; }` in the handler of `Read`. -/
def dropElement : Option Nat → M St Unit
  | none => pure ()
  | some e => do
    deleteElement e
    M.modify fun s => { s with activeElement := none }

/-- `if (p_activeLibrary) { delete p_activeLibrary; p_activeLibrary = nullptr; }` in the handler of `Read`. -/
def dropLibrary : Option Nat → M St Unit
  | none => pure ()
  | some l => do
    deleteLibrary l
    M.modify fun s => { s with activeLibrary := none }

/-- The handler of `Read`, MskReader.cpp:150-170, for a layout that is not null. -/
def recover : M St Unit := do
  M.modify fun s => { s with stuck := false, data := { s.data with fileFormat := .undefined } }
  let s ← M.get
  dropElement s.activeElement
  dropLibrary s.activeLibrary

/-- `MskReader::Read`, MskReader.cpp:101-173.  `null`: the layout argument is null. -/
def read (env : Env) (fails : Point → Bool) (null : Bool) : M St Bool :=
  if null then do
    M.modify fun s => { s with stuck := false }
    pure false
  else
    M.tryCatch (do readBody env fails; M.modify fun s => { s with stuck := false }; pure true) fun _ => do
      recover
      pure false

end Verif.Msk.Mem
