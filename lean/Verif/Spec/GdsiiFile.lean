import Verif.Spec.GdsiiReader
import Verif.Spec.Gdsii

/-!
Specification vocabulary for C53: GDSII stream files of one library, and the layout such a file describes.
-/

namespace Verif.Spec.Gdsii
open Verif

/-- two bytes, most significant first -/
def be16 (v : Int) : List UInt8 := [UInt8.ofNat ((v % 65536).toNat / 256), UInt8.ofNat ((v % 65536).toNat % 256)]

/-- four bytes, most significant first -/
def be32 (v : Int) : List UInt8 :=
  [UInt8.ofNat ((v % 4294967296).toNat / 16777216), UInt8.ofNat ((v % 4294967296).toNat / 65536 % 256),
   UInt8.ofNat ((v % 4294967296).toNat / 256 % 256), UInt8.ofNat ((v % 4294967296).toNat % 256)]

/-- a record: length, type, data type, data -/
def record (type dataType : UInt8) (payload : List UInt8) : List UInt8 :=
  be16 (payload.length + 4) ++ [type, dataType] ++ payload

/-- a string, filled up to an even number of bytes -/
def padded (s : List UInt8) : List UInt8 := if s.length % 2 = 0 then s else s ++ [0]

/-- an eight-byte real: first byte, seven more -/
structure Real8 where
  head : UInt8
  tail : List UInt8

/-- a record the reader has no use for -/
structure Other where
  type : UInt8
  dataType : UInt8
  payload : List UInt8

/-- What a structure contains.  `none` for an optional record that is absent. -/
inductive Figure where
  | boundary (layer dataType : Int) (xy : List Coord)
  | path (layer dataType : Int) (pathType width : Option Int) (xy : List Coord)
  | box (layer boxType : Int) (xy : List Coord)
  | text (layer textType : Int) (presentation pathType width flags : Option Int) (mag : Option Real8) (pos : Coord)
      (string : List UInt8)
  | sref (name : List UInt8) (flags : Option Int) (mag : Option Real8) (pos : Coord)

/-- A figure with the unused records behind its first one (ELFLAGS, PLEX, …) and at most one property. -/
structure Item where
  figure : Figure
  others : List Other := []
  property : Option (Int × List UInt8) := none

/-- a structure: two dates (24 bytes), name, contents -/
structure Structure where
  dates : List UInt8
  name : List UInt8
  items : List Item

/-- a library: version, two dates (24 bytes), name, unused records (FONTS, …), user and physical unit, structures -/
structure Design where
  version : Int
  dates : List UInt8
  name : List UInt8
  others : List Other := []
  user : Real8
  physical : Real8
  structures : List Structure

/-! ### the file -/

def coordBytes (c : Coord) : List UInt8 := be32 c.x ++ be32 c.y

def optRecord (type dataType : UInt8) (o : Option (List UInt8)) : List UInt8 :=
  match o with
  | none => []
  | some payload => record type dataType payload

def realBytes (r : Real8) : List UInt8 := r.head :: r.tail

def othersBytes (os : List Other) : List UInt8 := os.flatMap fun o => record o.type o.dataType o.payload

/-- the first record of a figure -/
def Figure.opening : Figure → List UInt8
  | .boundary .. => record 0x08 0 []
  | .path .. => record 0x09 0 []
  | .box .. => record 0x2D 0 []
  | .text .. => record 0x0C 0 []
  | .sref .. => record 0x0A 0 []

/-- the other records of a figure -/
def Figure.body : Figure → List UInt8
  | .boundary layer dataType xy =>
    record 0x0D 2 (be16 layer) ++ record 0x0E 2 (be16 dataType) ++ record 0x10 3 (xy.flatMap coordBytes)
  | .path layer dataType pathType width xy =>
    record 0x0D 2 (be16 layer) ++ record 0x0E 2 (be16 dataType) ++ optRecord 0x21 2 (pathType.map be16) ++
    optRecord 0x0F 3 (width.map be32) ++ record 0x10 3 (xy.flatMap coordBytes)
  | .box layer boxType xy =>
    record 0x0D 2 (be16 layer) ++ record 0x2E 2 (be16 boxType) ++ record 0x10 3 (xy.flatMap coordBytes)
  | .text layer textType presentation pathType width flags mag pos string =>
    record 0x0D 2 (be16 layer) ++ record 0x16 2 (be16 textType) ++ optRecord 0x17 1 (presentation.map be16) ++
    optRecord 0x21 2 (pathType.map be16) ++ optRecord 0x0F 3 (width.map be32) ++ optRecord 0x1A 1 (flags.map be16) ++
    optRecord 0x1B 5 (mag.map realBytes) ++ record 0x10 3 (coordBytes pos) ++ record 0x19 6 (padded string)
  | .sref name flags mag pos =>
    record 0x12 6 (padded name) ++ optRecord 0x1A 1 (flags.map be16) ++ optRecord 0x1B 5 (mag.map realBytes) ++
    record 0x10 3 (coordBytes pos)

def Item.bytes (i : Item) : List UInt8 :=
  i.figure.opening ++ othersBytes i.others ++ i.figure.body ++
    (match i.property with
      | none => []
      | some (k, v) => record 0x2B 2 (be16 k) ++ record 0x2C 6 (padded v)) ++
    record 0x11 0 []

def Structure.bytes (s : Structure) : List UInt8 :=
  record 0x05 2 s.dates ++ record 0x06 6 (padded s.name) ++ s.items.flatMap Item.bytes ++ record 0x07 0 []

/-- the whole file, without the zeros that may follow -/
def Design.bytes (d : Design) : List UInt8 :=
  record 0x00 2 (be16 d.version) ++ record 0x01 2 d.dates ++ record 0x02 6 (padded d.name) ++ othersBytes d.others ++
    record 0x03 5 (realBytes d.user ++ realBytes d.physical) ++ d.structures.flatMap Structure.bytes ++ record 0x04 0 []

/-! ### what fits the format -/

def Fits16 (v : Int) : Prop := -32768 ≤ v ∧ v ≤ 32767

/-- the least number is left out: the reader overflows on it (C44) -/
def Fits32 (v : Int) : Prop := -2147483647 ≤ v ∧ v ≤ 2147483647

def FitsC (c : Coord) : Prop := Fits32 c.x ∧ Fits32 c.y

/-- no zero byte, room in one record -/
def FitsS (s : List UInt8) : Prop := 0 ∉ s ∧ s.length ≤ 65530

def FitsR (r : Real8) : Prop := r.tail.length = 7

/-- the record types the reader looks at -/
def used : List UInt8 := [0x00, 0x01, 0x02, 0x03, 0x04, 0x05, 0x06, 0x07, 0x08, 0x09, 0x0A, 0x0C, 0x0D, 0x0E, 0x0F, 0x10, 0x11, 0x12,
  0x16, 0x17, 0x19, 0x1A, 0x1B, 0x21, 0x2B, 0x2D, 0x2E]

def Other.Fits (o : Other) : Prop := o.type ∉ used ∧ o.payload.length ≤ 65531

def Figure.Fits : Figure → Prop
  | .boundary layer dataType xy => Fits16 layer ∧ Fits16 dataType ∧ xy.length ≤ 8191 ∧ ∀ c ∈ xy, FitsC c
  | .path layer dataType pathType width xy => Fits16 layer ∧ Fits16 dataType ∧ (∀ v ∈ pathType, Fits16 v) ∧
      (∀ v ∈ width, Fits32 v) ∧ xy.length ≤ 8191 ∧ ∀ c ∈ xy, FitsC c
  | .box layer boxType xy => Fits16 layer ∧ Fits16 boxType ∧ xy.length ≤ 8191 ∧ ∀ c ∈ xy, FitsC c
  | .text layer textType presentation pathType width flags mag pos string => Fits16 layer ∧ Fits16 textType ∧
      (∀ v ∈ presentation, Fits16 v) ∧ (∀ v ∈ pathType, Fits16 v) ∧ (∀ v ∈ width, Fits32 v) ∧ (∀ v ∈ flags, Fits16 v) ∧
      (∀ r ∈ mag, FitsR r) ∧ FitsC pos ∧ FitsS string
  | .sref name flags mag pos => FitsS name ∧ (∀ v ∈ flags, Fits16 v) ∧ (∀ r ∈ mag, FitsR r) ∧ FitsC pos

def Item.Fits (i : Item) : Prop :=
  i.figure.Fits ∧ (∀ o ∈ i.others, o.Fits) ∧ ∀ p ∈ i.property, Fits16 p.1 ∧ FitsS p.2

def Structure.Fits (s : Structure) : Prop := s.dates.length = 24 ∧ FitsS s.name ∧ ∀ i ∈ s.items, i.Fits

def Design.Fits (d : Design) : Prop :=
  Fits16 d.version ∧ d.dates.length = 24 ∧ FitsS d.name ∧ (∀ o ∈ d.others, o.Fits) ∧ FitsR d.user ∧ FitsR d.physical ∧
    ∀ s ∈ d.structures, s.Fits

/-! ### the layout described -/

/-- the least coordinates, -1 if there are none -/
def lowest : List Coord → Coord
  | [] => ⟨-1, -1⟩
  | c :: cs => ⟨cs.foldl (fun m d => min m d.x) c.x, cs.foldl (fun m d => min m d.y) c.y⟩

/-- the greatest coordinates, -1 if there are none -/
def highest : List Coord → Coord
  | [] => ⟨-1, -1⟩
  | c :: cs => ⟨cs.foldl (fun m d => max m d.x) c.x, cs.foldl (fun m d => max m d.y) c.y⟩

/-- the value of a real in the layout -/
def value8 (r : Real8) : Fl := .fin (Ieee.rne (realValue r.head r.tail))

/-- the geometry of a figure -/
def Figure.geometry : Figure → Geometry
  | .boundary layer dataType xy =>
    { type := .polygon, layer := layer, dataType := dataType, coords := xy, min := lowest xy, max := highest xy }
  | .path layer dataType pathType width xy =>
    { type := .path, layer := layer, dataType := dataType, pathType := pathType.getD 0, width := width.getD 0, coords := xy,
      min := lowest xy, max := highest xy }
  | .box layer boxType xy =>
    { type := .rectangle, layer := layer, rectType := boxType, coords := xy, min := lowest xy, max := highest xy }
  | .text layer textType presentation pathType width flags mag pos string =>
    { type := .text, layer := layer, textType := textType, flagsPresentation := presentation.getD 0, pathType := pathType.getD 0,
      width := width.getD 0, flagsTransformation := flags.getD 0, magnification := (mag.map value8).getD (.fin 1),
      coords := [pos], min := pos, max := pos, stringValue := string }
  | .sref name _ mag pos =>
    { type := .reference, refName := name, magnification := (mag.map value8).getD (.fin 1), coords := [pos], min := pos, max := pos }

/-- a property keeps its number; its value is lost -/
def Item.geometry (i : Item) : Geometry :=
  { i.figure.geometry with properties := i.property.toList.map fun p => (p.1, []) }

def Figure.isSref : Figure → Bool
  | .sref .. => true
  | _ => false

def Structure.element (s : Structure) : Element :=
  { name := s.name
    geometries := s.items.map fun i => some i.geometry
    isFlat := !s.items.any fun i => i.figure.isSref
    min := lowest (s.items.map fun i => i.geometry.min)
    max := highest (s.items.map fun i => i.geometry.max) }

/-- the library, with its elements stored from address `next` on -/
def Design.library (d : Design) (next : Nat) : Library :=
  { name := d.name, units := (value8 d.user, value8 d.physical), elements := (List.range' next d.structures.length).map some }

/-- the elements stored from address `next` on -/
def storeFrom (heap : Elements) (next : Nat) (es : List Element) : Elements := fun a =>
  if a < next then heap a else (es[a - next]?).getD (heap a)

end Verif.Spec.Gdsii
