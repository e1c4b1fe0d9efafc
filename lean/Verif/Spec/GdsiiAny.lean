import Verif.Spec.GdsiiFile
import Verif.Model.GdsiiReader

/-!
Specification vocabulary for C57–C59: what the record loop of the GDSII reader leaves behind, whatever the file contains.
-/

namespace Verif.Spec.Gdsii
open Verif

/-- A geometry as the reader leaves it: it has one of the five types, refers to nothing yet, all numbers are in range, no
string has a zero byte, members of other geometry types still have their initial values, and if there are coordinates the
box is theirs. -/
structure GoodGeometry (g : Geometry) : Prop where
  typed : g.type ≠ .undefined
  element : g.element = none
  layer : Fits16 g.layer
  coords : ∀ c ∈ g.coords, FitsC c
  box : g.coords ≠ [] → g.min = lowest g.coords ∧ g.max = highest g.coords
  dataType : Fits16 g.dataType ∧ (g.type = .polygon ∨ g.type = .path ∨ g.dataType = 0)
  width : Fits32 g.width ∧ (g.type = .path ∨ g.type = .text ∨ g.width = 0)
  pathType : Fits16 g.pathType ∧ (g.type = .path ∨ g.type = .text ∨ g.pathType = 0)
  textType : Fits16 g.textType ∧ (g.type = .text ∨ g.textType = 0)
  presentation : Fits16 g.flagsPresentation ∧ (g.type = .text ∨ g.flagsPresentation = 0)
  transformation : Fits16 g.flagsTransformation ∧ (g.type = .text ∨ g.flagsTransformation = 0)
  magnification : g.type = .text ∨ g.type = .reference ∨ g.magnification = .fin 1
  string : 0 ∉ g.stringValue ∧ (g.type = .text ∨ g.stringValue = [])
  refName : 0 ∉ g.refName ∧ (g.type = .reference ∨ g.refName = [])
  rectType : Fits16 g.rectType ∧ (g.type = .rectangle ∨ g.rectType = 0)
  /-- at most one property, of which only the number is kept -/
  properties : g.properties = [] ∨ ∃ k, Fits16 k ∧ g.properties = [(k, [])]

/-- An element as the reader leaves it: good geometries only (no null pointers), the box joins their boxes, it counts as
flat exactly if there is no reference among them. -/
structure GoodElement (e : Element) : Prop where
  name : 0 ∉ e.name
  geometries : ∃ gs : List Geometry, e.geometries = gs.map some ∧ (∀ g ∈ gs, GoodGeometry g) ∧
    e.isFlat = !(gs.any fun g => g.type = .reference) ∧
    e.min = lowest (gs.map Geometry.min) ∧ e.max = highest (gs.map Geometry.max)
  nested : e.nested = false

/-- A library as the record loop leaves it. -/
structure GoodLibrary (l : Library) : Prop where
  name : 0 ∉ l.name
  elements : none ∉ l.elements
  layers : l.layers = []
  box : l.min = ⟨0, 0⟩ ∧ l.max = ⟨0, 0⟩

/-- the record loop of `Read` on a file with the given contents, the layout holding `libs`, new elements stored from
address `next` on -/
def parse (env : Gds.Env) (content : List UInt8) (libs : List (Option Library)) (heap : Elements) (next : Nat) : Res Gds.PS :=
  Gds.readRecords env (content.length + 1) { file := ⟨content, false⟩, libs := libs, heap := heap, next := next }

/-- how many bytes of data a record of the given type and length must have at least, lest something is used that was never
read (BGNLIB, BGNSTR: dates; TEXTTYPE, PRESENTATION, STRANS, PATHTYPE: one number; WIDTH; XY: at least one point) -/
def need (type : UInt8) (length : Nat) : Nat :=
  if type = 0x01 ∨ type = 0x05 then 24
  else if type = 0x16 ∨ type = 0x17 ∨ type = 0x1A ∨ type = 0x21 then 2
  else if type = 0x0F then 4
  else if type = 0x10 then max 8 (8 * (length / 8))
  else 0

/-- somewhere in the file there is something that looks like a record header, and the file ends before the data such a record needs -/
def CutShort (content : List UInt8) : Prop :=
  ∃ (before rest : List UInt8) (high low type dataType : UInt8), content = before ++ high :: low :: type :: dataType :: rest ∧
    rest.length < need type ((256 * high.toNat + low.toNat + 65532) % 65536)

/-- the four bytes of the least 32-bit number, most significant first -/
def leastBytes : List UInt8 := [0x80, 0x00, 0x00, 0x00]

/-- the reader is in a library, but not in a structure or figure -/
def AtLibrary (p : Gds.PS) : Prop := p.lib ≠ none ∧ p.elem = none ∧ p.geom = false
/-- the reader is in a structure, but not in a figure -/
def AtStructure (p : Gds.PS) : Prop := p.lib ≠ none ∧ p.elem ≠ none ∧ p.geom = false
/-- the reader is in a figure -/
def AtFigure (p : Gds.PS) : Prop := p.lib ≠ none ∧ p.elem ≠ none ∧ p.geom = true

/-- the places at which the reader has no use for a record that it knows -/
inductive OutOfPlace (p : Gds.PS) : UInt8 → Prop
  | bgnLib : p.lib ≠ none → OutOfPlace p 0x01
  | library {t} : t ∈ [0x02, 0x03, 0x05] → ¬ AtLibrary p → OutOfPlace p t
  | structure {t} : t ∈ [0x06, 0x07, 0x08, 0x09, 0x0A, 0x0C, 0x2D] → ¬ AtStructure p → OutOfPlace p t
  | figure {t} : t ∈ [0x0D, 0x0E, 0x0F, 0x10, 0x11, 0x12, 0x16, 0x17, 0x19, 0x1A, 0x1B, 0x21, 0x2B, 0x2E] → ¬ AtFigure p → OutOfPlace p t
  | sname : p.theGeom.type ≠ .reference → OutOfPlace p 0x12
  | text {t} : t ∈ [0x16, 0x17, 0x19] → p.theGeom.type ≠ .text → OutOfPlace p t
  | boxType : p.theGeom.type ≠ .rectangle → OutOfPlace p 0x2E

end Verif.Spec.Gdsii
