import Verif.Model.GdsiiReader

/-!
Specification vocabulary for C46, C47, C51 and C52: the histories of a GDSII reader object, the file heads it
recognises, and what the post-processing of a layout is to produce.
-/

namespace Verif.Spec.Gdsii
open Verif

/-- The readers a program can hold: a new one, and what any call that returned has left.  (The members a call touches
are protected; a derived class could set them otherwise.) -/
inductive Reachable (env : Gds.Env) : Gds.Reader → Prop
  | fresh : Reachable env {}
  | isMyFormat {r r' name b} : Reachable env r → Gds.isMyFormat env name r = .ok b r' → Reachable env r'
  | read {r next null data heap b r' data' heap'} : Reachable env r →
      Gds.read env next null ⟨r, data, heap⟩ = .ok b ⟨r', data', heap'⟩ → Reachable env r'

/-- the name ends in `.gds` or `.gdsii`, or is `gds` or `gdsii` itself -/
def GdsName (name : List Nat) : Prop :=
  ∃ ext, (ext = [103, 100, 115] ∨ ext = [103, 100, 115, 105, 105]) ∧ (name = ext ∨ ∃ p, name = p ++ 46 :: ext)

/-- a file begins with a HEADER record (two bytes of version) and the header of a BGNLIB record with 24 bytes; the last
byte of that header may be missing if the file ends there -/
def GdsHead (content : List UInt8) : Prop :=
  ∃ v w, content = [0x00, 0x06, 0x00, 0x02, v, w, 0x00, 0x1c, 0x01] ∨
    [0x00, 0x06, 0x00, 0x02, v, w, 0x00, 0x1c, 0x01, 0x02] <+: content

/-- the file ends inside the first record header, where the test needs a byte that is not there -/
def Torn (content : List UInt8) : Prop := content.length < 3 ∨ ∃ a b, content = [a, b, 0x00]

/-- the geometries of a library, in order -/
def geometriesOf (heap : Elements) (l : Library) : List (Option Geometry) :=
  l.elements.flatMap fun e => match e with
    | none => []
    | some a => (heap a).geometries

/-- no null pointers in a library -/
def NoNulls (heap : Elements) (l : Library) : Prop := none ∉ l.elements ∧ none ∉ geometriesOf heap l

/-- layer number and data type of a geometry; only polygons and paths have a data type -/
def pairOf (g : Geometry) : Int × Int := (g.layer, if g.type = .polygon ∨ g.type = .path then g.dataType else 0)

/-- the pairs of the geometries that are not references, in order -/
def pairsOf (heap : Elements) (l : Library) : List (Int × Int) :=
  ((geometriesOf heap l).filterMap id |>.filter (·.type ≠ .reference)).map pairOf

/-- the distinct members of a list, in order of first occurrence -/
def firstOccurrences {α : Type} [DecidableEq α] (l : List α) : List α :=
  l.foldl (fun acc x => if x ∈ acc then acc else acc ++ [x]) []

/-- the pairs of layer number and data type of the layers a library has -/
def layerPairsOf (l : Library) : List (Int × Int) := l.layers.map fun y => (y.layer, y.dataType)

/-- the pairs an enumeration makes layers for: those the library has layers for already, then the others in the order of
first occurrence -/
def enumPairs (heap : Elements) (l : Library) : List (Int × Int) :=
  layerPairsOf l ++ (firstOccurrences (pairsOf heap l)).filter (· ∉ layerPairsOf l)

/-- `l'` is the library `l` after the enumeration of its layers: the pairs above, their numbers in ascending order, but
the data types in the order of first occurrence.  Names and geometries stay where they were; the new layers have none. -/
structure Enumerated (heap : Elements) (l l' : Library) : Prop where
  rest : l' = { l with layers := l'.layers }
  sorted : (l'.layers.map Layer.layer).Pairwise (· ≤ ·)
  numbers : (l'.layers.map Layer.layer).Perm ((enumPairs heap l).map Prod.fst)
  types : l'.layers.map Layer.dataType = (enumPairs heap l).map Prod.snd
  kept : (l'.layers.take l.layers.length).map (fun y => (y.name, y.geometries)) = l.layers.map (fun y => (y.name, y.geometries))
  plain : ∀ y ∈ l'.layers.drop l.layers.length, y.name = [] ∧ y.geometries = []

/-- the elements of all libraries, in order -/
def elementsOf (libs : List Library) : List Nat := libs.flatMap fun l => l.elements.filterMap id

/-- the first element with a name -/
def firstNamed (heap : Elements) (libs : List Library) (name : List UInt8) : Option Nat :=
  (elementsOf libs).find? fun a => (heap a).name = name

/-- the references in the elements of the libraries -/
def referencesOf (heap : Elements) (libs : List Library) : List Geometry :=
  (elementsOf libs).flatMap fun a => ((heap a).geometries.filterMap id).filter (·.type = .reference)

/-- a geometry with its reference resolved -/
def resolved (heap : Elements) (libs : List Library) (g : Geometry) : Geometry :=
  if g.type = .reference then { g with element := firstNamed heap libs g.refName } else g

/-- the elements after all references have been resolved -/
def resolvedHeap (heap : Elements) (libs : List Library) : Elements := fun a =>
  { heap a with
    geometries := if a ∈ elementsOf libs then (heap a).geometries.map (Option.map (resolved heap libs)) else (heap a).geometries
    nested := (heap a).nested || (referencesOf heap libs).any fun g => firstNamed heap libs g.refName = some a }

/-- `h'` is `heap` with some of the references resolved, and nothing else changed: every geometry is as it was or has its reference
resolved; an element is nested if it was, and otherwise only if a reference leads to it -/
def PartlyResolved (heap : Elements) (libs : List Library) (h' : Elements) : Prop :=
  ∀ a, h' a = { heap a with geometries := (h' a).geometries, nested := (h' a).nested } ∧
    List.Forall₂ (fun o o' => o' = o ∨ o' = Option.map (resolved heap libs) o) (heap a).geometries (h' a).geometries ∧
    ((heap a).nested = true → (h' a).nested = true) ∧
    ((h' a).nested = true → (heap a).nested = true ∨ ∃ g ∈ referencesOf heap libs, firstNamed heap libs g.refName = some a)

/-- the box of a library: that of its last element that is not nested; unchanged if there is none -/
def boxOf (heap : Elements) (l : Library) : Library :=
  match ((l.elements.filterMap id).filter fun a => !(heap a).nested).getLast? with
  | none => l
  | some a => { l with min := (heap a).min, max := (heap a).max }

end Verif.Spec.Gdsii
