import Verif.Model.Generator

/-!
Model of the collection of geometries in `src/Common/Impl/LayoutBitmapGenerator/LayoutBitmapGenerator.cpp` when memory
may run out.

Two kinds of operation take memory: a `push_back` on `geometryList` or `legacyGeometryList`, and a conversion of a path
or a reference (`PathToRectList`, `SplitSref`), which builds new geometries.  The budget `n` is the number of these
operations that succeed; the next one throws `std::bad_alloc`.  A `push_back` that throws leaves the list unchanged,
and a conversion that throws leaves nothing behind (its results are held by `shared_ptr`).

Simplification: a conversion fails as a whole or not at all.  Which of its own allocations fails is not represented,
since nothing outside it can tell; in particular one whose nesting has no end is `none` unless the budget is used up
before it starts.
-/

namespace Verif.Generator
open Converter

/-- `geometryList` and `legacyGeometryList` -/
abbrev Lists := List Geometry × List Geometry

/-- sequencing of steps that change the lists; what is returned is the budget left -/
def Collect.bind (x : Option (Out Lists Nat)) (f : Nat → Lists → Option (Out Lists Nat)) : Option (Out Lists Nat) :=
  match x with
  | none => none
  | some .ub => some .ub
  | some (.throw e c) => some (.throw e c)
  | some (.ok n c) => f n c

/-- LayoutBitmapGenerator.cpp:338-344 and 352-358: the loop over the converted geometries; those outside the
workspace are skipped, the others appended to `geometryList` one at a time. -/
def pushConverted (ws : Workspace) : List Geometry → Nat → Lists → Option (Out Lists Nat)
  | [], n, c => some (.ok n c)
  | r :: rs, n, c =>
    if boxMeets ws r then
      match n with
      | 0 => some (.throw .badAlloc c)
      | n + 1 => pushConverted ws rs n (c.1 ++ [r], c.2)
    else pushConverted ws rs n c

/-- LayoutBitmapGenerator.cpp:337-346 and 351-360: a conversion, then the loop. -/
def convertThen (ws : Workspace) (x : Run (List Geometry)) : Nat → Lists → Option (Out Lists Nat)
  | 0, c => some (.throw .badAlloc c)
  | n + 1, c =>
    match x with
    | none => none
    | some .ub => some .ub
    | some (.throw e) => some (.throw e c)
    | some (.ok rs) => pushConverted ws rs n c

/-- The body of the loop of `ProcessGeometries`, LayoutBitmapGenerator.cpp:325-363, for one pointer. -/
def collectOne (H : Elements) (depth : Nat) (ws : Workspace) (p : Option Geometry) (n : Nat) (c : Lists) :
    Option (Out Lists Nat) :=
  match p with
  | none => some (.ok n c)
  | some g =>
    if boxMeets ws g then
      match g.type with
      | .rectangle | .polygon =>
        match n with
        | 0 => some (.throw .badAlloc c)
        | n + 1 => some (.ok n (c.1, c.2 ++ [g]))
      | .path => convertThen ws (some (pathToRectList (some g))) n c
      | .reference => convertThen ws (splitSref H depth (some g) ⟨0, 0⟩) n c
      | .text | .undefined => some (.ok n c)
    else some (.ok n c)

/-- `ProcessGeometries`, LayoutBitmapGenerator.cpp:319-365. -/
def collectList (H : Elements) (depth : Nat) (ws : Workspace) : List (Option Geometry) → Nat → Lists →
    Option (Out Lists Nat)
  | [], n, c => some (.ok n c)
  | p :: ps, n, c => Collect.bind (collectOne H depth ws p n c) fun n c => collectList H depth ws ps n c

/-- The inner loop of `InitGeometryItems`, LayoutBitmapGenerator.cpp:373-380. -/
def collectLayers (H : Elements) (depth : Nat) (ws : Workspace) (req : List Int) : List Layer → Nat → Lists →
    Option (Out Lists Nat)
  | [], n, c => some (.ok n c)
  | l :: ls, n, c =>
    if l.layer ∈ req then collectList H depth ws l.geometries n c else collectLayers H depth ws req ls n c

/-- The outer loop of `InitGeometryItems`, LayoutBitmapGenerator.cpp:371-381. -/
def collectLibs (H : Elements) (depth : Nat) (ws : Workspace) (req : List Int) : List (Option Library) → Nat → Lists →
    Option (Out Lists Nat)
  | [], n, c => some (.ok n c)
  | none :: _, _, _ => some .ub
  | some l :: ls, n, c =>
    Collect.bind (collectLayers H depth ws req l.layers n c) fun n c => collectLibs H depth ws req ls n c

/-- `InitGeometryItems`, LayoutBitmapGenerator.cpp:368-382: appends to the lists of the generator. -/
def collectItems (mem : Memory) (depth : Nat) (n : Nat) (g : Generator) : Option (Out Lists Nat) :=
  match g.data with
  | none => some .ub
  | some a => collectLibs mem.elements depth g.ws g.layers (mem.layouts a).libraries n (g.geoms, g.legacy)

/-- `LayoutBitmapGenerator::Process`, LayoutBitmapGenerator.cpp:38-94, with a budget for the collection; everything
else as in `process`.  After `bad_alloc` the lists hold what was appended before. -/
def processMem (rnd : ℚ → ℚ) (al : Alloc) (stale : Res Nat) (mem : Memory) (depth : Nat) (R C : Nat) (n : Nat)
    (g : Generator) : Option (Out Generator (Bool × List UInt8)) :=
  if R = 0 then some (.throw .invalidArgument g)
  else if C = 0 then some (.throw .invalidArgument g)
  else match BitMatrix.resize al R C g.bitmap with
    | .ub => some .ub
    | .throw e b => some (.throw e { g with bitmap := b })
    | .ok _ b =>
      let g := { g with bitmap := b, geoms := [], legacy := [], frags := fragsSetMatrix g.frags }
      match setUp rnd stale R C g with
      | .ub => some .ub
      | .throw e => some (.throw e g)
      | .ok g =>
        match collectItems mem depth n g with
        | none => none
        | some .ub => some .ub
        | some (.throw e c) => some (.throw e { g with geoms := c.1, legacy := c.2 })
        | some (.ok _ c) =>
          match zondMatrix rnd { g with geoms := c.1, legacy := c.2 } with
          | .ub => some .ub
          | .throw e g => some (.throw e g)
          | .ok _ g =>
            match BitMatrix.print g.bitmap with
            | .ub => some .ub
            | .throw e => some (.throw e g)
            | .ok txt => some (.ok (true, txt) g)

end Verif.Generator
