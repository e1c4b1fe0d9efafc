import Verif.Spec.Converter

/-! Specification vocabulary for C99: how many geometries a flattened reference consists of. -/

namespace Verif.Spec

/-- How many geometries one stored geometry contributes when an element with address `e` contributes `cnt e`: a polygon or rectangle
itself, a path one per segment, a reference all of its element, anything else nothing. -/
def contribution (cnt : Nat → Nat) : Option Geometry → Nat
  | none => 0
  | some g =>
    match g.type with
    | .polygon | .rectangle => 1
    | .path => g.coords.length - 1
    | .reference => match g.element with
      | none => 0
      | some e => cnt e
    | .text | .undefined => 0

/-- `cnt` counts: every element contributes the sum of what its geometries contribute. -/
def Counts (H : Elements) (cnt : Nat → Nat) : Prop :=
  ∀ e, cnt e = ((H e).geometries.map (contribution cnt)).sum

/-- The layout whose elements `0, 1, …, k-1` each hold two references to the next element, and whose element `k` holds the single
rectangle `box`; all lower left corners are the origin. -/
def doubling (k : Nat) (box : Geometry) : Elements := fun i =>
  if i < k then
    { geometries := [some { type := .reference, element := some (i + 1) }, some { type := .reference, element := some (i + 1) }],
      min := ⟨0, 0⟩ }
  else { geometries := if i = k then [some box] else [], min := ⟨0, 0⟩ }

end Verif.Spec
