import Verif.Model.Geometry

/-! Specification vocabulary for C35 and C36: placements of elements through references. -/

namespace Verif.Spec

/-- sum of two coordinates -/
def shiftC (c d : Coord) : Coord := ⟨c.x + d.x, c.y + d.y⟩

/-- a geometry moved by `d` -/
def translate (d : Coord) (g : Geometry) : Geometry :=
  { g with min := shiftC g.min d, max := shiftC g.max d, coords := g.coords.map (shiftC · d) }

/-- element `e` contains a reference to element `e'` -/
def RefersTo (H : Elements) (e e' : Nat) : Prop :=
  ∃ r : Geometry, some r ∈ (H e).geometries ∧ r.type = .reference ∧ r.element = some e'

/-- Flattening starts at element `e0` with offset `base`: element `e` is then drawn with offset `d`.  The
offset grows by each entered element's lower left corner; positions stored in the references play no part. -/
inductive Placed (H : Elements) (e0 : Nat) (base : Coord) : Nat → Coord → Prop
  | root : Placed H e0 base e0 (shiftC base (H e0).min)
  | step {e e' : Nat} {d : Coord} : Placed H e0 base e d → RefersTo H e e' →
      Placed H e0 base e' (shiftC d (H e').min)

/-- the rectangle of zero size at the origin -/
def originRect (layer : Int) : Geometry :=
  { type := .rectangle, layer := layer, coords := List.replicate 5 ⟨0, 0⟩, min := ⟨0, 0⟩, max := ⟨0, 0⟩ }

/-- The geometries the flattened reference should consist of: every polygon and rectangle of a placed
element, moved by the offset, and one (origin) rectangle for each segment of each path. -/
inductive Drawn (H : Elements) (e0 : Nat) (base : Coord) : Geometry → Prop
  | shape {e : Nat} {d : Coord} {g : Geometry} : Placed H e0 base e d → some g ∈ (H e).geometries →
      (g.type = .polygon ∨ g.type = .rectangle) → Drawn H e0 base (translate d g)
  | segment {e : Nat} {d : Coord} {g : Geometry} : Placed H e0 base e d → some g ∈ (H e).geometries →
      g.type = .path → 2 ≤ g.coords.length → Drawn H e0 base (translate d (originRect g.layer))

/-- `Listing H d gs l`: drawing the stored geometries `gs` one after the other with offset `d` gives the list `l` — a polygon or
rectangle gives itself, moved; a path one origin rectangle per segment; a reference everything its element gives, with that
element's lower left corner added to the offset; a text, an undefined geometry and a null pointer nothing. -/
inductive Listing (H : Elements) : Coord → List (Option Geometry) → List Geometry → Prop
  | done {d : Coord} : Listing H d [] []
  | null {d : Coord} {rest : List (Option Geometry)} {l : List Geometry} : Listing H d rest l → Listing H d (none :: rest) l
  | shape {d : Coord} {g : Geometry} {rest : List (Option Geometry)} {l : List Geometry} :
      (g.type = .polygon ∨ g.type = .rectangle) → Listing H d rest l → Listing H d (some g :: rest) (translate d g :: l)
  | path {d : Coord} {g : Geometry} {rest : List (Option Geometry)} {l : List Geometry} : g.type = .path → Listing H d rest l →
      Listing H d (some g :: rest) (List.replicate (g.coords.length - 1) (translate d (originRect g.layer)) ++ l)
  | reference {d : Coord} {g : Geometry} {e : Nat} {rest : List (Option Geometry)} {a l : List Geometry} :
      g.type = .reference → g.element = some e → Listing H (shiftC d (H e).min) (H e).geometries a → Listing H d rest l →
      Listing H d (some g :: rest) (a ++ l)
  | nothing {d : Coord} {g : Geometry} {rest : List (Option Geometry)} {l : List Geometry} :
      (g.type = .text ∨ g.type = .undefined) → Listing H d rest l → Listing H d (some g :: rest) l

/-- all coordinates of a geometry fit `int32_t` -/
def GeomInRange (g : Geometry) : Prop :=
  inI32 g.min.x ∧ inI32 g.min.y ∧ inI32 g.max.x ∧ inI32 g.max.y ∧ ∀ c ∈ g.coords, inI32 c.x ∧ inI32 c.y

/-- The corners computed (and then dropped) for the segment from `b` to `e` of a path are in range; `hw` is half the width, `last` says
that it is the last segment.  The segment is widened by `hw` to both sides and lengthened by `hw` at its start and, unless it is the last one, at
its end; a segment that is not vertical is widened both as a horizontal and as a vertical one. -/
def SegmentFits (last : Bool) (b e : Coord) (hw : Int) : Prop :=
  b = e ∨ (inI32 (b.x - hw) ∧ inI32 (b.x + hw) ∧
    (if b.x = e.x then (if e.y < b.y then inI32 (b.y + hw) else inI32 (b.y - hw)) else inI32 (b.y - hw) ∧ inI32 (b.y + hw)) ∧
    (last = false → (if e.y < b.y then inI32 (e.y - hw) else inI32 (e.y + hw)) ∧
      (b.x ≠ e.x → if b.x < e.x then inI32 (e.x + hw) else inI32 (e.x - hw))))

/-- all points and the width of a path stay within ±2^30, so that no sum in the conversion overflows -/
def PathSmall (p : Geometry) : Prop :=
  -1073741824 ≤ p.width ∧ p.width ≤ 1073741824 ∧
    ∀ c ∈ p.coords, -1073741824 ≤ c.x ∧ c.x ≤ 1073741824 ∧ -1073741824 ≤ c.y ∧ c.y ≤ 1073741824

end Verif.Spec
