import Verif.Model.ZondDirect

/-! C38: the calls for one kind of geometry. -/

namespace Verif.Props
open Verif Zond

/-- **C38** The call for rectangles draws any geometry with at least three points as `ZondGeometry` draws a rectangle with the
same points, whatever its type says; with a null pointer or fewer points it is undefined.  The call for polygons draws nothing,
even for a null pointer. -/
theorem C38_direct (rnd : ℚ → ℚ) (z : Zond) (m : BitMatrix) :
    zondRectanglePtr rnd z none m = .ub ∧
    (∀ g : Geometry, g.coords.length ≤ 2 → zondRectanglePtr rnd z (some g) m = .ub) ∧
    (∀ g : Geometry, zondRectanglePtr rnd z (some g) m = zondGeometry rnd z (some { g with type := .rectangle }) m) ∧
    (∀ g : Option Geometry, zondPolygonPtr z g m = .ok () m) := by
  refine ⟨rfl, fun g hg => ?_, fun g => rfl, fun g => by cases g <;> rfl⟩
  have h2 : Res.idx g.coords 2 = .ub := Res.idx_of_ge _ _ hg
  show zondRectangle rnd z g m = .ub
  unfold zondRectangle
  rw [h2]
  cases h : Res.idx g.coords 0 with
  | ok a => rfl
  | throw e => unfold Res.idx at h; split at h <;> cases h
  | ub => rfl

example : zondRectanglePtr id {} (some { type := .path, coords := [⟨0, 0⟩, ⟨1, 1⟩] }) (BitMatrix.new Alloc.ok 2 2) = .ub :=
  (C38_direct id {} _).2.1 _ (by decide)

end Verif.Props
