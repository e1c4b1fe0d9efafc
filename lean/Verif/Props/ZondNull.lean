import Verif.Proofs.ZondNull
import Verif.Props.Generator

/-!
C105: drawing onto a null matrix pointer.

The functions ending in `Null` are the drawing functions called with a null matrix; they work on no object.
-/

namespace Verif.Props
open Verif BitMatrix Zond Spec Ieee Generator

theorem nullLike_char {R C : Nat} (hR : R < 2 ^ 64) (hC : C < 2 ^ 64) {r : Out Unit Unit} {f : M BitMatrix Unit}
    (h : NullLike R C r f) :
    (r = .ok () () ↔ ∀ m, Built m → f m = .ok () m) ∧ (∀ e, r = .throw e () ↔ ∀ m, Built m → f m = .throw e m) ∧
    (r = .ub ↔ ∃ m, Built m ∧ (f m = .ub ∨ ∃ m' i j, f m = .ok () m' ∧ ¬ Lit m i j ∧ Lit m' i j)) := by
  have hb : Built (blank R C) := Built.of_wf (blank_shape R C).1 hR hC
  have ex : ∀ {m : BitMatrix} {u : Out BitMatrix Unit}, f m = u → (u = .ok () m ∨ ∃ e, u = .throw e m) →
      ¬ (f m = .ub ∨ ∃ m' i j, f m = .ok () m' ∧ ¬ Lit m i j ∧ Lit m' i j) := by
    intro m u hu hc
    rw [hu]
    rcases hc with rfl | ⟨e, rfl⟩
    · rintro (h | ⟨m', i, j, h, h1, h2⟩)
      · cases h
      · injection h with _ h; subst h; exact h1 h2
    · rintro (h | ⟨m', i, j, h, h1, h2⟩)
      · cases h
      · cases h
  cases r with
  | ok u s =>
    have h' : ∀ m, f m = .ok () m := h
    refine ⟨by simp [h'], fun e => ?_, ?_⟩
    · simp only [reduceCtorEq, false_iff]
      intro h2
      have := h2 _ hb
      rw [h'] at this; cases this
    · simp only [reduceCtorEq, false_iff]
      rintro ⟨m, _, h2⟩
      exact ex (h' m) (.inl rfl) h2
  | throw e s =>
    have h' : ∀ m, f m = .throw e m := h
    refine ⟨?_, fun e' => ?_, ?_⟩
    · simp only [reduceCtorEq, false_iff]
      intro h2
      have := h2 _ hb
      rw [h'] at this; cases this
    · constructor
      · intro h2 m _
        injection h2 with h2 _
        rw [h', h2]
      · intro h2
        have := h2 _ hb
        rw [h'] at this
        injection this with h3 _
        rw [h3]
    · simp only [reduceCtorEq, false_iff]
      rintro ⟨m, _, h2⟩
      exact ex (h' m) (.inr ⟨e, rfl⟩) h2
  | ub =>
    have key : ∃ m, Built m ∧ (f m = .ub ∨ ∃ m' i j, f m = .ok () m' ∧ ¬ Lit m i j ∧ Lit m' i j) := by
      refine ⟨_, hb, ?_⟩
      rcases h with h | ⟨i, j, hi, hj, h1, h2⟩
      · exact .inl (h _)
      · cases hf : f (blank R C) with
        | ub => exact .inl rfl
        | throw e s => exact absurd hf (h2 _ e s (blank_shape R C))
        | ok u m' =>
          obtain ⟨hs, hc⟩ := h1 _ m' (blank_shape R C) hf
          refine .inr ⟨m', i, j, rfl, blank_dark, ?_⟩
          rw [lit_iff hs.1, hs.2.1, hs.2.2]
          exact ⟨hi, hj, hc⟩
    obtain ⟨m, hm, h2⟩ := key
    refine ⟨?_, fun e => ?_, by simp only [true_iff]; exact ⟨m, hm, h2⟩⟩
    · simp only [reduceCtorEq, false_iff]
      intro h3
      exact ex (h3 m hm) (.inl rfl) h2
    · simp only [reduceCtorEq, false_iff]
      intro h3
      exact ex (h3 m hm) (.inr ⟨e, rfl⟩) h2

/-- **C105** `ZondGeometry` with a null matrix returns exactly for the geometries that leave every matrix unchanged, throws
exactly what it throws on every matrix, and is undefined exactly when on some matrix it is undefined or lights a cell. -/
theorem C105_geometry (rnd : ℚ → ℚ) (z : Zond) (g : Option Geometry) (hi : z.bound.iEnd + 1 < 2 ^ 64)
    (hj : z.bound.jEnd + 1 < 2 ^ 64) :
    (zondGeometryNull rnd z g () = .ok () () ↔ ∀ m, Built m → zondGeometry rnd z g m = .ok () m) ∧
    (∀ e, zondGeometryNull rnd z g () = .throw e () ↔ ∀ m, Built m → zondGeometry rnd z g m = .throw e m) ∧
    (zondGeometryNull rnd z g () = .ub ↔ ∃ m, Built m ∧ (zondGeometry rnd z g m = .ub ∨
      ∃ m' i j, zondGeometry rnd z g m = .ok () m' ∧ ¬ Lit m i j ∧ Lit m' i j)) :=
  nullLike_char hi hj (zondGeometry_nullLike rnd z g)

/-- **C105** The same for the `ZondRectangle` that takes a shared pointer. -/
theorem C105_rectangle (rnd : ℚ → ℚ) (z : Zond) (g : Option Geometry) (hi : z.bound.iEnd + 1 < 2 ^ 64)
    (hj : z.bound.jEnd + 1 < 2 ^ 64) :
    (zondRectanglePtrNull rnd z g () = .ok () () ↔ ∀ m, Built m → zondRectanglePtr rnd z g m = .ok () m) ∧
    (∀ e, zondRectanglePtrNull rnd z g () = .throw e () ↔ ∀ m, Built m → zondRectanglePtr rnd z g m = .throw e m) ∧
    (zondRectanglePtrNull rnd z g () = .ub ↔ ∃ m, Built m ∧ (zondRectanglePtr rnd z g m = .ub ∨
      ∃ m' i j, zondRectanglePtr rnd z g m = .ok () m' ∧ ¬ Lit m i j ∧ Lit m' i j)) :=
  nullLike_char hi hj (zondRectanglePtr_nullLike rnd z g)

/-- **C105** `ZondPolygon` returns with a null matrix whatever the geometry, even a null one. -/
theorem C105_polygon (z : Zond) (g : Option Geometry) : zondPolygonNull z g () = .ok () () := rfl

/-- **C105** Only the bounds decide which cells can make it undefined: if drawing on the dark matrix that reaches exactly to
the bound indices lights nothing and is not undefined, a null matrix is safe. -/
theorem C105_one_matrix_decides (rnd : ℚ → ℚ) (z : Zond) (g : Option Geometry) (m m' : BitMatrix) (hm : Built m) (h1 : m.isize = z.bound.iEnd + 1)
    (h2 : m.jsize = z.bound.jEnd + 1) (hdark : ∀ i j, ¬ Lit m' i j) (hz : zondGeometry rnd z g m = .ok () m') :
    zondGeometryNull rnd z g () = .ok () () := by
  have h := zondGeometry_nullLike rnd z g
  have hs : Shape (z.bound.iEnd + 1) (z.bound.jEnd + 1) m := ⟨(built_shape hm).1, h1, h2⟩
  cases hr : zondGeometryNull rnd z g () with
  | ok u s => rfl
  | throw e s =>
    rw [hr] at h
    have h' : ∀ m, zondGeometry rnd z g m = .throw e m := h
    rw [h'] at hz; cases hz
  | ub =>
    rw [hr] at h
    rcases h with h | ⟨i, j, a, b, h, -⟩
    · rw [h] at hz; cases hz
    · obtain ⟨s, c⟩ := h m m' hs hz
      refine absurd ?_ (hdark i j)
      rw [lit_iff s.1, s.2.1, s.2.2]
      exact ⟨a, b, c⟩

end Verif.Props
