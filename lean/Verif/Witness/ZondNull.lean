import Verif.Witness.Flattened
import Verif.Props.ZondNull

/-! Concrete cases of the hypotheses of the theorems of C105. -/

namespace Verif.Witness
open Verif Props BitMatrix Zond Spec Ieee Generator

/-- the rasteriser of a 10×10 bitmap of the window (0,0)-(100,100) -/
def znZ : Zond := genRaster rne ⟨0, 0⟩ ⟨100, 100⟩ 10 10

def znRect (x1 y1 x2 y2 : Int) : Geometry := { type := .rectangle, coords := [⟨x1, y1⟩, ⟨x2, y1⟩, ⟨x2, y2⟩, ⟨x1, y2⟩, ⟨x1, y1⟩] }

def znCode : Out Unit Unit → Nat
  | .ok _ _ => 0
  | .throw .invalidArgument _ => 1
  | .throw _ _ => 2
  | .ub => 3

theorem znCode_ok {o : Out Unit Unit} (h : znCode o = 0) : o = .ok () () := by
  cases o with
  | ok u s => rfl
  | throw e s => cases e <;> simp [znCode] at h
  | ub => simp [znCode] at h

theorem znCode_ub {o : Out Unit Unit} (h : znCode o = 3) : o = .ub := by
  cases o with
  | ok u s => simp [znCode] at h
  | throw e s => cases e <;> simp [znCode] at h
  | ub => rfl

theorem znCode_throw {o : Out Unit Unit} (h : znCode o = 1) : o = .throw .invalidArgument () := by
  cases o with
  | ok u s => simp [znCode] at h
  | throw e s => cases e <;> simp [znCode] at h; rfl
  | ub => simp [znCode] at h

/-- a rectangle between the centres of the cells, one that covers a centre, one that starts left of the window -/
example : (∀ m, Built m → zondGeometry rne znZ (some (znRect 16 24 24 16)) m = .ok () m) ∧
    (∃ m, Built m ∧ (zondGeometry rne znZ (some (znRect 12 38 38 12)) m = .ub ∨
      ∃ m' i j, zondGeometry rne znZ (some (znRect 12 38 38 12)) m = .ok () m' ∧ ¬ Lit m i j ∧ Lit m' i j)) ∧
    (∀ m, Built m → zondGeometry rne znZ (some (znRect (-5) 24 24 16)) m = .throw .invalidArgument m) := by
  refine ⟨(C105_geometry rne znZ _ (by decide) (by decide)).1.mp (znCode_ok (by decide +kernel)),
    (C105_geometry rne znZ _ (by decide) (by decide)).2.2.mp (znCode_ub (by decide +kernel)),
    ((C105_geometry rne znZ _ (by decide) (by decide)).2.1 _).mp (znCode_throw (by decide +kernel))⟩

/-- the other entry point, and one matrix that decides -/
example : zondRectanglePtrNull rne znZ (some (znRect 16 24 24 16)) () = .ok () () ∧
    zondGeometryNull rne znZ (some (znRect 16 24 24 16)) () = .ok () () := by
  have h : ∀ m, Built m → zondGeometry rne znZ (some (znRect 16 24 24 16)) m = .ok () m :=
    (C105_geometry rne znZ _ (by decide) (by decide)).1.mp (znCode_ok (by decide +kernel))
  refine ⟨(C105_rectangle rne znZ _ (by decide) (by decide)).1.mpr h, ?_⟩
  have hb : Built (blank 10 10) := built_blank (by decide) (by decide)
  exact C105_one_matrix_decides rne znZ _ (blank 10 10) (blank 10 10) hb rfl rfl (fun i j => blank_dark) (h _ hb)

end Verif.Witness
