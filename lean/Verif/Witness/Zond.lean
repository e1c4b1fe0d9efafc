import Verif.Props.Zond
import Verif.Props.ZondCover
import Verif.Props.ZondFresh
import Verif.Props.ZondPart

/-! Concrete cases of the hypotheses of the theorems about the rasteriser. -/

namespace Verif.Witness
open Verif Props BitMatrix Zond Spec Ieee

/-- 10 × 10 and 10 × 20, all off -/
def z10 : BitMatrix := BitMatrix.new Alloc.ok 10 10
theorem built_z10 : Built z10 := .new 10 10 (by norm_num) (by norm_num)
def z1020 : BitMatrix := BitMatrix.new Alloc.ok 10 20
theorem built_z1020 : Built z1020 := .new 10 20 (by norm_num) (by norm_num)
def z2010 : BitMatrix := BitMatrix.new Alloc.ok 20 10
theorem built_z2010 : Built z2010 := .new 20 10 (by norm_num) (by norm_num)

/-- a drawing that returns -/
theorem drawn {z : Zond} {g : Option Geometry} {m : BitMatrix}
    (h : (match zondGeometry rne z g m with | .ok _ _ => true | _ => false) = true) : ∃ m', zondGeometry rne z g m = .ok () m' := by
  split at h
  · next e => exact ⟨_, e⟩
  · cases h

theorem drawn1 : ∃ m', zondGeometry rne (exZond rne) (some (exRect 20 80 45 60)) z10 = .ok () m' := drawn (by decide +kernel)

example := C37_frame rne (exZond rne) (some (exRect 20 80 45 60)) z10 built_z10
example := C37_no_ub rne rne_rounding (exZond rne) (exRect 20 80 45 60) ⟨20, 80⟩ ⟨45, 60⟩ (rne 10) (rne 10) ⟨rfl, _, _, rfl⟩ (by decide)
  (by unfold DiffsFit inI32; decide) rfl rfl (by decide +kernel) (by decide +kernel) (by decide +kernel) (by decide +kernel) z10 built_z10
example := C37_polygon_noop rne (exZond rne) { type := .polygon } rfl z10
example := C37_unsupported rne (exZond rne) { type := .text } (by decide) (by decide) z10
example := C37_short_ub rne (exZond rne) { type := .rectangle, coords := [⟨1, 2⟩] } rfl (by decide) z10
example := C37_overflow_ub rne { exZond rne with ws := ⟨⟨-2000000000, 100⟩, ⟨-1999999900, 0⟩⟩ } (exRect 2000000000 80 2000000010 60) ⟨2000000000, 80⟩ ⟨2000000010, 60⟩ ⟨rfl, _, _, rfl⟩
  (by unfold DiffsFit inI32; decide) (by decide +kernel) z10
example : True := by
  obtain ⟨m', e⟩ := drawn1
  have _ := C38_idempotent rne (exZond rne) _ z10 m' built_z10 e
  trivial
example : ∃ m1 m2 m1', zondGeometry rne (exZond rne) (some (exRect 20 80 45 60)) z10 = .ok () m1 ∧
    zondGeometry rne (exZond rne) (some (exRect 20 80 25 60)) m1 = .ok () m2 ∧
    zondGeometry rne (exZond rne) (some (exRect 20 80 25 60)) z10 = .ok () m1' := by
  obtain ⟨m1, e1⟩ := drawn1
  have h := C37_no_ub rne rne_rounding (exZond rne) (exRect 20 80 25 60) ⟨20, 80⟩ ⟨25, 60⟩ (rne 10) (rne 10) ⟨rfl, _, _, rfl⟩ (by decide)
    (by unfold DiffsFit inI32; decide) rfl rfl (by decide +kernel) (by decide +kernel) (by decide +kernel) (by decide +kernel)
  have hm : Built m1 := by
    have := C37_frame rne (exZond rne) (some (exRect 20 80 45 60)) z10 built_z10
    rw [e1] at this
    exact this.1
  obtain ⟨m2, e2⟩ : ∃ m2, zondGeometry rne (exZond rne) (some (exRect 20 80 25 60)) m1 = .ok () m2 := by
    have hb : (match zondGeometry rne (exZond rne) (some (exRect 20 80 45 60)) z10 with
      | .ok _ m => (match zondGeometry rne (exZond rne) (some (exRect 20 80 25 60)) m with | .ok _ _ => true | _ => false)
      | _ => false) = true := by decide +kernel
    rw [e1] at hb
    exact drawn hb
  obtain ⟨m1', e3, _⟩ := C38_commute rne rne (exZond rne) (exZond rne) _ _ z10 m1 m2 built_z10 e1 e2
  exact ⟨m1, m2, m1', e1, e2, e3⟩
example : ∃ m', zondAll rne (exZond rne) [some (exRect 50 50 60 40), some (exRect 20 80 45 60)] z10 = .ok () m' := by
  have hb : (match zondAll rne (exZond rne) [some (exRect 20 80 45 60), some (exRect 50 50 60 40)] z10 with | .ok _ _ => true | _ => false) = true := by decide +kernel
  split at hb
  · next e => exact ⟨_, C38_permutation rne (exZond rne) _ _ (.swap _ _ _) z10 _ built_z10 e⟩
  · cases hb
example := C39_exact_cells (exZond id) exWs 10 10 _ (exSetUp id) (by norm_num) (by unfold wsW exWs; norm_num) (by unfold wsH exWs; norm_num)
  (exRect 20 80 45 60) ⟨20, 80⟩ ⟨45, 60⟩ ⟨rfl, _, _, rfl⟩ (by unfold DiffsFit inI32; decide) (by decide) (by decide) (by decide) (by decide)
  (by unfold colOf wsW exWs; norm_num) (by unfold rowOf wsH exWs; norm_num) z10 built_z10 rfl rfl
example := C48_setEps_accepts_anything rne { eps := .fin 0 } (by unfold BadEps; decide +kernel) (.fin 7)
example := C48_setEps_stuck rne { eps := .fin 7 } (by unfold BadEps; decide +kernel) [.fin 0, .nan]

example := C39_left_top_misses rne rne_rounding (exZond rne) exWs 10 10 (exSetUp rne) (by decide) (by decide) (by unfold inI32; decide)
  (exRect (-20) 80 45 60) ⟨-20, 80⟩ ⟨45, 60⟩ ⟨rfl, _, _, rfl⟩ (by unfold inI32; decide) (by unfold DiffsFit inI32; decide) (.inl (by decide))
  ⟨0, 9, by norm_num, by norm_num, .inr (.inl (by unfold centreX wsW exWs; norm_num))⟩
  (by unfold colOf wsW exWs; norm_num) (by unfold rowOf wsH exWs; norm_num) z10 built_z10

/-- a workspace far to the left -/
def farWs : Workspace := ⟨⟨-2000000000, 100⟩, ⟨-1999999900, 0⟩⟩
def farZond : Zond := { bound := ⟨0, 9, 0, 9⟩, ws := farWs, dx := .fin (rne 10), dy := .fin (rne 10), eps := .fin (rne (1 / 10 ^ 13)) }
theorem farSetUp : SetUp rne farZond farWs 10 10 (rne (1 / 10 ^ 13)) where
  bound := rfl
  wks := rfl
  dx := by simp only [farZond, wsW, farWs]; norm_num
  dy := by simp only [farZond, wsH, farWs]; norm_num
  eps := rfl
  rpos := by norm_num
  cpos := by norm_num
  rmax := by norm_num
  cmax := by norm_num
  wpos := by decide
  hpos := by decide
example := C37_overflow_misses rne rne_rounding farZond farWs 10 10 farSetUp (by decide) (by decide) (by unfold inI32; decide)
  (exRect 2000000000 80 2000000010 60) ⟨2000000000, 80⟩ ⟨2000000010, 60⟩ ⟨rfl, _, _, rfl⟩ (by unfold inI32; decide) (by unfold DiffsFit inI32; decide)
  ⟨0, 9, by norm_num, by norm_num, .inl (by unfold centreX wsW farWs; norm_num)⟩ z10

example := C85_zero_deltas rne rne_rounding { bound := ⟨0, 9, 0, 9⟩, ws := exWs, dx := .fin 0, dy := .fin 0, eps := .fin 0 } 0 rfl rfl rfl (by unfold BoundsFit; decide)
  (exRect (-20) 180 145 (-60)) ⟨-20, 180⟩ ⟨145, -60⟩ ⟨rfl, _, _, rfl⟩ (by unfold IntCorners inI32; decide) z10 built_z10

example := C73_exact (partZond id) exWs 0 10 10 10 _ (partSetUp id) (by norm_num) (by unfold wsW exWs; norm_num) (by unfold wsH exWs; norm_num)
  (exRect 20 80 45 60) ⟨20, 80⟩ ⟨45, 60⟩ ⟨rfl, _, _, rfl⟩ (by unfold DiffsFit inI32; decide) (by decide) (by decide) (by decide) (by decide)
  (by unfold colOf wsW exWs; norm_num) (by unfold rowOf wsH exWs; norm_num) z1020 built_z1020 (by decide +kernel) (by decide +kernel)
example := C73_columns_lost rne rne_rounding (partZond rne) exWs 0 10 10 10 _ (partSetUp rne)
  (Moved.tol_range rne_rounding).1 (Moved.tol_range rne_rounding).2 (by decide) (by decide)
  (by unfold inI32; decide) (exRect 20 80 45 60) ⟨20, 80⟩ ⟨45, 60⟩ ⟨rfl, _, _, rfl⟩ (by unfold inI32; decide)
  (by unfold DiffsFit inI32; decide)
  ⟨0, 9, by norm_num, by norm_num, .inr (.inl (by unfold centreX wsW exWs; norm_num))⟩ (by decide) (by decide) (by decide)
  (by decide) (by unfold colOf wsW exWs; norm_num) (by unfold rowOf wsH exWs; norm_num) 3
  (by unfold colOf wsW exWs; norm_num) (by unfold colOf wsW exWs; norm_num) (by unfold colOf wsW exWs; norm_num)
  z1020 built_z1020

/-- the lower half of a 20 × 10 bitmap -/
def rowZond : Zond := { bound := ⟨10, 19, 0, 9⟩, ws := exWs, dx := .fin (rne 10), dy := .fin (rne 10), eps := .fin (rne (1 / 10 ^ 13)) }
theorem rowSetUp : PartSetUp rne rowZond exWs 10 10 0 10 (rne (1 / 10 ^ 13)) where
  bound := rfl
  wks := rfl
  dx := by simp only [rowZond, wsW, exWs]; norm_num
  dy := by simp only [rowZond, wsH, exWs]; norm_num
  eps := rfl
  rpos := by norm_num
  cpos := by norm_num
  rmax := by norm_num
  cmax := by norm_num
  wpos := by decide
  hpos := by decide
example := C73_rows_lost rne rne_rounding rowZond exWs 10 10 0 10 _ rowSetUp
  (Moved.tol_range rne_rounding).1 (Moved.tol_range rne_rounding).2 (by decide) (by decide)
  (by unfold inI32; decide) (exRect 20 80 45 60) ⟨20, 80⟩ ⟨45, 60⟩ ⟨rfl, _, _, rfl⟩ (by unfold inI32; decide)
  (by unfold DiffsFit inI32; decide)
  ⟨0, 9, by norm_num, by norm_num, .inr (.inl (by unfold centreX wsW exWs; norm_num))⟩ (by decide) (by decide) (by decide)
  (by decide) (by unfold colOf wsW exWs; norm_num) (by unfold rowOf wsH exWs; norm_num) 3
  (by unfold rowOf wsH exWs; norm_num) (by unfold rowOf wsH exWs; norm_num) (by unfold rowOf wsH exWs; norm_num)
  z2010 built_z2010
example := C73_nothing_drawn_rows rne rne_rounding rowZond exWs 10 10 0 10 _ rowSetUp
  (Moved.tol_range rne_rounding).1 (Moved.tol_range rne_rounding).2 (by decide) (by decide)
  (by unfold inI32; decide) (exRect 20 80 45 60) ⟨20, 80⟩ ⟨45, 60⟩ ⟨rfl, _, _, rfl⟩ (by unfold inI32; decide)
  (by unfold DiffsFit inI32; decide)
  ⟨0, 9, by norm_num, by norm_num, .inr (.inl (by unfold centreX wsW exWs; norm_num))⟩ (by decide) (by decide) (by decide)
  (by decide) (by unfold colOf wsW exWs; norm_num) (by unfold rowOf wsH exWs; norm_num) 3
  (by unfold rowOf wsH exWs; norm_num) (by unfold rowOf wsH exWs; norm_num) (by unfold rowOf wsH exWs; norm_num) (by decide)
  z2010 built_z2010
example := C73_fragment rne rne_rounding 7 exWs 0 10 10 10 (by decide) (by decide) (by decide) (by decide) (by decide) (by decide) (by decide) (by decide)

end Verif.Witness
