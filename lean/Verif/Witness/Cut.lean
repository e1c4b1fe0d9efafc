import Verif.Props.Cut
import Verif.Props.Enlarge
import Verif.Props.Windows
import Verif.Witness.Zond

/-! Concrete cases of the hypotheses of the theorems about rectangles that are cut, enlarged or seen through another window. -/

namespace Verif.Witness
open Verif Props BitMatrix Zond Spec Ieee

theorem tol : (0 : ℚ) ≤ id (1 / 10 ^ 13) ∧ id (1 / 10 ^ 13 : ℚ) * ((wsW exWs : ℚ) / (10 : ℕ)) < 1 / 2 ∧
    id (1 / 10 ^ 13 : ℚ) * ((wsH exWs : ℚ) / (10 : ℕ)) < 1 / 2 := by
  unfold wsW wsH exWs; norm_num

theorem offX37 : OffLines (colOf exWs 10 37) := off_mk 7 (by simp only [colOf, wsW, exWs]; norm_num) (by simp only [colOf, wsW, exWs]; norm_num)
theorem offY77 : OffLines (rowOf exWs 10 77) := off_mk 4 (by simp only [rowOf, wsH, exWs]; norm_num) (by simp only [rowOf, wsH, exWs]; norm_num)
theorem clear1 : SidesClear exWs 10 10 ⟨23, 81⟩ ⟨57, 63⟩ := by
  refine ⟨Or.inr (off_mk 4 ?_ ?_), Or.inr (off_mk 3 ?_ ?_), Or.inr (off_mk 11 ?_ ?_), Or.inr (off_mk 7 ?_ ?_)⟩ <;>
    simp only [colOf, rowOf, wsW, wsH, exWs] <;> norm_num
theorem clear2 : SidesClear exWs2 4 7 ⟨23, 81⟩ ⟨57, 63⟩ := by
  refine ⟨Or.inr (off_mk 2 ?_ ?_), Or.inr (off_mk 1 ?_ ?_), Or.inr (off_mk 9 ?_ ?_), Or.inr (off_mk 5 ?_ ?_)⟩ <;>
    simp only [colOf, rowOf, wsW, wsH, exWs2] <;> norm_num

example := C87_cut (exZond id) exWs 10 10 _ (exSetUp id) tol.1 tol.2.1 tol.2.2 (exRect 10 80 52 60) (exRect 10 80 47 60) (exRect 47 80 52 60) ⟨10, 80⟩ ⟨52, 60⟩ 47
  ⟨rfl, _, _, rfl⟩ ⟨rfl, _, _, rfl⟩ ⟨rfl, _, _, rfl⟩ (by unfold DiffsFit inI32; decide) (by decide) (by decide) (by decide) (by decide) (by decide)
  (by unfold colOf wsW exWs; norm_num) (by unfold rowOf wsH exWs; norm_num) z10 built_z10 rfl rfl
example := C87_cut_rows (exZond id) exWs 10 10 _ (exSetUp id) tol.1 tol.2.1 tol.2.2 (exRect 10 80 52 60) (exRect 10 80 52 67) (exRect 10 67 52 60) ⟨10, 80⟩ ⟨52, 60⟩ 67
  ⟨rfl, _, _, rfl⟩ ⟨rfl, _, _, rfl⟩ ⟨rfl, _, _, rfl⟩ (by unfold DiffsFit inI32; decide) (by decide) (by decide) (by decide) (by decide) (by decide)
  (by unfold colOf wsW exWs; norm_num) (by unfold rowOf wsH exWs; norm_num) z10 built_z10 rfl rfl
example := C87_same_rows (exZond id) exWs 10 10 _ (exSetUp id) tol.1 tol.2.1 tol.2.2 (exRect 10 80 52 40) (exRect 10 80 52 67) (exRect 10 67 52 40) ⟨10, 80⟩ ⟨52, 40⟩ 67
  ⟨rfl, _, _, rfl⟩ ⟨rfl, _, _, rfl⟩ ⟨rfl, _, _, rfl⟩ (by unfold DiffsFit inI32; decide) (by decide) (by decide) (by decide) (by decide) (by unfold wsH exWs; norm_num)
  (by unfold colOf wsW exWs; norm_num) (by unfold rowOf wsH exWs; norm_num) z10 built_z10 rfl rfl
example := C87_cut_double rne rne_rounding (exZond rne) exWs 10 10 _ (exSetUp rne) (by decide +kernel) (by decide +kernel) (by decide) (by decide)
  (by unfold inI32; decide) (exRect 23 81 57 63) (exRect 23 81 37 63) (exRect 37 81 57 63) ⟨23, 81⟩ ⟨57, 63⟩ 37
  ⟨rfl, _, _, rfl⟩ ⟨rfl, _, _, rfl⟩ ⟨rfl, _, _, rfl⟩ (by unfold inI32; decide) (by unfold DiffsFit inI32; decide) (by decide) (by decide) (by decide) (by decide) (by decide)
  (by unfold colOf wsW exWs; norm_num) (by unfold rowOf wsH exWs; norm_num) clear1 offX37 z10 built_z10 rfl rfl
example := C87_cut_rows_double rne rne_rounding (exZond rne) exWs 10 10 _ (exSetUp rne) (by decide +kernel) (by decide +kernel) (by decide) (by decide)
  (by unfold inI32; decide) (exRect 23 81 57 63) (exRect 23 81 57 77) (exRect 23 77 57 63) ⟨23, 81⟩ ⟨57, 63⟩ 77
  ⟨rfl, _, _, rfl⟩ ⟨rfl, _, _, rfl⟩ ⟨rfl, _, _, rfl⟩ (by unfold inI32; decide) (by unfold DiffsFit inI32; decide) (by decide) (by decide) (by decide) (by decide) (by decide)
  (by unfold colOf wsW exWs; norm_num) (by unfold rowOf wsH exWs; norm_num) clear1 offY77 z10 built_z10 rfl rfl

example := C72_exact (exZond id) exWs 10 10 _ (exSetUp id) tol.1 tol.2.1 tol.2.2 (exRect 20 80 45 60) (exRect 15 85 52 55) ⟨20, 80⟩ ⟨45, 60⟩ ⟨15, 85⟩ ⟨52, 55⟩
  ⟨rfl, _, _, rfl⟩ ⟨rfl, _, _, rfl⟩ (by unfold DiffsFit inI32; decide) (by unfold DiffsFit inI32; decide) ⟨by decide, by decide, by decide, by decide⟩ (by decide) (by decide) (by decide) (by decide)
  (by unfold colOf wsW exWs; norm_num) (by unfold rowOf wsH exWs; norm_num) z10 built_z10 rfl rfl
example := C72_left_top (exZond id) exWs 10 10 _ (exSetUp id) tol.1 tol.2.1 tol.2.2 (exRect 20 80 45 60) (exRect 15 85 45 60) ⟨20, 80⟩ ⟨45, 60⟩ ⟨15, 85⟩
  ⟨rfl, _, _, rfl⟩ ⟨rfl, _, _, rfl⟩ (by unfold DiffsFit inI32; decide) (by unfold DiffsFit inI32; decide) (by decide) (by decide) (by decide) (by decide) (by decide) (by decide)
  (by unfold colOf wsW exWs; norm_num) (by unfold rowOf wsH exWs; norm_num) z10 built_z10 rfl rfl

example := C90_windows_double rne rne_rounding (exZond2 rne) (exZond rne) exWs2 exWs 4 7 10 10 1 1 _ (exSetUp2 rne) (exSetUp rne) exAligned (by decide +kernel) (by decide +kernel)
  (by decide) (by decide) (by unfold inI32; decide) (by unfold inI32; decide) (exRect 23 81 57 63) ⟨23, 81⟩ ⟨57, 63⟩ ⟨rfl, _, _, rfl⟩
  (by unfold inI32; decide) (by unfold DiffsFit inI32; decide) (by decide) (by decide) (by decide) (by decide)
  (by unfold colOf wsW exWs; norm_num) (by unfold rowOf wsH exWs; norm_num) clear2 clear1 _ _ (.new 4 7 (by norm_num) (by norm_num)) rfl rfl built_z10 rfl rfl

end Verif.Witness
