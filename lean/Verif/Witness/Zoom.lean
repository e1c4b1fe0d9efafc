import Verif.Props.Zoom
import Verif.Witness.Client
import Verif.Witness.Cut

/-! Concrete cases of the hypotheses of the theorems about finer grids. -/

namespace Verif.Witness
open Verif Props BitMatrix Zond Spec Ieee Spec.Client

example := C94_zoom { exZond id with eps := .fin (1 / 10 ^ 13) } { exZond3 id with eps := .fin (1 / 10 ^ 13) } exWs 10 10 1 1 (1 / 10 ^ 13) (exSetUp id) (exSetUp3 id) (by norm_num)
  (by unfold wsW exWs; norm_num) (by unfold wsH exWs; norm_num) (exRect 20 80 45 60) ⟨20, 80⟩ ⟨45, 60⟩ ⟨rfl, _, _, rfl⟩
  (by unfold DiffsFit inI32; decide) (by decide) (by decide) (by decide) (by decide)
  (by unfold colOf wsW exWs; norm_num) (by unfold rowOf wsH exWs; norm_num)
  z10 (BitMatrix.new Alloc.ok 30 30) built_z10 rfl rfl (.new 30 30 (by norm_num) (by norm_num)) rfl rfl

theorem exGrid100 : Props.Grid ⟨0, 0⟩ ⟨100, 100⟩ 10 10 :=
  ⟨by unfold inI32; decide, by unfold inI32; decide, by unfold inI32; decide, by decide, by decide, by decide, by decide, by decide, by decide⟩
theorem exGrid300 : Props.Grid ⟨0, 0⟩ ⟨100, 100⟩ ((2 * 1 + 1) * 10) ((2 * 1 + 1) * 10) :=
  ⟨by unfold inI32; decide, by unfold inI32; decide, by unfold inI32; decide, by decide, by decide, by decide, by decide, by decide, by decide⟩

/-- `20..45 × 60..80`: the centre of cell (3, 2) is inside, cell (8, 8) is far away -/
example : True := by
  obtain ⟨m, -, s⟩ := exShown ⟨0, 0⟩ ⟨100, 100⟩ 10 10 exGrid100 (.inl ⟨by decide, by decide, by unfold inI32; decide, by unfold inI32; decide, by decide, by decide⟩)
  obtain ⟨M, -, S⟩ := exShown ⟨0, 0⟩ ⟨100, 100⟩ _ _ exGrid300 (.inl ⟨by decide, by decide, by unfold inI32; decide, by unfold inI32; decide, by decide, by decide⟩)
  have _ := C94_bitmaps ⟨0, 0⟩ ⟨100, 100⟩ 10 10 1 1 (by decide) (by decide) _ m M s S 3 2 (by decide) (by decide) (by
    simp only [List.mem_singleton, forall_eq]
    left
    unfold InRect centreX centreY Client.window Client.lt Client.rb wsW wsH
    norm_num)
  have _ := C94_bitmaps ⟨0, 0⟩ ⟨100, 100⟩ 10 10 1 1 (by decide) (by decide) _ m M s S 8 8 (by decide) (by decide) (by
    simp only [List.mem_singleton, forall_eq]
    right
    unfold NearRect centreX centreY Client.window Client.lt Client.rb wsW wsH
    norm_num)
  trivial

/-- the rectangle `23..57 × 63..81` of a file -/
example : ∃ m M : BitMatrix, (Lit m 2 3 ↔ Lit M 7 10) := by
  obtain ⟨w, -, h⟩ := C94_files _ _ _ _ _ _ exWhole_plain 7 (fun _ => {}) (by simp)
  obtain ⟨g, g', m, M, g1, g1', -, -, -, -, hl⟩ := h rne rne_rounding ⟨0, 0⟩ ⟨100, 100⟩ 10 10 1 1 exGrid100 exGrid300
    Alloc.ok rfl rfl ⟨fun _ => w.data, w.heap⟩ 0 rfl rfl 0 0 23 (by
      intro q hq _ _
      simp only [exWhole, List.mem_cons, List.not_mem_nil, or_false] at hq
      subst hq
      refine .inl ⟨⟨by decide, by decide, by unfold inI32; decide, by unfold inI32; decide, by decide, by decide⟩, ?_,
        ⟨by decide, by decide, by unfold inI32; decide, by unfold inI32; decide, by decide, by decide⟩, ?_⟩
      · refine ⟨Or.inr (off_mk 4 ?_ ?_), Or.inr (off_mk 3 ?_ ?_), Or.inr (off_mk 11 ?_ ?_), Or.inr (off_mk 7 ?_ ?_)⟩ <;>
          simp only [colOf, rowOf, wsW, wsH, Client.window, Client.lt, Client.rb] <;> norm_num
      · refine ⟨Or.inr (off_mk 13 ?_ ?_), Or.inr (off_mk 11 ?_ ?_), Or.inr (off_mk 34 ?_ ?_), Or.inr (off_mk 22 ?_ ?_)⟩ <;>
          simp only [colOf, rowOf, wsW, wsH, Client.window, Client.lt, Client.rb] <;> norm_num)
  refine ⟨m, M, hl 2 3 (by decide) (by decide) ?_⟩
  intro q hq _ _
  simp only [exWhole, List.mem_cons, List.not_mem_nil, or_false] at hq
  subst hq
  constructor <;> simp only [EndsBefore, colOf, rowOf, wsW, wsH, Client.window, Client.rb] <;> norm_num

end Verif.Witness
