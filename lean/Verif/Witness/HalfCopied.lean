import Verif.Witness.Flattened
import Verif.Props.HalfCopied

/-! Concrete cases of the hypotheses of the theorems of C106. -/

namespace Verif.Witness
open Verif Props BitMatrix Zond Spec Ieee Generator

/-- a fresh generator assigned from a ready one, failing at the converted geometries: it draws as the ready one, on a
memory of a nested layout -/
example : ∃ g src, FailedAtGeoms (Generator.new rne) src g ∧ g ≠ src ∧ getMatrix g = getMatrix src ∧
    (Generator.process rne Alloc.ok (.ok 5) flMem 3 10 10 g).map (Out.mapS getMatrix) =
      (Generator.process rne Alloc.ok (.ok 1) flMem 3 10 10 src).map (Out.mapS getMatrix) := by
  obtain ⟨src, hr⟩ := flReady 7
  have hf := FailedAtGeoms.geoms (old := Generator.new rne) (src := src) (flBox :: src.geoms)
  refine ⟨_, src, hf, ?_, C106_draws_as_source rne [] _ src _ History.start 7 _ _ _ _ _ 10 10 hr (Or.inr hf) rfl 1 5 flMem 3⟩
  intro h
  have := congrArg Generator.geoms h
  exact absurd this (List.cons_ne_self _ _)

/-- … and one failing at the fragments, which is left a row of them -/
example : ∃ g src, FailedAtFrags (Generator.new rne) src g ∧ g.frags ≠ src.frags ∧
    (Generator.process rne Alloc.ok (.ok 5) flMem 3 10 10 g).map (Out.mapS getMatrix) =
      (Generator.process rne Alloc.ok (.ok 1) flMem 3 10 10 src).map (Out.mapS getMatrix) := by
  obtain ⟨src, hr⟩ := flReady 7
  have hf := FailedAtFrags.mk (old := Generator.new rne) (src := src) [[]]
  refine ⟨_, src, hf, ?_, (C106_draws_as_source rne [] _ src _ History.start 7 _ _ _ _ _ 10 10 hr (Or.inl hf) rfl 1 5 flMem 3).2⟩
  obtain ⟨_, _, _, _, _, h6⟩ := source_parts hr
  rw [h6]
  exact List.cons_ne_nil _ _

/-- failing at the layers: the layout and window are those of the ready generator, the layers those the memory held -/
example : ∃ g src, FailedAtLayers (Generator.new rne) src g ∧ getMatrix g = getMatrix (Generator.new rne) ∧
    (Generator.process rne Alloc.ok (.ok 5) flMem 3 10 10 (setLayerArray [13] g)).map (Out.mapS getMatrix) =
      (Generator.process rne Alloc.ok (.ok 1) flMem 3 10 10 src).map (Out.mapS getMatrix) := by
  obtain ⟨src, hr⟩ := flReady 7
  have hf := FailedAtLayers.mk (old := Generator.new rne) (src := src) []
  exact ⟨_, src, hf, C106_layers_lost rne [] _ src _ src History.start 7 _ _ _ [13] _ _ _ 10 10 hr hr hf rfl 1 5 flMem 3⟩

/-- a fresh generator may be given a layout, so may one whose assignment failed at the layers … -/
example (src : Generator) : ∃ g', init (some 7) [13] ⟨0, 0⟩ ⟨100, 100⟩ { copyFirst (Generator.new rne) src with layers := [4] } = .ok () g' :=
  ((C106_init _ src _ (some 7) [13] ⟨0, 0⟩ ⟨100, 100⟩).1 (FailedAtLayers.mk [4])).mpr ⟨_, rfl⟩

/-- … and a ready one may not, so neither may one whose assignment from it failed at the geometries kept whole -/
example : ∃ src, ¬ ∃ g', init (some 7) [13] ⟨0, 0⟩ ⟨100, 100⟩ { copyGeoms (Generator.new rne) src with legacy := [flBox] } = .ok () g' := by
  obtain ⟨src, hr⟩ := flReady 7
  refine ⟨src, fun h => ?_⟩
  have h2 := ((C106_init (Generator.new rne) src _ (some 7) [13] ⟨0, 0⟩ ⟨100, 100⟩).2 (FailedAtGeoms.legacy [flBox])).mp h
  obtain ⟨g', h2⟩ := h2
  obtain ⟨_, _, _, _, _, h6⟩ := source_parts hr
  unfold init at h2
  rw [h6] at h2
  rw [if_pos (Or.inr (Or.inr (by decide)))] at h2
  cases h2

end Verif.Witness
