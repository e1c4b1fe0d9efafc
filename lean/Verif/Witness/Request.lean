import Verif.Witness.Flattened
import Verif.Props.Request

/-! Concrete cases of the hypotheses of the theorems of C103. -/

namespace Verif.Witness
open Verif Props BitMatrix Zond Spec Ieee Generator Converter

def rqBox : Geometry := { exRect 60 40 80 10 with min := ⟨60, 10⟩, max := ⟨80, 40⟩ }
def rqLib : Library := { layers := [{ layer := 5 }, { layer := 13, geometries := [some flBox] }, { layer := 7 }, { layer := 23, geometries := [some rqBox] }] }
def rqMem : Memory := ⟨fun _ => { libraries := [some rqLib] }, fun _ => {}⟩

theorem rqReady (a : Nat) (req : List Int) (h : req ≠ []) : ∃ g, Ready rne g a ⟨0, 0⟩ ⟨100, 100⟩ req Alloc.ok 10 10 :=
  ready_first a ⟨0, 0⟩ ⟨100, 100⟩ req h 10 10 (by decide) (by decide) (by decide) (by decide)
    (by unfold inI32; decide) (by unfold inI32; decide) (by decide) (by decide) Ieee.rne_rounding

theorem rqFits : LayoutFits (rqMem.layouts 7) rqMem.elements := by
  refine ⟨?_, fun e g h => by simp [rqMem] at h⟩
  intro lib l p h1 h2 h3
  simp only [rqMem, List.mem_singleton, Option.some.injEq] at h1
  subst h1
  simp only [rqLib, List.mem_cons, List.not_mem_nil, or_false] at h2
  rcases h2 with rfl | rfl | rfl | rfl <;> simp at h3 <;> subst h3 <;> decide

/-- the rectangle of layer 23 is seen when layer 23 is asked for, and not when layers 23 and 13 are -/
example : ∃ g1 g2 g3 txt txt3 g1' g2' g3', Generator.process rne Alloc.ok (.ok 1) rqMem 3 10 10 g1 = some (.ok (true, txt) g1') ∧
    Generator.process rne Alloc.ok (.ok 1) rqMem 3 10 10 g2 = some (.ok (true, txt) g2') ∧ getMatrix g2' = getMatrix g1' ∧
    Generator.process rne Alloc.ok (.ok 1) rqMem 3 10 10 g3 = some (.ok (true, txt3) g3') ∧ ∀ i j, ¬ Lit (getMatrix g3') i j := by
  obtain ⟨g1, hr1⟩ := rqReady 7 [23, 13] (by simp)
  obtain ⟨g2, hr2⟩ := rqReady 7 [13] (by simp)
  obtain ⟨g3, hr3⟩ := rqReady 7 [99] (by simp)
  obtain ⟨txt, g1', hp⟩ := process_of_draw hr1 (mem := rqMem) (n := 3) (by decide +kernel)
  have h := C103_second_lost rne ⟨0, 0⟩ ⟨100, 100⟩ 10 10 7 13 23 rqLib [{ layer := 5 }] [{ layer := 7 }] []
    { layer := 13, geometries := [some flBox] } { layer := 23, geometries := [some rqBox] } rfl rfl rfl (by simp) g1 Alloc.ok [23, 13] (by simp [or_comm]) hr1 1
    g2 Alloc.ok hr2 1 rqMem 3 rfl
  have _ := C103_one_layer rne ⟨0, 0⟩ ⟨100, 100⟩ 10 10 7 [23, 13] rqLib [{ layer := 5 }] [{ layer := 7 }, { layer := 23, geometries := [some rqBox] }]
    { layer := 13, geometries := [some flBox] } rfl (by simp) (by simp) g1 Alloc.ok hr1 1 g2 Alloc.ok hr2 1 rqMem 3 rfl
  have _ := C103_same_first rne ⟨0, 0⟩ ⟨100, 100⟩ 10 10 7 [23, 13] [23, 13] g1 Alloc.ok hr1 1 g1 Alloc.ok hr1 1 rqMem 3 (fun _ _ _ => Iff.rfl)
  obtain ⟨txt3, g3', h3, -, -, hd⟩ := C103_none rne ⟨0, 0⟩ ⟨100, 100⟩ 10 10 7 [99] g3 Alloc.ok hr3 1 rqMem 3 rqFits (by simp [rqMem]) (by
    intro lib l h1 h2
    simp only [rqMem, List.mem_singleton, Option.some.injEq] at h1
    subst h1
    simp only [rqLib, List.mem_cons, List.not_mem_nil, or_false] at h2
    rcases h2 with rfl | rfl | rfl | rfl <;> simp)
  rw [hp] at h
  cases h2 : Generator.process rne Alloc.ok (.ok 1) rqMem 3 10 10 g2 with
  | none => rw [h2] at h; cases h
  | some o =>
    rw [h2] at h
    cases o with
    | ub => cases h
    | throw e g' => cases h
    | ok r g2' =>
      simp only [Option.map_some, Out.mapS, Option.some.injEq, Out.ok.injEq] at h
      obtain ⟨rfl, hm⟩ := h
      exact ⟨g1, g2, g3, txt, txt3, g1', g2', g3', hp, h2, hm.symm, h3, hd⟩

end Verif.Witness
