import Verif.Props.Range
import Verif.Props.Same
import Verif.Props.Moved
import Verif.Props.Transposed
import Verif.Witness.Generator
import Verif.Witness.Zond

/-! Concrete cases of the hypotheses of the theorems that compare two drawings, and of those about the range of `double`. -/

namespace Verif.Witness
open Verif Props BitMatrix Zond Spec Ieee Generator Verif.Spec.Binary64 Verif.Proofs.Range

/-- every geometry of the example layout is a rectangle, or a text (which is never drawn) -/
theorem exShapes : ShapesOnly exLayout := by
  intro lib l p h1 h2 h3
  simp only [exLayout, List.mem_cons, Option.some.injEq, List.not_mem_nil, or_false] at h1
  rcases h1 with rfl | rfl
  · simp only [List.mem_cons, List.not_mem_nil, or_false] at h2
    rcases h2 with rfl | rfl | rfl <;> simp at h3
    · subst h3; decide
    · rcases h3 with rfl | rfl <;> decide
    · subst h3; decide
  · simp only [List.mem_cons, List.not_mem_nil, or_false] at h2
    subst h2
    simp at h3
    rcases h3 with rfl | rfl <;> decide

/-- the layout and the window moved by (1000, -50) -/
example : True := by
  obtain ⟨g, hr⟩ := ready_first 7 ⟨0, 0⟩ ⟨100, 100⟩ [13, 23] (by simp) 10 10 (by decide) (by decide) (by decide) (by decide)
    (by unfold inI32; decide) (by unfold inI32; decide) (by decide) (by decide) id_rounding
  obtain ⟨g', hr'⟩ := ready_first 9 (movePt ⟨1000, -50⟩ ⟨0, 0⟩) (movePt ⟨1000, -50⟩ ⟨100, 100⟩) [13, 23] (by simp) 10 10 (by decide) (by decide) (by decide) (by decide)
    (by unfold inI32; decide) (by unfold inI32; decide) (by decide) (by decide) id_rounding
  have _ := C65_moved_together g g' 7 9 ⟨0, 0⟩ ⟨100, 100⟩ ⟨1000, -50⟩ [13, 23] Alloc.ok Alloc.ok 10 10 hr hr' 1 2 exMem
    ⟨fun _ => { libraries := exLayout.libraries.map (Option.map (moveLib ⟨1000, -50⟩)) }, fun _ => {}⟩ 3 exShapes rfl
  trivial

/-- rows and columns exchanged -/
example : True := by
  obtain ⟨g, hr, _⟩ := exReady
  obtain ⟨g', hr'⟩ := ready_first 9 ⟨-100, -100⟩ ⟨0, 0⟩ [13, 23] (by simp) 10 10 (by decide) (by decide) (by decide) (by decide)
    (by unfold inI32; decide) (by unfold inI32; decide) (by decide) (by decide) Ieee.rne_rounding
  have _ := C76_process rne Ieee.rne_neg g g' 7 9 ⟨0, 0⟩ ⟨100, 100⟩ [13, 23] Alloc.ok Alloc.ok 10 10 hr hr' (by decide) (by decide) 1 2 exMem
    ⟨fun _ => { libraries := exLayout.libraries.map (Option.map flipLib) }, fun _ => {}⟩ 3 exShapes rfl
  obtain ⟨m', hm⟩ := drawn1
  have _ := C76_geometry rne Ieee.rne_neg (exZond rne) _ _ _ rfl rfl rfl (by unfold SmallBound; decide) (exRect 20 80 45 60) z10 z10 built_z10 built_z10
    ⟨rfl, rfl, fun i j => ⟨fun h => absurd h (blank_dark (R := 10) (C := 10)), fun h => absurd h (blank_dark (R := 10) (C := 10))⟩⟩ m' hm
  trivial

/-- the libraries in the other order: the same set of geometries is drawn -/
def exMemR : Memory := ⟨fun _ => { libraries := exLayout.libraries.reverse }, fun _ => {}⟩

theorem exCandidates (p : Geometry) : Candidate (exMem.layouts 7) [13, 23] p ↔ Candidate (exMemR.layouts 9) [13, 23] p := by
  unfold Candidate
  simp only [exMem, exMemR, List.mem_reverse]

example : True := by
  obtain ⟨g, hr, txt, g', hp⟩ := exProcess
  obtain ⟨g2, hr2⟩ := ready_first 9 ⟨0, 0⟩ ⟨100, 100⟩ [13, 23] (by simp) 10 10 (by decide) (by decide) (by decide) (by decide)
    (by unfold inI32; decide) (by unfold inI32; decide) (by decide) (by decide) Ieee.rne_rounding
  have hfit : LayoutFits (exMemR.layouts 9) exMemR.elements := by
    obtain ⟨h1, h2⟩ := exFits
    exact ⟨fun lib l p a b c => h1 lib l p (by simpa [exMemR] using a) b c, h2⟩
  have hsel : ∀ s, Selected (exMem.layouts 7) exMem.elements (wsOf ⟨0, 0⟩ ⟨100, 100⟩) [13, 23] s ↔
      Selected (exMemR.layouts 9) exMemR.elements (wsOf ⟨0, 0⟩ ⟨100, 100⟩) [13, 23] s := by
    intro s
    unfold Selected
    simp only [exCandidates]
    rfl
  have _ := C88_same_set rne _ _ _ _ g 7 [13, 23] Alloc.ok hr 1 exMem 3 exFits g2 9 [13, 23] Alloc.ok hr2 2 exMemR 4 hfit hsel true txt g' hp
  trivial

theorem moderate10 : Moderate (.fin 10) := ⟨by decide +kernel, .inr ⟨by decide +kernel, by decide +kernel⟩⟩

example := C82_ratios rneSub_normal Alloc.ok (BitMatrix.new Alloc.ok 3 5) (BitMatrix.new Alloc.ok 3 5)
example := C82_fragment rneSub_normal {}
example := C82_gdsii_read rneSub_normal
example := C82_gdsii_write rneSub_normal (.fin (3 / 4)) (fun q h => by cases h; exact ⟨by decide +kernel, by decide +kernel⟩)
theorem short_of {α : Type} {r : Res (List α)} (h : (match r with | .ok l => decide (l.length < 1000) | _ => true) = true) :
    ∀ e, r = .ok e → e.length < 2 ^ 64 := by
  intro e he
  subst he
  have : e.length < 1000 := of_decide_eq_true h
  omega

example := C82_coefficients rneSub_normal [1, 2, 3] true (BitMatrix.new Alloc.ok 3 5) (by decide) (short_of (by decide +kernel))
  (short_of (by decide +kernel)) (short_of (by decide +kernel))
example := C82_rasteriser rneSub_normal { exZond rne with eps := .fin (1 / 1024) } (by show Moderate (.fin (rne 10)); rw [show rne 10 = 10 by decide +kernel]; exact moderate10)
  (by show Moderate (.fin (rne 10)); rw [show rne 10 = 10 by decide +kernel]; exact moderate10)
  ⟨by decide +kernel, .inr ⟨by decide +kernel, by decide +kernel⟩⟩ (by unfold inI32; decide) (by decide) [some (exRect 20 80 45 60)]
  (by simp only [List.mem_singleton, Option.some.injEq, forall_eq]; unfold inI32; decide) z10

end Verif.Witness
