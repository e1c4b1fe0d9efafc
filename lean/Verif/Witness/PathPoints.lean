import Verif.Witness.Flattened
import Verif.Props.PathPoints

/-! Concrete cases of the hypotheses of the theorems of C101. -/

namespace Verif.Witness
open Verif Props BitMatrix Zond Spec Ieee Generator Converter

/-- a path of three points whose box touches the window -/
def ppPath : Geometry := { samplePath with min := ⟨0, 0⟩, max := ⟨50, 50⟩ }
def ppLayout : LayoutData := oneLayer 13 [some ppPath, none, some flBox]
def ppMem : Memory := ⟨fun _ => ppLayout, fun _ => {}⟩
def ppDraw (p : Geometry) : Geometry := if p.type = .path then { p with coords := p.coords.map fun _ => ⟨7, 9⟩, width := 4 } else p

theorem ppCand {p : Geometry} (h : Candidate (ppMem.layouts 7) [13] p) : p = ppPath ∨ p = flBox := by
  have := (candidate_oneLayer (n := 13) (gs := [some ppPath, none, some flBox]) (req := [13]) (by simp) p).mp h
  simpa using this

theorem ppFits : LayoutFits ppLayout fun _ => {} := by
  refine ⟨?_, fun e g h => by simp at h⟩
  intro lib l p h1 h2 h3
  simp only [ppLayout, oneLayer, List.mem_singleton, Option.some.injEq] at h1
  subst h1
  simp only [List.mem_singleton] at h2
  subst h2
  simp at h3
  rcases h3 with rfl | rfl <;> decide

theorem ppFits2 (f : Geometry → List Geometry) (h : ∀ p, p = ppPath ∨ p = flBox → ∀ q ∈ f p, q.coords.length < 2 ^ 64) :
    LayoutFits (replacedLayout f ppLayout) fun _ => {} := by
  refine ⟨?_, fun e g h => by simp at h⟩
  intro lib l p h1 h2 h3
  simp only [replacedLayout, ppLayout, oneLayer, List.map_cons, List.map_nil, Option.map_some, List.mem_singleton, Option.some.injEq] at h1
  subst h1
  simp only [List.mem_singleton] at h2
  subst h2
  simp [replacedLayer] at h3
  rcases h3 with h3 | h3
  · exact h _ (.inl rfl) p h3
  · exact h _ (.inr rfl) p h3

example : ∃ g g2 txt g' g2' g3', Generator.process rne Alloc.ok (.ok 1) ppMem 3 10 10 g = some (.ok (true, txt) g') ∧
    Generator.process rne Alloc.ok (.ok 1) ⟨fun _ => replacedLayout (pathAtOrigin (wsOf ⟨0, 0⟩ ⟨100, 100⟩)) ppLayout, fun _ => {}⟩ 3 10 10 g2 =
      some (.ok (true, txt) g2') ∧
    Generator.process rne Alloc.ok (.ok 1) ⟨fun _ => replacedLayout (fun p => [ppDraw p]) ppLayout, fun _ => {}⟩ 3 10 10 g2 =
      some (.ok (true, txt) g3') := by
  obtain ⟨g, hr⟩ := flReady 7
  obtain ⟨g2, hr2⟩ := flReady 9
  obtain ⟨txt, g', hp⟩ := process_of_draw hr (mem := ppMem) (n := 3) (by decide +kernel)
  obtain ⟨g2', h2, -⟩ := C101_paths_at_origin rne _ _ 10 10 g 7 [13] Alloc.ok hr 1 ppMem 3 ppFits g2 9 Alloc.ok hr2 1
    ⟨fun _ => replacedLayout (pathAtOrigin (wsOf ⟨0, 0⟩ ⟨100, 100⟩)) ppLayout, fun _ => {}⟩
    (ppFits2 _ (fun p hp q hq => by
      rcases hp with rfl | rfl
      · unfold pathAtOrigin at hq
        rw [if_pos (show ppPath.type = GType.path from rfl)] at hq
        split at hq
        · rw [List.mem_singleton] at hq; subst hq; decide
        · cases hq
      · simp [pathAtOrigin, flBox, exRect] at hq; subst hq; decide)) rfl rfl true txt g' hp
  obtain ⟨g3', h3, -⟩ := C101_redrawn rne _ _ 10 10 g 7 [13] Alloc.ok hr 1 ppMem 3 ppFits ppDraw (fun p h => by simp [ppDraw, h])
    (fun p h => by simp [ppDraw, h])
    (fun p hc hty _ => by
      rcases ppCand hc with rfl | rfl
      · exact ⟨[originRect 7, originRect 7], by decide⟩
      · cases hty)
    g2 9 Alloc.ok hr2 1 ⟨fun _ => replacedLayout (fun p => [ppDraw p]) ppLayout, fun _ => {}⟩
    (ppFits2 _ (fun p hp q hq => by
      rw [List.mem_singleton] at hq
      rcases hp with rfl | rfl <;> subst hq <;> decide)) rfl rfl true txt g' hp
  exact ⟨g, g2, txt, g', g2', g3', hp, h2, h3⟩

/-- a window without the origin -/
example : ∃ g g2 txt g' g2', Generator.process rne Alloc.ok (.ok 1) ppMem 3 10 10 g = some (.ok (true, txt) g') ∧
    Generator.process rne Alloc.ok (.ok 1) ⟨fun _ => replacedLayout withoutPath ppLayout, fun _ => {}⟩ 3 10 10 g2 = some (.ok (true, txt) g2') := by
  have rd : ∀ a, ∃ g, Ready rne g a ⟨1, 0⟩ ⟨101, 100⟩ [13] Alloc.ok 10 10 := fun a =>
    ready_first a ⟨1, 0⟩ ⟨101, 100⟩ [13] (by simp) 10 10 (by decide) (by decide) (by decide) (by decide)
      (by unfold inI32; decide) (by unfold inI32; decide) (by decide) (by decide) Ieee.rne_rounding
  obtain ⟨g, hr⟩ := rd 7
  obtain ⟨g2, hr2⟩ := rd 9
  obtain ⟨txt, g', hp⟩ := process_of_draw hr (mem := ppMem) (n := 3) (by decide +kernel)
  obtain ⟨g2', h2, -⟩ := C101_paths_invisible rne _ _ 10 10 (by decide) g 7 [13] Alloc.ok hr 1 ppMem 3 ppFits g2 9 Alloc.ok hr2 1
    ⟨fun _ => replacedLayout withoutPath ppLayout, fun _ => {}⟩
    (ppFits2 _ (fun p hp q hq => by
      rcases hp with rfl | rfl
      · simp [withoutPath, ppPath, samplePath] at hq
      · simp [withoutPath, flBox, exRect] at hq; subst hq; decide)) rfl rfl true txt g' hp
  exact ⟨g, g2, txt, g', g2', hp, h2⟩

end Verif.Witness
