import Verif.Witness.PathPoints
import Verif.Props.RectanglesOnly

/-! Concrete cases of the hypotheses of the theorems of C102. -/

namespace Verif.Witness
open Verif Props BitMatrix Zond Spec Ieee Generator Converter

def roPoly : Geometry := { flBox with type := .polygon }
def roText : Geometry := { type := .text, min := ⟨0, 0⟩, max := ⟨5, 5⟩ }
/-- one of each kind -/
def roLayout : LayoutData := oneLayer 13 [some flRef, some flNew, some ppPath, some roPoly, some roText, none, some flBox]
def roMem : Memory := ⟨fun _ => roLayout, flH⟩
def roFlat (_ : Geometry) : List Geometry := List.replicate 4 flBox

theorem roCand {p : Geometry} (h : Candidate (roMem.layouts 7) [13] p) :
    p = flRef ∨ p = flNew ∨ p = ppPath ∨ p = roPoly ∨ p = roText ∨ p = flBox := by
  have := (candidate_oneLayer (n := 13) (gs := [some flRef, some flNew, some ppPath, some roPoly, some roText, none, some flBox]) (req := [13]) (by simp) p).mp h
  simpa using this

theorem roFits : LayoutFits (roMem.layouts 7) roMem.elements := by
  refine ⟨?_, flSizes⟩
  intro lib l p h1 h2 h3
  simp only [roMem, roLayout, oneLayer, List.mem_singleton, Option.some.injEq] at h1
  subst h1
  simp only [List.mem_singleton] at h2
  subst h2
  simp at h3
  rcases h3 with rfl | rfl | rfl | rfl | rfl | rfl <;> decide

theorem roShort {ws : Workspace} {p q : Geometry} (hp : p.coords.length < 2 ^ 64) (h : q ∈ rectanglesOf ws roFlat p) : q.coords.length < 2 ^ 64 := by
  unfold rectanglesOf at h
  split at h
  · rw [List.mem_singleton] at h; subst h; exact hp
  · split at h
    · rw [List.mem_singleton] at h; subst h; exact (by norm_num : (5 : Nat) < 2 ^ 64)
    · cases h
  · split at h
    · rw [List.eq_of_mem_replicate (List.mem_filter.mp h).1]; decide
    · cases h
  all_goals cases h

theorem roFits2 (ws : Workspace) : LayoutFits (replacedLayout (rectanglesOf ws roFlat) roLayout) fun _ => {} := by
  refine ⟨?_, fun e g h => by simp at h⟩
  intro lib l p h1 h2 h3
  simp only [replacedLayout, roLayout, oneLayer, List.map_cons, List.map_nil, Option.map_some, List.mem_singleton, Option.some.injEq] at h1
  subst h1
  simp only [List.mem_singleton] at h2
  subst h2
  simp [replacedLayer] at h3
  rcases h3 with h | h | h | h | h | h <;> exact roShort (by decide) h

example : ∃ g g2 txt g' g2', Generator.process rne Alloc.ok (.ok 1) roMem 3 10 10 g = some (.ok (true, txt) g') ∧
    Generator.process rne Alloc.ok (.ok 1) ⟨fun _ => replacedLayout (rectanglesOf (wsOf ⟨0, 0⟩ ⟨100, 100⟩) roFlat) roLayout, fun _ => {}⟩ 3 10 10 g2 =
      some (.ok (true, txt) g2') ∧ getMatrix g2' = getMatrix g' := by
  obtain ⟨g, hr⟩ := flReady 7
  obtain ⟨g2, hr2⟩ := flReady 9
  obtain ⟨txt, g', hp⟩ := process_of_draw hr (mem := roMem) (n := 3) (by decide +kernel)
  obtain ⟨-, g2', h1, h2⟩ := C102_rectangles_only rne _ _ 10 10 g 7 [13] Alloc.ok hr 1 roMem 3 roFits roFlat
    (fun p n l hc hty _ h => by
      have hp : p = flRef ∨ p = flNew := by
        rcases roCand hc with rfl | rfl | rfl | rfl | rfl | rfl
        · exact .inl rfl
        · exact .inr rfl
        all_goals cases hty
      have := C36_deterministic _ _ _ _ _ _ _ h (flSplit _ hp)
      rw [Res.ok.inj this]; rfl)
    g2 9 Alloc.ok hr2 1 ⟨fun _ => replacedLayout (rectanglesOf (wsOf ⟨0, 0⟩ ⟨100, 100⟩) roFlat) roLayout, fun _ => {}⟩ 3 (roFits2 _) rfl true txt g' hp
  have _ := (C102_same_rectangles rne _ _ 10 10 g 7 [13] Alloc.ok hr 1 roMem 3 roFits g 7 [13] Alloc.ok hr 1 roMem 3 roFits (fun _ _ => Iff.rfl)
    true txt g' hp).2 _ _ _ hp
  exact ⟨g, g2, txt, g', g2', hp, h1, h2⟩

end Verif.Witness
