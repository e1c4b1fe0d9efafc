import Verif.Witness.Relate
import Verif.Props.Flattened

/-! Concrete cases of the hypotheses of the theorems of C100. -/

namespace Verif.Witness
open Verif Props BitMatrix Zond Spec Ieee Generator Converter

def flBox : Geometry := { exRect 20 80 45 60 with min := ⟨20, 60⟩, max := ⟨45, 80⟩ }
/-- a reference whose box touches the window … -/
def flRef : Geometry := { type := .reference, element := some 0, min := ⟨0, 0⟩, max := ⟨50, 50⟩ }
/-- … and one with the box it is constructed with -/
def flNew : Geometry := { type := .reference, element := some 0 }
def flH : Elements := doubling 2 flBox
def flMem : Memory := ⟨fun _ => oneLayer 13 [some flRef, some flNew], flH⟩
def flFlat (l : List Geometry) (p : Geometry) : List Geometry := if p = flRef then List.replicate 4 flBox else l
def flMem2 (l : List Geometry) : Memory := ⟨fun _ => flattenedLayout (flFlat l) (oneLayer 13 [some flRef, some flNew]), fun _ => {}⟩

theorem flReady (a : Nat) : ∃ g, Ready rne g a ⟨0, 0⟩ ⟨100, 100⟩ [13] Alloc.ok 10 10 :=
  ready_first a ⟨0, 0⟩ ⟨100, 100⟩ [13] (by simp) 10 10 (by decide) (by decide) (by decide) (by decide)
    (by unfold inI32; decide) (by unfold inI32; decide) (by decide) (by decide) Ieee.rne_rounding

/-- from the computed drawing to a returning call -/
theorem process_of_draw {g : Generator} {a : Nat} {mn mx : Coord} {req : List Int} (hr : Ready rne g a mn mx req Alloc.ok 10 10) {mem : Memory} {n : Nat}
    (hb : (match drawOut rne (genRaster rne mn mx 10 10) mem.elements n req (mem.layouts a).libraries 10 10 with
        | some (.ok (true, _) _) => true
        | _ => false) = true) :
    ∃ txt g', Generator.process rne Alloc.ok (.ok 1) mem n 10 10 g = some (.ok (true, txt) g') := by
  have hobs := ready_obs hr 1 mem n
  split at hb
  · rename_i txt m heq
    rw [heq] at hobs
    cases hp : Generator.process rne Alloc.ok (.ok 1) mem n 10 10 g with
    | none => rw [hp] at hobs; cases hobs
    | some o =>
      rw [hp] at hobs
      cases o with
      | ub => cases hobs
      | throw e g' => cases hobs
      | ok r g' =>
        simp only [Option.map_some, Out.mapS, Option.some.injEq, Out.ok.injEq] at hobs
        obtain ⟨rfl, hm⟩ := hobs
        exact ⟨txt, g', rfl⟩
  · cases hb

theorem flSizes : SizesFit flH := by
  intro e q hq
  unfold flH doubling at hq
  split at hq
  · simp only [List.mem_cons, Option.some.injEq, List.not_mem_nil, or_false, or_self] at hq
    subst hq; exact (by norm_num : (0 : Nat) < 2 ^ 64)
  · split at hq
    · simp only [List.mem_singleton, Option.some.injEq] at hq
      subst hq; decide
    · simp at hq

theorem flFits : LayoutFits (flMem.layouts 7) flMem.elements := by
  refine ⟨?_, flSizes⟩
  intro lib l p h1 h2 h3
  simp only [flMem, oneLayer, List.mem_singleton, Option.some.injEq] at h1
  subst h1
  simp only [List.mem_singleton] at h2
  subst h2
  simp at h3
  rcases h3 with rfl | rfl <;> decide

theorem flFits2 (l : List Geometry) (hl : ∀ p ∈ l, p.coords.length < 2 ^ 64) : LayoutFits ((flMem2 l).layouts 9) (flMem2 l).elements := by
  refine ⟨?_, fun e g h => by simp [flMem2] at h⟩
  intro lib y p h1 h2 h3
  simp only [flMem2, flattenedLayout, oneLayer, List.map_cons, List.map_nil, Option.map_some, List.mem_singleton, Option.some.injEq] at h1
  subst h1
  simp only [List.mem_singleton] at h2
  subst h2
  simp [flattenedLayer, flattened, flRef, flNew, flFlat] at h3
  rcases h3 with rfl | h3
  · decide
  · exact hl p h3

theorem flSplit (p : Geometry) (h : p = flRef ∨ p = flNew) : splitSref flMem.elements 3 (some p) ⟨0, 0⟩ = some (.ok (List.replicate 4 flBox)) := by
  refine (C99_doubles 2 flBox rfl (by unfold GeomInRange inI32; decide)).2.2 p ?_ ?_ <;> rcases h with rfl | rfl <;> rfl

theorem flCand {p : Geometry} (h : Candidate (flMem.layouts 7) [13] p) : p = flRef ∨ p = flNew := by
  have := (candidate_oneLayer (n := 13) (gs := [some flRef, some flNew]) (req := [13]) (by simp) p).mp h
  simpa using this

theorem flTouch : Touches (wsOf ⟨0, 0⟩ ⟨100, 100⟩) flRef ∧ ¬ Touches (wsOf ⟨0, 0⟩ ⟨100, 100⟩) flNew := by
  unfold Touches wsOf; decide

/-- the reference with the right box is drawn, the other one is not; with both replaced nothing is lost -/
example : ∃ g g2 g3 txt g' g2' g3' txt3, Generator.process rne Alloc.ok (.ok 1) flMem 3 10 10 g = some (.ok (true, txt) g') ∧
    Generator.process rne Alloc.ok (.ok 1) (flMem2 []) 3 10 10 g2 = some (.ok (true, txt) g2') ∧ getMatrix g2' = getMatrix g' ∧
    Generator.process rne Alloc.ok (.ok 1) (flMem2 (List.replicate 4 flBox)) 3 10 10 g3 = some (.ok (true, txt3) g3') ∧
    (∀ i j, Lit (getMatrix g') i j → Lit (getMatrix g3') i j) ∧
    ∃ h', Generator.process rne Alloc.ok (.ok 1) flMem 3 10 10 g = some (.ok (true, txt) h') ∧ getMatrix h' = getMatrix g2' := by
  obtain ⟨g, hr⟩ := flReady 7
  obtain ⟨g2, hr2⟩ := flReady 9
  obtain ⟨txt, g', hp⟩ := process_of_draw hr (mem := flMem) (n := 3) (by decide +kernel)
  obtain ⟨txt3, g3', hp3⟩ := process_of_draw hr2 (mem := flMem2 (List.replicate 4 flBox)) (n := 3) (by decide +kernel)
  obtain ⟨g2', hp2, hm2⟩ := C100_flattened rne _ _ 10 10 g 7 [13] Alloc.ok hr 1 flMem 3 flFits (flFlat [])
    (fun p n l hc _ ht h => by
      rcases flCand hc with rfl | rfl
      · have := C36_deterministic _ _ _ _ _ _ _ h (flSplit _ (.inl rfl))
        rw [Res.ok.inj this]; simp [flFlat]
      · exact absurd ht flTouch.2)
    (fun p hc _ ht => by
      rcases flCand hc with rfl | rfl
      · exact absurd flTouch.1 ht
      · rfl)
    g2 9 Alloc.ok hr2 1 (flMem2 []) 3 (flFits2 [] (by simp)) rfl true txt g' hp
  have hu := C100_unflattened rne _ _ 10 10 g 7 [13] Alloc.ok hr 1 flMem 3 flFits (flFlat [])
    (fun p hc _ ht => by
      rcases flCand hc with rfl | rfl
      · rw [flSplit _ (.inl rfl)]; rfl
      · exact absurd ht flTouch.2)
    (fun p hc _ ht => by
      rcases flCand hc with rfl | rfl
      · exact absurd flTouch.1 ht
      · rfl)
    g2 9 Alloc.ok hr2 1 (flMem2 []) 3 (flFits2 [] (by simp)) rfl true txt g2' hp2
  have hl := C100_at_least rne _ _ 10 10 g 7 [13] Alloc.ok hr 1 flMem 3 flFits (flFlat (List.replicate 4 flBox))
    (fun p n l hc _ h => by
      have := C36_deterministic _ _ _ _ _ _ _ h (flSplit _ (flCand hc))
      rw [Res.ok.inj this]
      unfold flFlat; split <;> rfl)
    g2 9 Alloc.ok hr2 1 (flMem2 (List.replicate 4 flBox)) 3 (flFits2 _ (fun p hp => by rw [List.eq_of_mem_replicate hp]; decide)) rfl true txt g' hp
    true txt3 g3' hp3
  exact ⟨g, g2, g2, txt, g', g2', g3', txt3, hp, hp2, hm2, hp3, hl, hu⟩

/-- only references with the box they are constructed with -/
example : ∃ g g2 txt g' g2', Generator.process rne Alloc.ok (.ok 1) ⟨fun _ => oneLayer 13 [some flNew, some flBox], flH⟩ 3 10 10 g = some (.ok (true, txt) g') ∧
    Generator.process rne Alloc.ok (.ok 1) ⟨fun _ => oneLayer 13 [some flBox], fun _ => {}⟩ 3 10 10 g2 = some (.ok (true, txt) g2') ∧
    getMatrix g2' = getMatrix g' := by
  obtain ⟨g, hr⟩ := flReady 7
  obtain ⟨g2, hr2⟩ := flReady 9
  obtain ⟨txt, g', hp⟩ := process_of_draw hr (mem := ⟨fun _ => oneLayer 13 [some flNew, some flBox], flH⟩) (n := 3) (by decide +kernel)
  have fit : ∀ (gs : List (Option Geometry)) (H : Elements), SizesFit H → (∀ p, some p ∈ gs → p.coords.length < 2 ^ 64) →
      LayoutFits (oneLayer 13 gs) H := by
    intro gs H hH hg
    refine ⟨?_, hH⟩
    intro lib l p h1 h2 h3
    simp only [oneLayer, List.mem_singleton, Option.some.injEq] at h1
    subst h1
    simp only [List.mem_singleton] at h2
    subst h2
    exact hg p h3
  obtain ⟨g2', h1, h2⟩ := C100_default_box rne _ _ 10 10 g 7 [13] Alloc.ok hr 1 _ 3
    (fit _ _ flSizes (fun p hp => by simp at hp; rcases hp with rfl | rfl <;> decide))
    (fun p hc hty => by
      rw [candidate_oneLayer (by simp)] at hc
      simp at hc
      rcases hc with rfl | rfl
      · exact ⟨rfl, rfl⟩
      · cases hty) (by decide) g2 9 Alloc.ok hr2 1 ⟨fun _ => oneLayer 13 [some flBox], fun _ => {}⟩ 3
    (fit _ _ (fun e g h => by simp at h) (fun p hp => by simp at hp; subst hp; decide)) rfl true txt g' hp
  exact ⟨g, g2, txt, g', g2', hp, h1, h2⟩

/-- more than a million million copies of one rectangle -/
example : ∃ g g' txt, Generator.process rne Alloc.ok (.ok 1) ⟨fun _ => oneLayer 13 [some flRef], doubling 40 flBox⟩ 41 10 10 g =
    some (.ok (true, txt) g') := by
  obtain ⟨g, hr⟩ := flReady 7
  obtain ⟨g2, hr2⟩ := flReady 9
  obtain ⟨txt, g2', hp⟩ := process_of_draw hr2 (mem := ⟨fun _ => oneLayer 13 [some flBox], fun _ => {}⟩) (n := 3) (by decide +kernel)
  obtain ⟨⟨g', h, -⟩, -⟩ := C100_exponential rne _ _ 10 10 40 flBox flRef 13 rfl (by unfold GeomInRange inI32; decide) (by decide) rfl rfl (by decide)
    flTouch.1 g 7 [13] (by simp) Alloc.ok hr 1 ⟨fun _ => oneLayer 13 [some flRef], doubling 40 flBox⟩ rfl rfl g2 9 Alloc.ok hr2 1
    ⟨fun _ => oneLayer 13 [some flBox], fun _ => {}⟩ 3 rfl (fun e g h => by simp at h) true txt g2' hp
  exact ⟨g, g', txt, h⟩

end Verif.Witness
