import Verif.Model.HalfCopied
import Verif.Props.Generator

/-! C106: assigning a generator when memory runs out. -/

namespace Verif.Props
open Verif BitMatrix Zond Spec Ieee Generator

theorem setUp_any {rnd : ℚ → ℚ} (hr : Rounding rnd) {k R C : Nat} {g : Generator}
    (hR : 0 < R) (hC : 0 < C) (hR2 : R < 4294967296) (hC2 : C < 4294967296) (hb : g.bitmap = blank R C)
    (hw : WsFits g.ws) (ho : WsOrdered g.ws) :
    ∃ dx dy, setUp rnd (.ok k) R C g =
      .ok { g with dx := dx, dy := dy, zond := rasteriser rnd g.ws R C g.zond.eps } := by
  obtain ⟨h1, h2⟩ := hw
  have e3 := calcDelta_eq hr h1 hC hC2
  have e4 := calcDelta_eq hr h2 hR hR2
  have n3 := calcDelta_notNeg hr e3
  have n4 := calcDelta_notNeg hr e4
  have a1 : |g.ws.rightBot.x - g.ws.leftTop.x| = wsW g.ws := by
    unfold wsW; rw [abs_of_nonneg]; have := ho.1; omega
  have a2 : |g.ws.rightBot.y - g.ws.leftTop.y| = wsH g.ws := by
    unfold wsH; rw [abs_of_nonpos]
    · omega
    · have := ho.2; omega
  have s1 : subSz R 1 = R - 1 := subSz_eq R 1 hR (by omega)
  have s2 : subSz C 1 = C - 1 := subSz_eq C 1 hC (by omega)
  rw [a1] at e3 n3
  rw [a2] at e4 n4
  obtain ⟨v2, e2⟩ := (calcDelta_ok_iff rnd g.ws.leftTop.y g.ws.rightBot.y g.frags.length).mpr h2
  cases hfr : g.frags with
  | nil =>
    obtain ⟨v1, e1⟩ := (calcDelta_ok_iff rnd g.ws.leftTop.x g.ws.rightBot.x k).mpr h1
    refine ⟨v1, v2, ?_⟩
    rw [hfr] at e2
    unfold setUp
    rw [hb]
    simp only [hfr, Res.ok_bind, e1, V2.rowCount, e2, blank, e3, e4, Zond.setDeltas, n3, n4,
      Bool.or_false, Bool.false_eq_true, if_false, Out.toRes, Res.pure_eq]
    rw [s1, s2, ← hfr]
    rfl
  | cons r rs =>
    obtain ⟨v1, e1⟩ := (calcDelta_ok_iff rnd g.ws.leftTop.x g.ws.rightBot.x r.length).mpr h1
    refine ⟨v1, v2, ?_⟩
    rw [hfr] at e2
    unfold setUp
    rw [hb]
    simp only [hfr, V2.colCount, Res.ok_bind, e1, V2.rowCount, e2, blank, e3, e4, Zond.setDeltas, n3, n4,
      Bool.or_false, Bool.false_eq_true, if_false, Out.toRes, Res.pure_eq]
    rw [s1, s2, ← hfr]
    rfl

/-- `Process` depends on the layout, the window, the layers and the tolerance only -/
theorem process_any {rnd : ℚ → ℚ} (hr : Rounding rnd) {al : Alloc} {k R C : Nat} {g : Generator} {a : Nat}
    (mem : Memory) (depth : Nat) (hd : g.data = some a)
    (hR : 0 < R) (hC : 0 < C) (hR2 : R < 4294967296) (hC2 : C < 4294967296) (hal : al R (bytesPerRow C) = none)
    (hw : WsFits g.ws) (ho : WsOrdered g.ws) :
    (process rnd al (.ok k) mem depth R C g).map (Out.mapS Generator.bitmap) =
      drawOut rnd (rasteriser rnd g.ws R C g.zond.eps) mem.elements depth g.layers (mem.layouts a).libraries R C := by
  unfold process
  simp only [hR.ne', hC.ne', if_false, resize_ok hR hC hal]
  obtain ⟨dx, dy, es⟩ := setUp_any hr (k := k) (R := R) (C := C)
    (g := { g with bitmap := blank R C, geoms := [], legacy := [], frags := fragsSetMatrix g.frags })
    hR hC hR2 hC2 rfl hw ho
  rw [es]
  simp only [initGeometryItems, hd, drawOut]
  have hws : (rasteriser rnd g.ws R C g.zond.eps).ws = g.ws := rfl
  rw [hws]
  cases hg : gatherLibs mem.elements depth g.ws g.layers (mem.layouts a).libraries with
  | none => rfl
  | some r =>
    cases r with
    | ub => rfl
    | throw e => rfl
    | ok gl =>
      obtain ⟨gs, ls⟩ := gl
      simp only [zondMatrix]
      obtain ⟨h1, h2⟩ := hw
      obtain ⟨v1, e1⟩ := (calcDelta_ok_iff rnd g.ws.leftTop.x g.ws.rightBot.x (blank R C).isize).mpr h1
      obtain ⟨v2, e2⟩ := (calcDelta_ok_iff rnd g.ws.leftTop.y g.ws.rightBot.y (blank R C).jsize).mpr h2
      rw [e1, e2]
      simp only
      cases hz : zondAll rnd (rasteriser rnd g.ws R C g.zond.eps) ((gs ++ ls).map some) (blank R C) with
      | ub => rfl
      | throw e b => rfl
      | ok u b =>
        simp only
        cases hp : BitMatrix.print b with
        | ub => rfl
        | throw e => rfl
        | ok t => rfl

theorem source_parts {rnd : ℚ → ℚ} {g : Generator} {a : Nat} {mn mx : Coord} {req : List Int} {al : Alloc} {R C : Nat}
    (hr : Ready rnd g a mn mx req al R C) : g.data = some a ∧ g.ws = wsOf mn mx ∧ g.layers = req ∧ mn.x ≤ mx.x ∧ mn.y ≤ mx.y ∧
      g.frags = [] := by
  obtain ⟨h, ls, hh, hm, hl⟩ := hr.hist
  obtain ⟨h1, h2, h3, h4, h5, h6, h7⟩ := (history_inv hh).inited _ _ _ _ hm
  rw [hl] at h7; injection h7 with h7
  exact ⟨h1, h4, h7.symm, h5, h6, (history_inv hh).used ⟨_, hm, h2, h3⟩⟩

/-- a generator with the parts of a ready one draws what that one draws -/
theorem same_parts {rnd : ℚ → ℚ} {g g0 : Generator} {a : Nat} {mn mx : Coord} {req : List Int} {al al0 : Alloc} {R C : Nat}
    (h0 : Ready rnd g0 a mn mx req al0 R C) (hd : g.data = some a) (hw : g.ws = wsOf mn mx) (hl : g.layers = req)
    (he : g.zond.eps = .fin (rnd (1 / 10 ^ 13))) (hal : al R (bytesPerRow C) = none) (k k0 : Nat) (mem : Memory) (depth : Nat) :
    (Generator.process rnd al (.ok k) mem depth R C g).map (Out.mapS getMatrix) =
      (Generator.process rnd al0 (.ok k0) mem depth R C g0).map (Out.mapS getMatrix) := by
  have e : (getMatrix : Generator → BitMatrix) = Generator.bitmap := rfl
  obtain ⟨_, _, _, o1, o2, _⟩ := source_parts h0
  rw [e, process_any h0.round mem depth hd h0.rpos h0.cpos h0.rmax h0.cmax hal (by rw [hw]; exact ⟨h0.width, h0.height⟩)
    (by rw [hw]; exact ⟨o1, o2⟩), ready_obs h0 k0 mem depth, hw, hl, he]
  rfl

/-- **C106** An assignment `old = src` that fails after the layers still makes `old` draw what `src` draws, at every size:
whatever `old` was used for before, `Process` on it has the outcome it has on `src`, and `GetMatrix` already gives the
matrix of `src`. -/
theorem C106_draws_as_source (rnd : ℚ → ℚ) (h : List (GenCall × Bool)) (old src g : Generator) (hh : History rnd h old)
    (a : Nat) (mn mx : Coord) (req : List Int) (al al' : Alloc) (R C : Nat) (hr : Ready rnd src a mn mx req al R C)
    (hf : FailedAtFrags old src g ∨ FailedAtGeoms old src g) (hal : al' R (bytesPerRow C) = none) (k k' : Nat) (mem : Memory) (depth : Nat) :
    getMatrix g = getMatrix src ∧
    (Generator.process rnd al' (.ok k') mem depth R C g).map (Out.mapS getMatrix) =
      (Generator.process rnd al (.ok k) mem depth R C src).map (Out.mapS getMatrix) := by
  obtain ⟨s1, s2, s3, -⟩ := source_parts hr
  have he := (history_inv hh).eps
  obtain ⟨p1, p2, p3, p4, p5⟩ : g.data = some a ∧ g.ws = wsOf mn mx ∧ g.layers = req ∧
      g.zond.eps = .fin (rnd (1 / 10 ^ 13)) ∧ getMatrix g = getMatrix src := by
    rcases hf with hf | hf <;> cases hf <;> exact ⟨s1, s2, s3, he, rfl⟩
  exact ⟨p5, same_parts hr p1 p2 p3 p4 hal k' k mem depth⟩

/-- **C106** One that fails at the layers leaves `old` its own matrix, but with the layout and window of `src`; once the
layers are set again `Process` draws what a generator ready for that layout, window and those layers draws. -/
theorem C106_layers_lost (rnd : ℚ → ℚ) (h : List (GenCall × Bool)) (old src g g0 : Generator) (hh : History rnd h old)
    (a : Nat) (mn mx : Coord) (req req' : List Int) (al al0 al' : Alloc) (R C : Nat) (hr : Ready rnd src a mn mx req al R C)
    (h0 : Ready rnd g0 a mn mx req' al0 R C) (hf : FailedAtLayers old src g) (hal : al' R (bytesPerRow C) = none)
    (k k' : Nat) (mem : Memory) (depth : Nat) :
    getMatrix g = getMatrix old ∧
    (Generator.process rnd al' (.ok k') mem depth R C (setLayerArray req' g)).map (Out.mapS getMatrix) =
      (Generator.process rnd al0 (.ok k) mem depth R C g0).map (Out.mapS getMatrix) := by
  obtain ⟨s1, s2, -⟩ := source_parts hr
  have he := (history_inv hh).eps
  obtain ⟨p1, p2, p4, p5⟩ : g.data = some a ∧ g.ws = wsOf mn mx ∧
      g.zond.eps = .fin (rnd (1 / 10 ^ 13)) ∧ getMatrix g = getMatrix old := by
    cases hf; exact ⟨s1, s2, he, rfl⟩
  exact ⟨p5, same_parts (g := setLayerArray req' g) h0 p1 p2 rfl p4 hal k' k mem depth⟩

/-- **C106** Whether the half-assigned `old` may be given a layout anew is decided as for `old` when the failure was at the
layers, and as for `src` when it was at one of the lists of geometries. -/
theorem C106_init (old src g : Generator) (d : Option Nat) (ls : List Int) (mn mx : Coord) :
    (FailedAtLayers old src g →
      ((∃ g', init d ls mn mx g = .ok () g') ↔ ∃ g', init d ls mn mx old = .ok () g')) ∧
    (FailedAtGeoms old src g →
      ((∃ g', init d ls mn mx g = .ok () g') ↔ ∃ g', init d ls mn mx src = .ok () g')) := by
  have acc : ∀ g : Generator, (∃ g', init d ls mn mx g = .ok () g') ↔
      ¬ (d = none ∨ ls = [] ∨ V2.opNot g.frags = true) ∧ ¬ (mn.x > mx.x ∨ mx.y < mn.y) := by
    intro g
    unfold init
    by_cases hc : d = none ∨ ls = [] ∨ V2.opNot g.frags = true
    · rw [if_pos hc]
      exact ⟨fun ⟨_, h⟩ => (by cases h), fun ⟨h, _⟩ => absurd hc h⟩
    · rw [if_neg hc]
      unfold Workspace.setAngleCoords
      by_cases ho : mn.x > mx.x ∨ mx.y < mn.y
      · simp only [if_pos ho]
        exact ⟨fun ⟨_, h⟩ => (by cases h), fun ⟨_, h⟩ => absurd ho h⟩
      · simp only [if_neg ho]
        exact ⟨fun _ => ⟨hc, ho⟩, fun _ => ⟨_, rfl⟩⟩
  have key : ∀ g1 g2 : Generator, g1.frags = g2.frags →
      (∃ g', init d ls mn mx g1 = .ok () g') → ∃ g', init d ls mn mx g2 = .ok () g' := by
    intro g1 g2 hfr h
    rw [acc] at h ⊢
    rwa [← hfr]
  constructor
  · intro h; cases h
    exact ⟨key _ _ rfl, key _ _ rfl⟩
  · intro h; cases h <;> exact ⟨key _ _ rfl, key _ _ rfl⟩

end Verif.Props
