import Verif.Proofs.Transposed
import Verif.Props.Moved
import Verif.Props.Print

/-! C76: a layout reflected in a diagonal gives the transposed bitmap. -/

namespace Verif.Props
open Verif BitMatrix Zond Generator Spec
open Verif.Ieee (Rounding)

/-- **C76** Drawing one geometry: if it returns, then drawing the reflected geometry with the reflected settings into the
transposed bitmap returns too and gives the transposed bitmap.  For every rounding that is symmetric about zero, as IEEE
rounding is. -/
theorem C76_geometry (rnd : ℚ → ℚ) (hneg : ∀ q, rnd (-q) = -rnd q) (z : Zond) (dx dy ep : ℚ) (hx : z.dx = .fin dx) (hy : z.dy = .fin dy)
    (he : z.eps = .fin ep) (hb : SmallBound z.bound) (g : Geometry) (m m' : BitMatrix) (hm : Built m) (hm' : Built m')
    (ht : Transposed m m') (m1 : BitMatrix) (h : zondGeometry rnd z (some g) m = .ok () m1) :
    ∃ m1', zondGeometry rnd (flipZond z) (some (flipGeom g)) m' = .ok () m1' ∧ Transposed m1 m1' := by
  obtain ⟨P, p1, p2⟩ := zond_flip hneg hx hy he hb g m m1 h m.isize m.jsize
  obtain ⟨a, e, o⟩ := p1 m (built_shape hm)
  rw [e] at h
  cases h
  rw [← ht.rows, ← ht.cols] at p2
  obtain ⟨b, e', o'⟩ := p2 m' (built_shape hm')
  refine ⟨b, e', o'.rows.trans (ht.rows.trans o.cols.symm), o'.cols.trans (ht.cols.trans o.rows.symm), fun i j => ?_⟩
  have l := (ones_lit hm o).2.2.2 i j
  have l' := (ones_lit hm' o').2.2.2 j i
  have b0 := ht.bits i j
  unfold Lit at l l'
  rw [l, l', b0, ht.rows, ht.cols]
  tauto

namespace Transp

theorem transposed_all (rnd : ℚ → ℚ) (hneg : ∀ q, rnd (-q) = -rnd q) (z : Zond) (dx dy ep : ℚ) (hx : z.dx = .fin dx) (hy : z.dy = .fin dy)
    (he : z.eps = .fin ep) (hb : SmallBound z.bound) : ∀ (gs : List Geometry) (m m' : BitMatrix), Built m → Built m' →
    Transposed m m' → ∀ m1, zondAll rnd z (gs.map some) m = .ok () m1 →
    ∃ m1', zondAll rnd (flipZond z) ((gs.map flipGeom).map some) m' = .ok () m1' ∧ Transposed m1 m1' ∧ Built m1' ∧ Built m1 := by
  intro gs
  induction gs with
  | nil =>
    intro m m' hm hm' ht m1 h
    cases h
    exact ⟨m', rfl, ht, hm', hm⟩
  | cons g gs ih =>
    intro m m' hm hm' ht m1 h
    simp only [List.map_cons, zondAll] at h ⊢
    cases h1 : zondGeometry rnd z (some g) m with
    | throw e m2 => rw [M.run_bind_throw h1] at h; cases h
    | ub => rw [M.run_bind_ub h1] at h; cases h
    | ok u m2 =>
      rw [M.run_bind_ok h1] at h
      obtain ⟨m2', e2, t2⟩ := C76_geometry rnd hneg z dx dy ep hx hy he hb g m m' hm hm' ht m2 h1
      rw [M.run_bind_ok e2]
      have f1 := C37_frame rnd z (some g) m hm
      have f2 := C37_frame rnd (flipZond z) (some (flipGeom g)) m' hm'
      rw [h1] at f1
      rw [e2] at f2
      exact ih m2 m2' f1.1 f2.1 t2 m1 h

theorem boxMeets_flip (ws : Workspace) (g : Geometry) : boxMeets (flipWs ws) (flipGeom g) = boxMeets ws g := by
  unfold boxMeets flipWs flipGeom flipPt
  dsimp only
  congr 1
  rw [eq_iff_iff]
  omega

/-- a change of the shapes that keeps their type and whether they touch the window -/
structure Keeps (F : Geometry → Geometry) (ws ws' : Workspace) : Prop where
  type : ∀ g, (F g).type = g.type
  box : ∀ g, boxMeets ws' (F g) = boxMeets ws g

theorem gatherOne_map {F : Geometry → Geometry} {ws ws' : Workspace} (hF : Keeps F ws ws') (H H' : Elements) (d : Nat) (p : Option Geometry)
    (hp : ∀ g, p = some g → g.type ≠ .path ∧ g.type ≠ .reference) :
    ∃ a, gatherOne H d ws p = some (.ok ([], a)) ∧ gatherOne H' d ws' (p.map F) = some (.ok ([], a.map F)) := by
  cases p with
  | none => exact ⟨[], rfl, rfl⟩
  | some g =>
    obtain ⟨h1, h2⟩ := hp g rfl
    simp only [gatherOne, Option.map_some, hF.box, hF.type]
    by_cases hb : boxMeets ws g = true
    · simp only [hb, if_true]
      cases h : g.type with
      | path => exact absurd h h1
      | reference => exact absurd h h2
      | rectangle => exact ⟨[g], rfl, rfl⟩
      | polygon => exact ⟨[g], rfl, rfl⟩
      | text => exact ⟨[], rfl, rfl⟩
      | undefined => exact ⟨[], rfl, rfl⟩
    · simp only [hb, Bool.false_eq_true, if_false]
      exact ⟨[], rfl, rfl⟩

theorem gatherList_map {F : Geometry → Geometry} {ws ws' : Workspace} (hF : Keeps F ws ws') (H H' : Elements) (d : Nat) :
    ∀ (ps : List (Option Geometry)), (∀ g, some g ∈ ps → g.type ≠ .path ∧ g.type ≠ .reference) →
    ∃ a, gatherList H d ws ps = some (.ok ([], a)) ∧ gatherList H' d ws' (ps.map (Option.map F)) = some (.ok ([], a.map F))
  | [], _ => ⟨[], rfl, rfl⟩
  | p :: ps, h => by
    obtain ⟨a, a1, a2⟩ := gatherOne_map hF H H' d p (fun g hg => h g (by rw [hg]; exact List.mem_cons_self))
    obtain ⟨b, b1, b2⟩ := gatherList_map hF H H' d ps (fun g hg => h g (List.mem_cons_of_mem _ hg))
    refine ⟨a ++ b, ?_, ?_⟩
    · simp only [gatherList, a1, b1]; rfl
    · simp only [gatherList, List.map_cons, a2, b2, List.map_append]; rfl

/-- the same change in a layer and in a library -/
def mapLayer (F : Geometry → Geometry) (l : Layer) : Layer := { l with geometries := l.geometries.map (Option.map F) }
def mapLib (F : Geometry → Geometry) (l : Library) : Library := { l with layers := l.layers.map (mapLayer F) }

theorem gatherLayers_map {F : Geometry → Geometry} {ws ws' : Workspace} (hF : Keeps F ws ws') (H H' : Elements) (d : Nat) (req : List Int) :
    ∀ (ls : List Layer), (∀ l g, l ∈ ls → some g ∈ l.geometries → g.type ≠ .path ∧ g.type ≠ .reference) →
    ∃ a, gatherLayers H d ws req ls = some (.ok ([], a)) ∧
      gatherLayers H' d ws' req (ls.map (mapLayer F)) = some (.ok ([], a.map F))
  | [], _ => ⟨[], rfl, rfl⟩
  | l :: ls, h => by
    have hl : (mapLayer F l).layer = l.layer := rfl
    simp only [gatherLayers, List.map_cons, hl]
    by_cases hr : l.layer ∈ req
    · simp only [hr, if_true]
      exact gatherList_map hF H H' d l.geometries (fun g hg => h l g List.mem_cons_self hg)
    · simp only [hr, if_false]
      exact gatherLayers_map hF H H' d req ls (fun l' g hl' hg => h l' g (List.mem_cons_of_mem _ hl') hg)

theorem gatherLibs_map {F : Geometry → Geometry} {ws ws' : Workspace} (hF : Keeps F ws ws') (H H' : Elements) (d : Nat) (req : List Int) :
    ∀ (libs : List (Option Library)),
    (∀ lib l g, some lib ∈ libs → l ∈ lib.layers → some g ∈ l.geometries → g.type ≠ .path ∧ g.type ≠ .reference) →
    (gatherLibs H d ws req libs = some .ub ∧ gatherLibs H' d ws' req (libs.map (Option.map (mapLib F))) = some .ub) ∨
    ∃ a, gatherLibs H d ws req libs = some (.ok ([], a)) ∧
      gatherLibs H' d ws' req (libs.map (Option.map (mapLib F))) = some (.ok ([], a.map F))
  | [], _ => .inr ⟨[], rfl, rfl⟩
  | none :: _, _ => .inl ⟨rfl, rfl⟩
  | some lib :: libs, h => by
    obtain ⟨a, a1, a2⟩ := gatherLayers_map hF H H' d req lib.layers (fun l g hl hg => h lib l g List.mem_cons_self hl hg)
    have ih := gatherLibs_map hF H H' d req libs (fun lib' l g hb hl hg => h lib' l g (List.mem_cons_of_mem _ hb) hl hg)
    have hml : (mapLib F lib).layers = lib.layers.map (mapLayer F) := rfl
    simp only [gatherLibs, List.map_cons, Option.map_some, hml, a1, a2]
    rcases ih with ⟨b1, b2⟩ | ⟨b, b1, b2⟩
    · left
      simp only [b1, b2]
      exact ⟨rfl, rfl⟩
    · right
      refine ⟨a ++ b, ?_, ?_⟩
      · simp only [b1]; rfl
      · simp only [b2, List.map_append]; rfl

theorem wsW_flip (ws : Workspace) : wsW (flipWs ws) = wsH ws := by
  unfold wsW wsH flipWs flipPt; dsimp only; ring

theorem wsH_flip (ws : Workspace) : wsH (flipWs ws) = wsW ws := by
  unfold wsW wsH flipWs flipPt; dsimp only; ring

theorem genRaster_flip (rnd : ℚ → ℚ) (mn mx : Coord) (R C : Nat) :
    genRaster rnd (flipPt mx) (flipPt mn) C R = flipZond (genRaster rnd mn mx R C) := by
  have h : wsOf (flipPt mx) (flipPt mn) = flipWs (wsOf mn mx) := rfl
  unfold genRaster rasteriser flipZond
  rw [h, wsW_flip, wsH_flip]

theorem blank_transposed (R C : Nat) : Transposed (blank R C) (blank C R) :=
  ⟨rfl, rfl, fun _ _ => ⟨fun h => absurd h blank_dark, fun h => absurd h blank_dark⟩⟩

/-- one direction of C76 for the generator -/
theorem process_flip {rnd : ℚ → ℚ} (hneg : ∀ q, rnd (-q) = -rnd q) {g g' : Generator} {a a' : Nat} {mn mx : Coord} {req : List Int}
    {al al' : Alloc} {R C : Nat} (hr : Ready rnd g a mn mx req al R C) (hr' : Ready rnd g' a' (flipPt mx) (flipPt mn) req al' C R)
    (hR : R ≤ 2147483647) (hC : C ≤ 2147483647)
    (k k' : Nat) (mem mem' : Memory) (depth : Nat) (hs : ShapesOnly (mem.layouts a))
    (hmv : (mem'.layouts a').libraries = (mem.layouts a).libraries.map (Option.map flipLib)) {x g1}
    (h : Generator.process rnd al (.ok k) mem depth R C g = some (.ok x g1)) :
    ∃ x' g1', Generator.process rnd al' (.ok k') mem' depth C R g' = some (.ok x' g1') ∧ Transposed (getMatrix g1) (getMatrix g1') := by
  have e1 := ready_obs hr k mem depth
  have e2 := ready_obs hr' k' mem' depth
  rw [h] at e1
  rw [hmv, genRaster_flip] at e2
  have hF : Keeps flipGeom (wsOf mn mx) (flipWs (wsOf mn mx)) := ⟨fun _ => rfl, boxMeets_flip _⟩
  have hml : (fun l => flipLib l) = mapLib flipGeom := rfl
  have w1 : (genRaster rnd mn mx R C).ws = wsOf mn mx := rfl
  have w2 : (flipZond (genRaster rnd mn mx R C)).ws = flipWs (wsOf mn mx) := rfl
  unfold drawOut at e1 e2
  rw [w1] at e1
  rw [w2] at e2
  rcases gatherLibs_map hF mem.elements mem'.elements depth req (mem.layouts a).libraries (fun lib l g a b c => hs lib l g a b c) with
    ⟨b1, b2⟩ | ⟨l, a1, a2⟩
  · rw [b1] at e1
    simp [Out.mapS] at e1
  · rw [a1] at e1
    change Option.map _ _ = (match gatherLibs mem'.elements depth (flipWs (wsOf mn mx)) req
      ((mem.layouts a).libraries.map (Option.map (mapLib flipGeom))) with | none => _ | some .ub => _ | some (.throw e) => _ | some (.ok (gs, ls)) => _) at e2
    rw [a2] at e2
    simp only [List.nil_append] at e1 e2
    cases hz : zondAll rnd (genRaster rnd mn mx R C) (l.map some) (blank R C) with
    | ub => rw [hz] at e1; simp [Out.mapS] at e1
    | throw e b => rw [hz] at e1; simp [Out.mapS] at e1
    | ok u b =>
      have hb : SmallBound (genRaster rnd mn mx R C).bound := by
        unfold SmallBound genRaster rasteriser
        dsimp only
        have := hr.rpos
        have := hr.cpos
        omega
      obtain ⟨b', eb, tb, bb, bb0⟩ := transposed_all rnd hneg (genRaster rnd mn mx R C) _ _ _ rfl rfl rfl hb l (blank R C) (blank C R)
        (built_blank hr.rmax hr.cmax) (built_blank hr.cmax hr.rmax) (blank_transposed R C) b hz
      rw [hz] at e1
      rw [eb] at e2
      dsimp only at e1 e2
      obtain ⟨t, ht, -⟩ := C49_print _ bb
      obtain ⟨t0, ht0, -⟩ := C49_print _ bb0
      rw [ht0] at e1
      rw [ht] at e2
      dsimp only at e1 e2
      cases hp : Generator.process rnd al' (.ok k') mem' depth C R g' with
      | none => rw [hp] at e2; simp at e2
      | some o =>
        rw [hp] at e2
        cases o with
        | ub => simp [Out.mapS] at e2
        | throw e s => simp [Out.mapS] at e2
        | ok x' g1' =>
          simp only [Option.map_some, Out.mapS, Option.some.injEq, Out.ok.injEq] at e1 e2
          refine ⟨x', g1', rfl, ?_⟩
          show Transposed (Generator.bitmap g1) (Generator.bitmap g1')
          rw [e1.2, e2.2]
          exact tb

theorem flipLib_flipLib (l : Library) : flipLib (flipLib l) = l := by
  have h1 : (Option.map flipGeom ∘ Option.map flipGeom) = id := by
    funext p; cases p <;> simp [flipGeom_flipGeom]
  have h2 : flipLayer ∘ flipLayer = id := by
    funext l; simp [flipLayer, h1]
  simp [flipLib, h2]

end Transp
open Transp

/-- **C76** The generator: if all shapes of a layout (rectangles, polygons, texts; no paths or references) and the window are
reflected in a falling diagonal, `Process` with the numbers of rows and columns exchanged returns exactly when it does for the
original, and then the bitmap is the transposed one — in `double` arithmetic, whatever the coordinates. -/
theorem C76_process (rnd : ℚ → ℚ) (hneg : ∀ q, rnd (-q) = -rnd q) (g g' : Generator) (a a' : Nat) (mn mx : Coord) (req : List Int)
    (al al' : Alloc) (R C : Nat) (hr : Ready rnd g a mn mx req al R C) (hr' : Ready rnd g' a' (flipPt mx) (flipPt mn) req al' C R)
    (hR : R ≤ 2147483647) (hC : C ≤ 2147483647) (k k' : Nat) (mem mem' : Memory) (depth : Nat) (hs : ShapesOnly (mem.layouts a))
    (hmv : (mem'.layouts a').libraries = (mem.layouts a).libraries.map (Option.map flipLib)) :
    ((∃ x g1, Generator.process rnd al (.ok k) mem depth R C g = some (.ok x g1)) ↔
      ∃ x' g1', Generator.process rnd al' (.ok k') mem' depth C R g' = some (.ok x' g1')) ∧
    ∀ x g1 x' g1', Generator.process rnd al (.ok k) mem depth R C g = some (.ok x g1) →
      Generator.process rnd al' (.ok k') mem' depth C R g' = some (.ok x' g1') → Transposed (getMatrix g1) (getMatrix g1') := by
  refine ⟨⟨?_, ?_⟩, ?_⟩
  · rintro ⟨x, g1, h⟩
    obtain ⟨x', g1', h', -⟩ := process_flip hneg hr hr' hR hC k k' mem mem' depth hs hmv h
    exact ⟨x', g1', h'⟩
  · rintro ⟨x', g1', h'⟩
    have hs' : ShapesOnly (mem'.layouts a') := by
      intro lib l p h1 h2 h3
      rw [hmv, List.mem_map] at h1
      obtain ⟨o, h1, h4⟩ := h1
      cases o with
      | none => cases h4
      | some lib0 =>
        cases h4
        obtain ⟨l0, h5, rfl⟩ := List.mem_map.1 h2
        obtain ⟨o, h6, h7⟩ := List.mem_map.1 h3
        cases o with
        | none => cases h7
        | some p0 =>
          cases h7
          exact hs lib0 l0 p0 h1 h5 h6
    have hmv' : (mem.layouts a).libraries = (mem'.layouts a').libraries.map (Option.map flipLib) := by
      rw [hmv, List.map_map]
      have : (Option.map flipLib ∘ Option.map flipLib) = id := by
        funext o; cases o <;> simp [flipLib_flipLib]
      rw [this, List.map_id]
    have hr2 : Ready rnd g a (flipPt (flipPt mn)) (flipPt (flipPt mx)) req al R C := by
      rw [flipPt_flipPt, flipPt_flipPt]; exact hr
    obtain ⟨x, g1, h, -⟩ := process_flip hneg hr' hr2 hC hR k' k mem' mem depth hs' hmv' h'
    exact ⟨x, g1, h⟩
  · intro x g1 x' g1' h h'
    obtain ⟨y, h1, h2, h3⟩ := process_flip hneg hr hr' hR hC k k' mem mem' depth hs hmv h
    rw [h'] at h2
    cases h2
    exact h3

/-- **C76** A reflection in the vertical axis does not mirror the bitmap: in a 40×40 window with 4×4 cells the rectangle from
x = 5 to 17 turns on columns 0 to 2, but its mirror image from 23 to 35 only columns 2 and 3. -/
theorem C76_not_mirrored :
    ∃ s s' m m', RectGeom s ⟨5, 40⟩ ⟨17, 0⟩ ∧ RectGeom s' ⟨40 - 17, 40⟩ ⟨40 - 5, 0⟩ ∧
      zondGeometry Ieee.rne (genRaster Ieee.rne ⟨0, 0⟩ ⟨40, 40⟩ 4 4) (some s) (blank 4 4) = .ok () m ∧
      zondGeometry Ieee.rne (genRaster Ieee.rne ⟨0, 0⟩ ⟨40, 40⟩ 4 4) (some s') (blank 4 4) = .ok () m' ∧
      Lit m 0 2 ∧ ¬ Lit m' 0 (3 - 2) := by
  refine ⟨{ type := .rectangle, coords := [⟨5, 40⟩, ⟨17, 40⟩, ⟨17, 0⟩, ⟨5, 0⟩, ⟨5, 40⟩] },
    { type := .rectangle, coords := [⟨23, 40⟩, ⟨35, 40⟩, ⟨35, 0⟩, ⟨23, 0⟩, ⟨23, 40⟩] },
    ⟨[[224], [224], [224], [224]], 4, 4⟩, ⟨[[48], [48], [48], [48]], 4, 4⟩, ⟨rfl, _, _, rfl⟩, ⟨rfl, _, _, rfl⟩, ?_, ?_, ?_, ?_⟩
  · decide +kernel
  · decide +kernel
  · unfold Lit; decide +kernel
  · unfold Lit; decide +kernel

/-- C76 at work: the layout of C41's example reflected -/
example : ∃ g g' x g1 x' g1', Ready Ieee.rne g 7 ⟨0, 0⟩ ⟨100, 100⟩ [13, 23] Alloc.ok 10 10 ∧
    Ready Ieee.rne g' 9 ⟨-100, -100⟩ ⟨0, 0⟩ [13, 23] Alloc.ok 10 10 ∧
    Generator.process Ieee.rne Alloc.ok (.ok 1) exMem 3 10 10 g = some (.ok x g1) ∧
    Generator.process Ieee.rne Alloc.ok (.ok 1)
        ⟨fun _ => { libraries := exLayout.libraries.map (Option.map flipLib) }, fun _ => {}⟩ 3 10 10 g' = some (.ok x' g1') ∧
    Transposed (getMatrix g1) (getMatrix g1') := by
  obtain ⟨g, hr, _⟩ := exReady
  obtain ⟨g', hr'⟩ := ready_first 9 ⟨-100, -100⟩ ⟨0, 0⟩ [13, 23] (by simp) 10 10 (by decide) (by decide) (by decide) (by decide)
    (by unfold inI32; decide) (by unfold inI32; decide) (by decide) (by decide) Ieee.rne_rounding
  have hs : ShapesOnly exLayout := by
    intro lib l p h1 h2 h3
    simp only [exLayout, List.mem_cons, Option.some.injEq, List.not_mem_nil, or_false] at h1
    rcases h1 with rfl | rfl
    · simp only [List.mem_cons, List.not_mem_nil, or_false] at h2
      rcases h2 with rfl | rfl | rfl <;> simp at h3
      · subst h3; decide
      · rcases h3 with rfl | rfl <;> decide
      · subst h3; decide
    · simp only [List.mem_cons, List.not_mem_nil, or_false] at h2
      subst h2
      simp at h3
      rcases h3 with rfl | rfl <;> decide
  have hobs := ready_obs hr 1 exMem 3
  have hdraw : ∃ x m, drawOut Ieee.rne (genRaster Ieee.rne ⟨0, 0⟩ ⟨100, 100⟩ 10 10) exMem.elements 3 [13, 23] exLayout.libraries 10 10 =
      some (.ok x m) := by
    have hb : (match drawOut Ieee.rne (genRaster Ieee.rne ⟨0, 0⟩ ⟨100, 100⟩ 10 10) exMem.elements 3 [13, 23] exLayout.libraries 10 10 with
        | some (.ok _ _) => true
        | _ => false) = true := by decide +kernel
    split at hb
    · rename_i x m heq
      exact ⟨x, m, heq⟩
    · cases hb
  obtain ⟨x, m, e⟩ := hdraw
  rw [show (exMem.layouts 7) = exLayout from rfl, e] at hobs
  cases hp : Generator.process Ieee.rne Alloc.ok (.ok 1) exMem 3 10 10 g with
  | none => rw [hp] at hobs; cases hobs
  | some o =>
    cases o with
    | ub => rw [hp] at hobs; cases hobs
    | throw e g' => rw [hp] at hobs; cases hobs
    | ok r g1 =>
      obtain ⟨x', g1', h1, h2⟩ := process_flip Ieee.rne_neg hr (mn := ⟨0, 0⟩) (mx := ⟨100, 100⟩) hr' (by decide) (by decide) 1 1 exMem
        ⟨fun _ => { libraries := exLayout.libraries.map (Option.map flipLib) }, fun _ => {}⟩ 3 hs rfl hp
      exact ⟨g, g', r, g1, x', g1', hr, hr', hp, h1, h2⟩

end Verif.Props
