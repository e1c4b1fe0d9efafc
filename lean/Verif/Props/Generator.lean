import Verif.Proofs.Generator2
import Verif.Props.LayoutConverter
import Verif.Props.Print

/-!
C40 and C41: life cycle of `LayoutBitmapGenerator` and the bitmap it produces.

`rnd` is the rounding of `double` operations, `al` the allocator's behaviour, `mem` what the pointers point to,
`depth` a bound on the nesting of references (`none` = deeper).  `stale` is what reading `data[0].size()` of the
emptied fragment matrix yields: undefined behaviour by the standard (`.ub`), some number in practice (`.ok k`).
-/

namespace Verif.Props
open Verif BitMatrix Zond Spec Ieee Generator

/-- one public call that returned (`true`) or threw (`false`) -/
inductive Step (rnd : ℚ → ℚ) : GenCall → Bool → Generator → Generator → Prop
  | initRet {d ls mn mx g g'} : Generator.init d ls mn mx g = .ok () g' → Step rnd (.init d ls mn mx) true g g'
  | initThrow {d ls mn mx g g' e} : Generator.init d ls mn mx g = .throw e g' → Step rnd (.init d ls mn mx) false g g'
  | layers {ls g} : Step rnd (.setLayers ls) true g (Generator.setLayerArray ls g)
  | procRet {al stale mem depth R C g g' r} : Generator.process rnd al stale mem depth R C g = some (.ok r g') →
      Step rnd (.process R C) true g g'
  | procThrow {al stale mem depth R C g g' e} : Generator.process rnd al stale mem depth R C g = some (.throw e g') →
      Step rnd (.process R C) false g g'
  | edit {m g} : Step rnd (.edit m) true g { g with bitmap := m }

/-- a generator constructed and then used by the given calls (oldest first) -/
inductive History (rnd : ℚ → ℚ) : List (GenCall × Bool) → Generator → Prop
  | start : History rnd [] (Generator.new rnd)
  | call {h g c ret g'} : History rnd h g → Step rnd c ret g g' → History rnd (h ++ [(c, ret)]) g'

theorem hist_step {rnd : ℚ → ℚ} {h : List (GenCall × Bool)} {g : Generator} {c : GenCall} {ret : Bool} {g' : Generator}
    (ih : HistInv rnd h g) (hs : Step rnd c ret g g') : HistInv rnd (h ++ [(c, ret)]) g' := by
    -- calls that keep everything the invariant mentions except the layers
    have keep : ∀ (_ : ¬ c.properInit) (_ : ∀ d ls mn mx, (c, ret) ≠ (.init d ls mn mx, true))
        (_ : V2.opNot g'.frags = V2.opNot g.frags) (_ : g.frags = [] → g'.frags = []) (_ : g'.data = g.data)
        (_ : g'.ws = g.ws) (_ : g'.zond.eps = g.zond.eps)
        (_ : lastLayers h = some g.layers → lastLayers (h ++ [(c, ret)]) = some g'.layers),
        HistInv rnd (h ++ [(c, ret)]) g' := by
      intro np ni k1 k2 k3 k4 k5 k6
      refine ⟨k5.trans ih.eps, fun hn => ?_, ?_, fun hn => ?_, fun d ls mn mx hm => ?_⟩
      · rw [k1, k3, k4]; exact ih.fresh fun x hx => hn x (List.mem_append_left _ hx)
      · rintro ⟨x, hx, hp⟩
        rcases List.mem_append.mp hx with hx | hx
        · exact k2 (ih.used ⟨x, hx, hp⟩)
        · simp at hx; subst hx; exact absurd hp np
      · rw [k3]; exact ih.failed fun d ls mn mx hm => hn d ls mn mx (List.mem_append_left _ hm)
      · rcases List.mem_append.mp hm with hm | hm
        · obtain ⟨a1, a2, a3, a4, a5, a6, a7⟩ := ih.inited d ls mn mx hm
          exact ⟨k3.trans a1, a2, a3, k4.trans a4, a5, a6, k6 a7⟩
        · simp only [List.mem_singleton] at hm; exact absurd hm.symm (ni d ls mn mx)
    cases hs with
    | layers =>
      exact keep (by simp [GenCall.properInit]) (by simp) rfl id rfl rfl rfl
        (fun _ => by rw [lastLayers_append]; rfl)
    | edit =>
      exact keep (by simp [GenCall.properInit]) (by simp) rfl id rfl rfl rfl
        (fun e => by rw [lastLayers_append]; exact e)
    | procRet e =>
      obtain ⟨f1, f2, f3, f4, f5⟩ := process_frame (.inl ⟨_, e⟩)
      refine keep (by simp [GenCall.properInit]) (by simp) ?_ ?_ f2 f3 f5
        (fun e => by rw [lastLayers_append, f4]; exact e)
      · rcases f1 with f1 | f1 <;> rw [f1]; exact opNot_fragsSetMatrix _
      · intro e0; rcases f1 with f1 | f1 <;> rw [f1, e0]; rfl
    | procThrow e =>
      obtain ⟨f1, f2, f3, f4, f5⟩ := process_frame (.inr ⟨_, e⟩)
      refine keep (by simp [GenCall.properInit]) (by simp) ?_ ?_ f2 f3 f5
        (fun e => by rw [lastLayers_append, f4]; exact e)
      · rcases f1 with f1 | f1 <;> rw [f1]; exact opNot_fragsSetMatrix _
      · intro e0; rcases f1 with f1 | f1 <;> rw [f1, e0]; rfl
    | @initThrow d ls mn mx _ _ e he =>
      unfold Generator.init at he
      split at he
      · rename_i hbad
        injection he with _ he
        subst he
        by_cases hp : (GenCall.init d ls mn mx).properInit
        · -- a proper Init is only refused here when the fragments are gone
          have hd := hp.1
          have hl := hp.2
          have hf : V2.opNot g.frags = true := by tauto
          have hu : ∃ x ∈ h, x.1.properInit := by
            by_contra hn
            push Not at hn
            have := (ih.fresh hn).1
            rw [this] at hf; cases hf
          refine ⟨ih.eps, fun hn => absurd hp (hn _ (List.mem_append_right _ (List.mem_singleton.mpr rfl))),
            fun _ => ih.used hu, fun hn => ih.failed fun d ls mn mx hm => hn d ls mn mx (List.mem_append_left _ hm),
            fun d' ls' mn' mx' hm => ?_⟩
          rcases List.mem_append.mp hm with hm | hm
          · obtain ⟨a1, a2, a3, a4, a5, a6, a7⟩ := ih.inited d' ls' mn' mx' hm
            exact ⟨a1, a2, a3, a4, a5, a6, by rw [lastLayers_append]; exact a7⟩
          · simp at hm
        · exact keep hp (by simp) rfl id rfl rfl rfl (fun e => by rw [lastLayers_append]; exact e)
      · rename_i hbad
        have hp : (GenCall.init d ls mn mx).properInit := ⟨by tauto, by tauto⟩
        have hf : V2.opNot g.frags = false := by
          cases hx : V2.opNot g.frags with
          | false => rfl
          | true => exact absurd (Or.inr (Or.inr hx)) hbad
        have hno : ∀ x ∈ h, ¬ x.1.properInit := by
          intro x hx hxp
          have := ih.used ⟨x, hx, hxp⟩
          rw [this] at hf; simp [V2.opNot, V2.checkParameters] at hf
        dsimp only at he
        split at he
        · injection he with _ he
          subst he
          refine ⟨ih.eps, fun hn => absurd hp (hn _ (List.mem_append_right _ (List.mem_singleton.mpr rfl))),
            fun _ => rfl, fun _ => rfl, fun d' ls' mn' mx' hm => ?_⟩
          rcases List.mem_append.mp hm with hm | hm
          · obtain ⟨_, a2, a3, _⟩ := ih.inited d' ls' mn' mx' hm
            exact absurd ⟨a2, a3⟩ (hno _ hm)
          · simp at hm
        · cases he
    | @initRet d ls mn mx _ _ he =>
      unfold Generator.init at he
      split at he
      · cases he
      · rename_i hbad
        have hp : (GenCall.init d ls mn mx).properInit := ⟨by tauto, by tauto⟩
        have hf : V2.opNot g.frags = false := by
          cases hx : V2.opNot g.frags with
          | false => rfl
          | true => exact absurd (Or.inr (Or.inr hx)) hbad
        have hno : ∀ x ∈ h, ¬ x.1.properInit := by
          intro x hx hxp
          have := ih.used ⟨x, hx, hxp⟩
          rw [this] at hf; simp [V2.opNot, V2.checkParameters] at hf
        dsimp only at he
        split at he
        · cases he
        · rename_i ws hw
          injection he with _ he
          subst he
          unfold Workspace.setAngleCoords at hw
          split at hw
          · cases hw
          · rename_i hord
            injection hw with _ hw
            subst hw
            refine ⟨ih.eps, fun hn => absurd hp (hn _ (List.mem_append_right _ (List.mem_singleton.mpr rfl))),
              fun _ => rfl, fun hn => absurd (List.mem_append_right _ (List.mem_singleton.mpr rfl)) (hn d ls mn mx),
              fun d' ls' mn' mx' hm => ?_⟩
            rcases List.mem_append.mp hm with hm | hm
            · obtain ⟨_, a2, a3, _⟩ := ih.inited d' ls' mn' mx' hm
              exact absurd ⟨a2, a3⟩ (hno _ hm)
            · simp only [List.mem_singleton, Prod.mk.injEq, GenCall.init.injEq, and_true] at hm
              obtain ⟨rfl, rfl, rfl, rfl⟩ := hm
              refine ⟨rfl, hp.1, hp.2, rfl, ?_, ?_, ?_⟩
              · dsimp only at hord; omega
              · dsimp only at hord; omega
              · rw [lastLayers_append]; rfl

theorem history_inv {rnd : ℚ → ℚ} {h : List (GenCall × Bool)} {g : Generator} (hh : History rnd h g) :
    HistInv rnd h g := by
  induction hh with
  | start => exact ⟨rfl, fun _ => ⟨rfl, rfl, rfl⟩, by simp, fun _ => rfl, by simp⟩
  | call _ hs ih => exact hist_step ih hs

/-! ### C40 -/

/-- **C40** A null layout or an empty layer set is refused with `invalid_argument`, in every state, without
changing anything. -/
theorem C40_bad_arguments (g : Generator) (d : Option Nat) (ls : List Int) (mn mx : Coord) (h : d = none ∨ ls = []) :
    Generator.init d ls mn mx g = .throw .invalidArgument g := by
  unfold Generator.init
  rw [if_pos (by tauto)]

/-- **C40** The first `Init` with a layout and a layer succeeds exactly when the lower left corner is not right of
or above the upper right one — whatever other calls came before. -/
theorem C40_first_init (rnd : ℚ → ℚ) (h : List (GenCall × Bool)) (g : Generator) (hh : History rnd h g)
    (hfirst : ∀ c ∈ h, ¬ c.1.properInit) (a : Nat) (ls : List Int) (hls : ls ≠ []) (mn mx : Coord) :
    (mn.x ≤ mx.x ∧ mn.y ≤ mx.y → ∃ g', Generator.init (some a) ls mn mx g = .ok () g') ∧
    (¬ (mn.x ≤ mx.x ∧ mn.y ≤ mx.y) → ∃ g', Generator.init (some a) ls mn mx g = .throw .invalidArgument g') := by
  have hf := ((history_inv hh).fresh hfirst).1
  have hb : ¬ (some a = none ∨ ls = [] ∨ V2.opNot g.frags = true) := by simp [hls, hf]
  unfold Generator.init
  simp only [if_neg hb, Workspace.setAngleCoords]
  constructor
  · intro ho
    have : ¬ (mn.x > mx.x ∨ mx.y < mn.y) := by omega
    simp only [if_neg this]
    exact ⟨_, rfl⟩
  · intro ho
    have : mn.x > mx.x ∨ mx.y < mn.y := by omega
    simp only [if_pos this]
    exact ⟨_, rfl⟩

/-- **C40** A generator takes one `Init`: after any earlier `Init` with a layout and a layer — even one that was
refused for its corners — every `Init` throws and changes nothing. -/
theorem C40_init_once (rnd : ℚ → ℚ) (h : List (GenCall × Bool)) (g : Generator) (hh : History rnd h g)
    (hsecond : ∃ c ∈ h, c.1.properInit) (d : Option Nat) (ls : List Int) (mn mx : Coord) :
    Generator.init d ls mn mx g = .throw .invalidArgument g := by
  have hf := (history_inv hh).used hsecond
  unfold Generator.init
  rw [if_pos]
  simp [hf, V2.opNot, V2.checkParameters]

/-- **C40** A zero size is refused by `Process` in every state without changing anything. -/
theorem C40_process_zero (rnd : ℚ → ℚ) (al : Alloc) (stale : Res Nat) (mem : Memory) (depth R C : Nat) (g : Generator)
    (h : R = 0 ∨ C = 0) : Generator.process rnd al stale mem depth R C g = some (.throw .invalidArgument g) := by
  unfold Generator.process
  by_cases h0 : R = 0
  · simp [h0]
  · simp [show C = 0 by tauto]

/-- **C40** `Process` with a size before any `Init` has returned dereferences a null pointer. -/
theorem C40_process_before_init (rnd : ℚ → ℚ) (hr : Rounding rnd) (h : List (GenCall × Bool)) (g : Generator)
    (hh : History rnd h g) (hno : ∀ d ls mn mx, (GenCall.init d ls mn mx, true) ∉ h)
    (al : Alloc) (stale : Res Nat) (hst : ∀ e, stale ≠ .throw e) (mem : Memory) (depth R C : Nat) (hR : 0 < R) (hC : 0 < C)
    (hal : al R (bytesPerRow C) = none) :
    Generator.process rnd al stale mem depth R C g = some .ub := by
  have hd := (history_inv hh).failed hno
  cases hs : setUp rnd stale R C { g with bitmap := blank R C, geoms := [], legacy := [], frags := fragsSetMatrix g.frags } with
  | ub => exact process_ub_of_setUp mem depth hR hC hal hs
  | ok g2 =>
    obtain ⟨_, f2, _⟩ := setUp_frame hs
    unfold Generator.process
    simp only [hR.ne', hC.ne', if_false, resize_ok hR hC hal, hs, initGeometryItems]
    rw [f2]; simp only [hd]
  | throw e =>
    exfalso
    have bad : ∀ {α β : Type} {x : Res α} {f : α → Res β}, (∀ e, x ≠ .throw e) → (x >>= f) = .throw e →
        ∃ a, x = .ok a ∧ f a = .throw e := by
      intro α β x f hx h
      cases x with
      | ok a => exact ⟨a, rfl, h⟩
      | throw e' => exact absurd rfl (hx e')
      | ub => cases h
    unfold setUp at hs
    obtain ⟨c, _, hs⟩ := bad (by
      intro e; dsimp only; split
      · exact hst e
      · unfold V2.colCount; split <;> simp) hs
    obtain ⟨dx, _, hs⟩ := bad (calcDelta_noThrow _ _ _ _) hs
    obtain ⟨dy, _, hs⟩ := bad (calcDelta_noThrow _ _ _ _) hs
    obtain ⟨cdx, ex, hs⟩ := bad (calcDelta_noThrow _ _ _ _) hs
    obtain ⟨cdy, ey, hs⟩ := bad (calcDelta_noThrow _ _ _ _) hs
    have nx := calcDelta_notNeg hr ex
    have ny := calcDelta_notNeg hr ey
    simp [Zond.setDeltas, nx, ny] at hs

/-- **C40** By the letter of the standard `Process` never works: after an `Init` that returned, every call with
a size reads past the end of the emptied fragment matrix. -/
theorem C40_process_strict_ub (rnd : ℚ → ℚ) (h : List (GenCall × Bool)) (g : Generator)
    (hh : History rnd h g) (hinit : ∃ d ls mn mx, (GenCall.init d ls mn mx, true) ∈ h)
    (al : Alloc) (mem : Memory) (depth R C : Nat) (hR : 0 < R) (hC : 0 < C) (hal : al R (bytesPerRow C) = none) :
    Generator.process rnd al .ub mem depth R C g = some .ub := by
  obtain ⟨d, ls, mn, mx, hm⟩ := hinit
  obtain ⟨_, hd, hl, _⟩ := (history_inv hh).inited d ls mn mx hm
  have hf := (history_inv hh).used ⟨_, hm, hd, hl⟩
  apply process_ub_of_setUp mem depth hR hC hal
  unfold setUp
  simp [hf, fragsSetMatrix]

/-! ### C41 -/

theorem built_blank {R C : Nat} (hR : R < 4294967296) (hC : C < 4294967296) : Built (blank R C) :=
  Built.of_wf (blank_shape R C).1 (show R < 2 ^ 64 by omega) (show C < 2 ^ 64 by omega)

theorem blank_dark {R C i j : Nat} : ¬ Lit (blank R C) i j := by
  rw [lit_iff (blank_shape R C).1]
  rintro ⟨_, _, h⟩
  unfold blank at h
  rw [zeroMat_cell] at h; cases h

/-- the workspace given to `Init` -/
def wsOf (mn mx : Coord) : Workspace := ⟨⟨mn.x, mx.y⟩, ⟨mx.x, mn.y⟩⟩

/-- the rasteriser a generator uses for an `R`×`C` bitmap -/
def genRaster (rnd : ℚ → ℚ) (mn mx : Coord) (R C : Nat) : Zond :=
  rasteriser rnd (wsOf mn mx) R C (.fin (rnd (1 / 10 ^ 13)))

/-- geometry `s`, drawn alone on an empty `R`×`C` bitmap, turns on `(i,j)` -/
def LightsAlone (rnd : ℚ → ℚ) (mn mx : Coord) (R C : Nat) (s : Geometry) (i j : Nat) : Prop :=
  ∃ m, zondGeometry rnd (genRaster rnd mn mx R C) (some s) (blank R C) = .ok () m ∧ Lit m i j

/-- The situation of C41: an `Init` of layout `a` with corners `mn`, `mx` has returned, `req` are the layers
requested last, and `Process(R, C)` is called. -/
structure Ready (rnd : ℚ → ℚ) (g : Generator) (a : Nat) (mn mx : Coord) (req : List Int) (al : Alloc) (R C : Nat) :
    Prop where
  round : Rounding rnd
  hist : ∃ h ls, History rnd h g ∧ (GenCall.init (some a) ls mn mx, true) ∈ h ∧ lastLayers h = some req
  rpos : 0 < R
  cpos : 0 < C
  rmax : R < 4294967296
  cmax : C < 4294967296
  alloc : al R (bytesPerRow C) = none
  width : inI32 (mx.x - mn.x)
  height : inI32 (mn.y - mx.y)

theorem ready_obs {rnd : ℚ → ℚ} {g : Generator} {a : Nat} {mn mx : Coord} {req : List Int} {al : Alloc} {R C : Nat}
    (hr : Ready rnd g a mn mx req al R C) (k : Nat) (mem : Memory) (depth : Nat) :
    (Generator.process rnd al (.ok k) mem depth R C g).map (Out.mapS Generator.bitmap) =
      drawOut rnd (genRaster rnd mn mx R C) mem.elements depth req (mem.layouts a).libraries R C := by
  obtain ⟨h, ls, hh, hm, hl⟩ := hr.hist
  have inv := history_inv hh
  obtain ⟨h1, h2, h3, h4, h5, h6, h7⟩ := inv.inited _ _ _ _ hm
  have hf := inv.used ⟨_, hm, h2, h3⟩
  rw [hl] at h7; injection h7 with h7
  rw [process_obs hr.round mem depth h1 hf hr.rpos hr.cpos hr.rmax hr.cmax hr.alloc
    (by rw [h4]; exact ⟨hr.width, hr.height⟩) (by rw [h4]; exact ⟨h5, h6⟩), h4, inv.eps, ← h7]
  rfl

/-- **C41** Whenever `Process` returns, it returns `true`, the matrix has the requested size, and a cell is on
exactly when one of the selected geometries, drawn alone, turns it on: per library the geometries of the
*first* requested layer that touch the workspace, paths as origin rectangles, references flattened. -/
theorem C41_bitmap (rnd : ℚ → ℚ) (g : Generator) (a : Nat) (mn mx : Coord) (req : List Int) (al : Alloc) (R C : Nat)
    (hr : Ready rnd g a mn mx req al R C) (k : Nat) (mem : Memory) (depth : Nat)
    (hfit : LayoutFits (mem.layouts a) mem.elements) (b : Bool) (txt : List UInt8) (g' : Generator)
    (hp : Generator.process rnd al (.ok k) mem depth R C g = some (.ok (b, txt) g')) :
    b = true ∧ Built (getMatrix g') ∧ (getMatrix g').isize = R ∧ (getMatrix g').jsize = C ∧
      print (getMatrix g') = .ok txt ∧
      ∀ i j, Lit (getMatrix g') i j ↔
        ∃ s, Selected (mem.layouts a) mem.elements (wsOf mn mx) req s ∧ LightsAlone rnd mn mx R C s i j := by
  have hobs := ready_obs hr k mem depth
  rw [hp] at hobs
  simp only [Option.map_some, Out.mapS, drawOut] at hobs
  have hws : (genRaster rnd mn mx R C).ws = wsOf mn mx := rfl
  rw [hws] at hobs
  cases hg : gatherLibs mem.elements depth (wsOf mn mx) req (mem.layouts a).libraries with
  | none => rw [hg] at hobs; cases hobs
  | some r =>
    rw [hg] at hobs
    cases r with
    | ub => cases hobs
    | throw e => cases hobs
    | ok gl =>
      obtain ⟨gs, ls⟩ := gl
      simp only at hobs
      have hmem := gatherLibs_mem hfit.2 hfit.1 hg
      cases hz : zondAll rnd (genRaster rnd mn mx R C) ((gs ++ ls).map some) (blank R C) with
      | ub => rw [hz] at hobs; cases hobs
      | throw e m => rw [hz] at hobs; cases hobs
      | ok u m =>
        rw [hz] at hobs
        simp only at hobs
        cases hpr : print m with
        | ub => rw [hpr] at hobs; cases hobs
        | throw e => rw [hpr] at hobs; cases hobs
        | ok t =>
          rw [hpr] at hobs
          simp only [Option.some.injEq, Out.ok.injEq, Prod.mk.injEq] at hobs
          obtain ⟨⟨rfl, rfl⟩, hbm⟩ := hobs
          unfold getMatrix
          rw [hbm]
          obtain ⟨_, o⟩ := zondAll_ok (blank_shape R C) hz
          obtain ⟨l1, l2, l3, l4⟩ := ones_lit (built_blank hr.rmax hr.cmax) o
          refine ⟨rfl, l1, l2, l3, hpr, fun i j => ?_⟩
          rw [l4]
          constructor
          · rintro (h | ⟨hi, hj, g0, hg0, P, hP, hc⟩)
            · exact absurd h blank_dark
            · obtain ⟨s, hs, rfl⟩ := List.mem_map.mp hg0
              refine ⟨s, (hmem s).mp (by simpa [List.mem_append] using hs), ?_⟩
              obtain ⟨m1, e1, o1⟩ := hP _ (blank_shape R C)
              exact ⟨m1, e1, ((ones_lit (built_blank hr.rmax hr.cmax) o1).2.2.2 i j).mpr (.inr ⟨hi, hj, hc⟩)⟩
          · rintro ⟨s, hs, m1, e1, hl⟩
            right
            obtain ⟨P, hP, o1⟩ := geometry_ok (blank_shape R C) e1
            rcases ((ones_lit (built_blank hr.rmax hr.cmax) o1).2.2.2 i j).mp hl with h | ⟨hi, hj, hc⟩
            · exact absurd h blank_dark
            · refine ⟨hi, hj, some s, List.mem_map.mpr ⟨s, ?_, rfl⟩, P, hP, hc⟩
              simpa [List.mem_append] using (hmem s).mpr hs

/-- **C41** `Process` returns when no library is null, the touching paths and references of the first requested
layers can be converted (C35, C36) and every selected geometry can be drawn alone; it throws only `invalid_argument`, and only if some selected geometry drawn alone does. -/
theorem C41_returns_or_throws (rnd : ℚ → ℚ) (g : Generator) (a : Nat) (mn mx : Coord) (req : List Int) (al : Alloc)
    (R C : Nat) (hr : Ready rnd g a mn mx req al R C) (k : Nat) (mem : Memory) (depth : Nat)
    (hfit : LayoutFits (mem.layouts a) mem.elements) :
    (∀ e g', Generator.process rnd al (.ok k) mem depth R C g = some (.throw e g') → e = .invalidArgument ∧
      ∃ s, Selected (mem.layouts a) mem.elements (wsOf mn mx) req s ∧
        zondGeometry rnd (genRaster rnd mn mx R C) (some s) (blank R C) = .throw .invalidArgument (blank R C)) ∧
    (none ∉ (mem.layouts a).libraries →
      (∀ p, Candidate (mem.layouts a) req p → Touches (wsOf mn mx) p → p.type = .path →
        ∃ rs, Converter.pathToRectList (some p) = .ok rs) →
      (∀ p, Candidate (mem.layouts a) req p → Touches (wsOf mn mx) p → p.type = .reference →
        ∃ rs, Converter.splitSref mem.elements depth (some p) ⟨0, 0⟩ = some (.ok rs)) →
      (∀ s, Selected (mem.layouts a) mem.elements (wsOf mn mx) req s →
        ∃ m, zondGeometry rnd (genRaster rnd mn mx R C) (some s) (blank R C) = .ok () m) →
      ∃ r g', Generator.process rnd al (.ok k) mem depth R C g = some (.ok r g')) := by
  have hobs := ready_obs hr k mem depth
  unfold drawOut at hobs
  have hws : (genRaster rnd mn mx R C).ws = wsOf mn mx := rfl
  rw [hws] at hobs
  constructor
  · intro e g' hp
    rw [hp] at hobs
    simp only [Option.map_some, Out.mapS] at hobs
    cases hg : gatherLibs mem.elements depth (wsOf mn mx) req (mem.layouts a).libraries with
    | none => rw [hg] at hobs; cases hobs
    | some r =>
      cases r with
      | ub => rw [hg] at hobs; cases hobs
      | throw e' => exact absurd hg (gatherLibs_noThrow hfit.2 _ hfit.1 e')
      | ok gl =>
        obtain ⟨gs, ls⟩ := gl
        rw [hg] at hobs
        simp only at hobs
        have hmem := gatherLibs_mem hfit.2 hfit.1 hg
        cases hz : zondAll rnd (genRaster rnd mn mx R C) ((gs ++ ls).map some) (blank R C) with
        | ub => rw [hz] at hobs; cases hobs
        | throw e' m =>
          rw [hz] at hobs
          simp only [Option.some.injEq, Out.throw.injEq] at hobs
          obtain ⟨h1, h2, g0, h3, h4⟩ := zondAll_throw (blank_shape R C) hz
          refine ⟨hobs.1.trans h1, ?_⟩
          obtain ⟨s, hs, rfl⟩ := List.mem_map.mp h3
          exact ⟨s, (hmem s).mp (by simpa [List.mem_append] using hs), h4 _ (blank_shape R C)⟩
        | ok u m =>
          rw [hz] at hobs
          obtain ⟨_, o⟩ := zondAll_ok (blank_shape R C) hz
          obtain ⟨t, ht, _⟩ := C49_print m (ones_lit (built_blank hr.rmax hr.cmax) o).1
          simp only [ht] at hobs; cases hobs
  · intro hlib hpath href hall
    obtain ⟨⟨gs, ls⟩, hg⟩ := gatherLibs_total mem.elements depth (wsOf mn mx) req _ hlib
      (fun p ⟨lib, l, h1, h2, h3⟩ => hpath p ⟨lib, l, h1, h2, h3⟩) (fun p ⟨lib, l, h1, h2, h3⟩ => href p ⟨lib, l, h1, h2, h3⟩)
    rw [hg] at hobs
    simp only at hobs
    have hmem := gatherLibs_mem hfit.2 hfit.1 hg
    obtain ⟨m, hz⟩ := zondAll_total (rnd := rnd) (z := genRaster rnd mn mx R C) (gs := (gs ++ ls).map some)
      (blank_shape R C) (by
        intro g0 hg0
        obtain ⟨s, hs, rfl⟩ := List.mem_map.mp hg0
        obtain ⟨m, e⟩ := hall s ((hmem s).mp (by simpa [List.mem_append] using hs))
        obtain ⟨P, hP, _⟩ := geometry_ok (blank_shape R C) e
        exact ⟨P, hP⟩)
    rw [hz] at hobs
    obtain ⟨_, o⟩ := zondAll_ok (blank_shape R C) hz
    obtain ⟨t, ht, _⟩ := C49_print m (ones_lit (built_blank hr.rmax hr.cmax) o).1
    simp only [ht] at hobs
    cases hp : Generator.process rnd al (.ok k) mem depth R C g with
    | none => rw [hp] at hobs; cases hobs
    | some o =>
      cases o with
      | ok r g' => exact ⟨r, g', rfl⟩
      | throw e g' => rw [hp] at hobs; cases hobs
      | ub => rw [hp] at hobs; cases hobs

/-- **C41** Only the last `Init` and the last requested layers count: two generators with any two histories that
agree on those give the same result, text and matrix (earlier `Process` calls, edits of the matrix and other
allocator behaviour leave no trace). -/
theorem C41_history_independent (rnd : ℚ → ℚ) (g1 g2 : Generator) (a : Nat) (mn mx : Coord) (req : List Int)
    (al1 al2 : Alloc) (R C : Nat) (h1 : Ready rnd g1 a mn mx req al1 R C) (h2 : Ready rnd g2 a mn mx req al2 R C)
    (k1 k2 : Nat) (mem : Memory) (depth : Nat) :
    (Generator.process rnd al1 (.ok k1) mem depth R C g1).map (Out.mapS getMatrix) =
      (Generator.process rnd al2 (.ok k2) mem depth R C g2).map (Out.mapS getMatrix) := by
  have e1 := ready_obs h1 k1 mem depth
  have e2 := ready_obs h2 k2 mem depth
  exact e1.trans e2.symm

/-- **C41** A workspace wider or higher than 2^31-1 is undefined behaviour. -/
theorem C41_huge_workspace_ub (rnd : ℚ → ℚ) (h : List (GenCall × Bool)) (g : Generator) (hh : History rnd h g)
    (d : Option Nat) (ls : List Int) (mn mx : Coord) (hm : (GenCall.init d ls mn mx, true) ∈ h)
    (hw : ¬ (inI32 (mx.x - mn.x) ∧ inI32 (mn.y - mx.y))) (al : Alloc) (k : Nat) (mem : Memory) (depth R C : Nat)
    (hR : 0 < R) (hC : 0 < C) (hal : al R (bytesPerRow C) = none) :
    Generator.process rnd al (.ok k) mem depth R C g = some .ub := by
  have inv := history_inv hh
  obtain ⟨h1, h2, h3, h4, _⟩ := inv.inited _ _ _ _ hm
  have hf := inv.used ⟨_, hm, h2, h3⟩
  apply process_ub_of_setUp mem depth hR hC hal
  apply setUp_ub (by simp [hf, fragsSetMatrix])
  unfold WsFits
  rw [h4]
  exact hw

theorem gatherLayers_later (H : Elements) (depth : Nat) (ws : Workspace) (req : List Int) (l : Layer) (hl : l.layer ∈ req)
    (after after' : List Layer) : ∀ before : List Layer,
    gatherLayers H depth ws req (before ++ l :: after) = gatherLayers H depth ws req (before ++ l :: after')
  | [] => by simp [gatherLayers, hl]
  | x :: before => by
    simp only [List.cons_append, gatherLayers]
    split
    · rfl
    · exact gatherLayers_later H depth ws req l hl after after' before

theorem gatherLibs_later (H : Elements) (depth : Nat) (ws : Workspace) (req : List Int) (lib lib' : Library)
    (post : List (Option Library))
    (h : gatherLayers H depth ws req lib.layers = gatherLayers H depth ws req lib'.layers) : ∀ pre : List (Option Library),
    gatherLibs H depth ws req (pre ++ some lib :: post) = gatherLibs H depth ws req (pre ++ some lib' :: post)
  | [] => by simp [gatherLibs, h]
  | none :: pre => by simp [gatherLibs]
  | some x :: pre => by
    simp only [List.cons_append, gatherLibs]
    rw [gatherLibs_later H depth ws req lib lib' post h pre]

/-- **C41** Further requested layers of a library are dropped: the result, the text and the matrix are the same
whatever layers follow the first requested one of a library. -/
theorem C41_later_layers_ignored (rnd : ℚ → ℚ) (g : Generator) (a : Nat) (mn mx : Coord) (req : List Int) (al : Alloc)
    (R C : Nat) (hr : Ready rnd g a mn mx req al R C) (k : Nat) (mem mem' : Memory) (depth : Nat)
    (pre post : List (Option Library)) (lib : Library) (before after after' : List Layer) (l : Layer) (hl : l.layer ∈ req)
    (h1 : (mem.layouts a).libraries = pre ++ some { lib with layers := before ++ l :: after } :: post)
    (h2 : (mem'.layouts a).libraries = pre ++ some { lib with layers := before ++ l :: after' } :: post)
    (he : mem.elements = mem'.elements) :
    (Generator.process rnd al (.ok k) mem depth R C g).map (Out.mapS getMatrix) =
      (Generator.process rnd al (.ok k) mem' depth R C g).map (Out.mapS getMatrix) := by
  have e1 := ready_obs hr k mem depth
  have e2 := ready_obs hr k mem' depth
  refine e1.trans (Eq.trans ?_ e2.symm)
  unfold drawOut
  rw [h1, h2, he, gatherLibs_later _ _ _ _ _ { lib with layers := before ++ l :: after' } _
    (gatherLayers_later _ _ _ _ l hl after after' before)]

/-- **C41** End to end with C39: after a normal return every cell whose centre lies in a selected rectangle (not
sticking out at the left or top, cells not tiny) is on. -/
theorem C41_centres_covered (rnd : ℚ → ℚ) (g : Generator) (a : Nat) (mn mx : Coord) (req : List Int) (al : Alloc)
    (R C : Nat) (hr : Ready rnd g a mn mx req al R C) (hRm : R ≤ 2147483647) (hCm : C ≤ 2147483647)
    (hw : mn.x < mx.x) (hh : mn.y < mx.y) (hC2 : (C : ℤ) * C ≤ 100 * (mx.x - mn.x)) (hR2 : (R : ℤ) * R ≤ 100 * (mx.y - mn.y))
    (k : Nat) (mem : Memory) (depth : Nat)
    (hfit : LayoutFits (mem.layouts a) mem.elements) (b : Bool) (txt : List UInt8) (g' : Generator)
    (hp : Generator.process rnd al (.ok k) mem depth R C g = some (.ok (b, txt) g'))
    (s : Geometry) (hs : Selected (mem.layouts a) mem.elements (wsOf mn mx) req s) (lt rb : Coord) (hg : RectGeom s lt rb)
    (hf : DiffsFit (wsOf mn mx) lt rb) (hx0 : mn.x ≤ lt.x) (hx1 : lt.x ≤ rb.x) (hy0 : lt.y ≤ mx.y) (hy1 : rb.y ≤ lt.y)
    (hx2 : colOf (wsOf mn mx) C rb.x ≤ 1073741824) (hy2 : rowOf (wsOf mn mx) R rb.y ≤ 1073741824)
    (i j : Nat) (hi : i < R) (hj : j < C)
    (hc : InRect lt rb (centreX (wsOf mn mx) C j) (centreY (wsOf mn mx) R i)) :
    Lit (getMatrix g') i j := by
  obtain ⟨_, _, _, _, _, hl⟩ := C41_bitmap rnd g a mn mx req al R C hr k mem depth hfit b txt g' hp
  rw [hl]
  refine ⟨s, hs, ?_⟩
  have su : SetUp rnd (genRaster rnd mn mx R C) (wsOf mn mx) R C (rnd (1 / 10 ^ 13)) :=
    ⟨rfl, rfl, rfl, rfl, rfl, hr.rpos, hr.cpos, hRm, hCm, by simp [wsW, wsOf]; omega, by simp [wsH, wsOf]; omega⟩
  obtain ⟨m, e, h⟩ := C39_centres_covered rnd hr.round _ (wsOf mn mx) R C su hC2 hR2 s lt rb hg hf hx0 hx1 hy0 hy1 hx2 hy2
    (blank R C) (built_blank hr.rmax hr.cmax) rfl rfl
  exact ⟨m, e, h i j hi hj hc⟩

/-! Non-vacuity: a layout with two libraries; layer 23 comes after 13 in the first, so its rectangle is dropped. -/

def exLayout : LayoutData :=
  { libraries := [some { layers := [{ layer := 1, geometries := [some { exRect 0 100 100 0 with min := ⟨0, 0⟩, max := ⟨100, 100⟩ }] },
      { layer := 13, geometries := [some { exRect 20 80 45 60 with min := ⟨20, 60⟩, max := ⟨45, 80⟩ }, none, some { type := .text, min := ⟨0, 0⟩, max := ⟨5, 5⟩ }] },
      { layer := 23, geometries := [some { exRect 50 50 60 40 with min := ⟨50, 40⟩, max := ⟨60, 50⟩ }] }] },
    some { layers := [{ layer := 23, geometries := [some { exRect 0 10 10 0 with min := ⟨0, 0⟩, max := ⟨10, 10⟩ },
      some { exRect 300 10 310 0 with min := ⟨300, 0⟩, max := ⟨310, 10⟩ }] }] }] }

def exMem : Memory := ⟨fun _ => exLayout, fun _ => {}⟩

/-- a generator after two refused calls, an accepted `Init`, a refused second one and a change of layers -/
theorem exReady : ∃ g, Ready rne g 7 ⟨0, 0⟩ ⟨100, 100⟩ [13, 23] Alloc.ok 10 10 ∧ g.bitmap = ⟨[[255]], 1, 8⟩ ∧
    g.data = some 7 ∧ g.ws = exWs ∧ g.layers = [13, 23] := by
  have h0 : History rne [] (Generator.new rne) := .start
  have h1 := h0.call (.procThrow (C40_process_zero rne Alloc.ok .ub exMem 3 0 5 _ (.inl rfl)))
  have h2 := h1.call (.initThrow (C40_bad_arguments _ none [13] ⟨0, 0⟩ ⟨100, 100⟩ (.inl rfl)))
  have hf : ∀ c ∈ ([] ++ [(GenCall.process 0 5, false)] ++ [(GenCall.init none [13] ⟨0, 0⟩ ⟨100, 100⟩, false)]), ¬ c.1.properInit := by
    simp [GenCall.properInit]
  have hi : Generator.init (some 7) [13] ⟨0, 0⟩ ⟨100, 100⟩ (Generator.new rne) = .ok () _ := rfl
  have h3 := h2.call (.initRet hi)
  have h4 := h3.call (.initThrow (C40_init_once rne _ _ h3 ⟨(GenCall.init (some 7) [13] ⟨0, 0⟩ ⟨100, 100⟩, true), by simp, by simp [GenCall.properInit]⟩ (some 8) [1] ⟨0, 0⟩ ⟨1, 1⟩))
  have h5 := h4.call (.edit (m := ⟨[[255]], 1, 8⟩))
  have h6 := h5.call (.layers (ls := [13, 23]))
  refine ⟨_, ⟨rne_rounding, ⟨_, [13], h6, by simp, rfl⟩, by norm_num, by norm_num, by norm_num, by norm_num, rfl,
    by unfold inI32; decide, by unfold inI32; decide⟩, rfl, rfl, rfl, rfl⟩

/-- `Process` returns on it and draws the layer-13 rectangle of the first library and the layer-23 rectangle of
the second, but not the layer-23 rectangle of the first -/
example : ∃ g, Ready rne g 7 ⟨0, 0⟩ ⟨100, 100⟩ [13, 23] Alloc.ok 10 10 ∧ LayoutFits exLayout exMem.elements ∧
    ∃ txt g', Generator.process rne Alloc.ok (.ok 1) exMem 3 10 10 g = some (.ok (true, txt) g') ∧
      Lit (getMatrix g') 2 2 ∧ Lit (getMatrix g') 9 0 ∧ ¬ Lit (getMatrix g') 5 5 := by
  obtain ⟨g, hr, hb, hd, hw, hl⟩ := exReady
  have hfit : LayoutFits exLayout exMem.elements := by
    constructor
    · intro lib l p h1 h2 h3
      simp only [exLayout, List.mem_cons, Option.some.injEq, List.not_mem_nil, or_false] at h1
      rcases h1 with rfl | rfl
      · simp only [List.mem_cons, List.not_mem_nil, or_false] at h2
        rcases h2 with rfl | rfl | rfl <;> simp at h3
        · subst h3; decide
        · rcases h3 with rfl | rfl <;> decide
        · subst h3; decide
      · simp only [List.mem_cons, List.not_mem_nil, or_false] at h2
        subst h2
        simp at h3
        rcases h3 with rfl | rfl <;> decide
    · intro e p h
      simp [exMem] at h
  refine ⟨g, hr, hfit, ?_⟩
  have hobs := ready_obs hr 1 exMem 3
  have hdraw : ∃ txt m, drawOut rne (genRaster rne ⟨0, 0⟩ ⟨100, 100⟩ 10 10) exMem.elements 3 [13, 23] exLayout.libraries 10 10 =
      some (.ok (true, txt) m) ∧ m.get 2 2 = .ok true ∧ m.get 9 0 = .ok true ∧ m.get 5 5 = .ok false := by
    have hb : (match drawOut rne (genRaster rne ⟨0, 0⟩ ⟨100, 100⟩ 10 10) exMem.elements 3 [13, 23] exLayout.libraries 10 10 with
        | some (.ok (true, _) m) => decide (m.get 2 2 = .ok true) && decide (m.get 9 0 = .ok true) && decide (m.get 5 5 = .ok false)
        | _ => false) = true := by decide +kernel
    split at hb
    · rename_i txt m heq
      simp only [Bool.and_eq_true, decide_eq_true_eq] at hb
      exact ⟨txt, m, heq, hb.1.1, hb.1.2, hb.2⟩
    · cases hb
  obtain ⟨txt, m, e, e1, e2, e3⟩ := hdraw
  rw [show (exMem.layouts 7) = exLayout from rfl, e] at hobs
  cases hp : Generator.process rne Alloc.ok (.ok 1) exMem 3 10 10 g with
  | none => rw [hp] at hobs; cases hobs
  | some o =>
    rw [hp] at hobs
    cases o with
    | ub => cases hobs
    | throw e g' => cases hobs
    | ok r g' =>
      simp only [Option.map_some, Out.mapS, Option.some.injEq, Out.ok.injEq] at hobs
      obtain ⟨rfl, hm⟩ := hobs
      refine ⟨txt, g', rfl, ?_, ?_, ?_⟩
      · unfold Lit getMatrix; rw [hm]; exact e1
      · unfold Lit getMatrix; rw [hm]; exact e2
      · unfold Lit getMatrix; rw [hm, e3]; simp

end Verif.Props
