import Verif.Proofs.RangeGenerator
import Verif.Proofs.RangeRest
import Verif.Proofs.RangeFragments
import Verif.Proofs.Generator2

/-! Property C82: the limits of the exponents of `double` never matter. -/

namespace Verif.Props
open Verif BitMatrix Zond Ieee Verif.Spec.Binary64 Verif.Proofs.Range

/-- the tolerance a new generator has -/
theorem tolerance_tame {rnd : ℚ → ℚ} (hr : RoundsNormal rnd) :
    rnd (1 / 10 ^ 13) = rne (1 / 10 ^ 13) ∧ TameF 252 200 (.fin (rne (1 / 10 ^ 13))) := by
  have h1 : |(1 / 10 ^ 13 : ℚ)| = 1 / 10 ^ 13 := abs_of_nonneg (by norm_num)
  constructor
  · refine hr _ (.inr ?_)
    rw [h1]
    constructor
    · refine le_trans (zpow_le_zpow_right₀ (by norm_num) (show (-1022 : ℤ) ≤ -44 by norm_num)) (by norm_num)
    · refine le_trans (by norm_num : (1 / 10 ^ 13 : ℚ) ≤ 2 ^ 0) (pow_le_pow_right₀ (by norm_num) (by norm_num))
  · have := rne_tame (q := 1 / 10 ^ 13) (L := 44) (B := 0) (fun _ => by rw [h1]; norm_num) (by rw [h1]; norm_num)
    exact Tame.mono this (by norm_num) (by norm_num)

/-- what the calls keep -/
def Kept (g : Generator) : Prop := TameF 252 200 g.zond.eps ∧
  (inI32 g.ws.leftTop.x ∧ inI32 g.ws.leftTop.y ∧ inI32 g.ws.rightBot.x ∧ inI32 g.ws.rightBot.y)

theorem kept_init {d : Option Nat} {ls : List Int} {mn mx : Coord} {g g' : Generator}
    (hf : inI32 mn.x ∧ inI32 mn.y ∧ inI32 mx.x ∧ inI32 mx.y) (hk : Kept g)
    (h : (∃ u, Generator.init d ls mn mx g = .ok u g') ∨ ∃ e, Generator.init d ls mn mx g = .throw e g') : Kept g' := by
  obtain ⟨he, h1, h2, h3, h4⟩ := hk
  have h0 : inI32 0 := by unfold inI32; omega
  unfold Generator.init at h
  by_cases hc : d = none ∨ ls = [] ∨ V2.opNot g.frags = true
  · rw [if_pos hc] at h
    rcases h with ⟨u, h⟩ | ⟨e, h⟩ <;> cases h
    exact ⟨he, h1, h2, h3, h4⟩
  · rw [if_neg hc] at h
    unfold Workspace.setAngleCoords at h
    dsimp only at h
    by_cases hx : mn.x > mx.x ∨ mx.y < mn.y
    · rw [if_pos hx] at h
      rcases h with ⟨u, h⟩ | ⟨e, h⟩ <;> cases h
      exact ⟨he, h0, h0, h3, h4⟩
    · rw [if_neg hx] at h
      rcases h with ⟨u, h⟩ | ⟨e, h⟩ <;> cases h
      exact ⟨he, hf.1, hf.2.2.2, hf.2.2.1, hf.2.1⟩

theorem perform_eq {rnd : ℚ → ℚ} (hr : RoundsNormal rnd) {c : Call} (hc : CallFits c) {g : Generator} (hk : Kept g) :
    perform rnd c g = perform rne c g ∧
      ∀ g', ((∃ r, perform rne c g = some (.ok r g')) ∨ ∃ e, perform rne c g = some (.throw e g')) → Kept g' := by
  cases c with
  | init d ls mn mx =>
    refine ⟨rfl, fun g' h => ?_⟩
    simp only [perform] at h
    refine kept_init (d := d) (ls := ls) hc hk ?_
    cases e : Generator.init d ls mn mx g with
    | ub => rw [e] at h; rcases h with ⟨r, h⟩ | ⟨r, h⟩ <;> cases h
    | throw x t =>
      rw [e] at h
      rcases h with ⟨r, h⟩ | ⟨r, h⟩ <;> cases h
      exact .inr ⟨_, rfl⟩
    | ok x t =>
      rw [e] at h
      rcases h with ⟨r, h⟩ | ⟨r, h⟩ <;> cases h
      exact .inl ⟨_, rfl⟩
  | setLayers ls =>
    refine ⟨rfl, fun g' h => ?_⟩
    rcases h with ⟨r, h⟩ | ⟨r, h⟩ <;> cases h
    exact hk
  | edit m =>
    refine ⟨rfl, fun g' h => ?_⟩
    rcases h with ⟨r, h⟩ | ⟨r, h⟩ <;> cases h
    exact hk
  | process al stale mem depth R C =>
    refine ⟨process_eq hr al stale mem depth hc.1 hc.2.1 hk.1 hk.2 hc.2.2, fun g' h => ?_⟩
    obtain ⟨_, _, hw, _, he⟩ := Generator.process_frame (show (∃ r, Generator.process rne al stale mem depth R C g = some (.ok r g')) ∨ _ from h)
    unfold Kept
    rw [hw, he]
    exact hk

theorem session_eq {rnd : ℚ → ℚ} (hr : RoundsNormal rnd) : ∀ (calls : List Call) (g : Generator), (∀ c ∈ calls, CallFits c) → Kept g →
    session rnd calls g = session rne calls g := by
  intro calls
  induction calls with
  | nil => intro g _ _; rfl
  | cons c cs ih =>
    intro g hc hk
    obtain ⟨h1, h2⟩ := perform_eq hr (hc c List.mem_cons_self) hk
    unfold session
    rw [h1]
    congr 1
    cases e : perform rne c g with
    | none => rfl
    | some o =>
      cases o with
      | ub => rfl
      | throw x t => exact ih t (fun c' h => hc c' (List.mem_cons_of_mem _ h)) (h2 t (.inr ⟨_, e⟩))
      | ok x t => exact ih t (fun c' h => hc c' (List.mem_cons_of_mem _ h)) (h2 t (.inl ⟨_, e⟩))

/-- **C82** Whatever is done with a bitmap generator: the outcomes do not depend on what the arithmetic does with results that are too large
or too small for a normal `double`. -/
theorem C82_generator {rnd : ℚ → ℚ} (hr : RoundsNormal rnd) (calls : List Call) (hc : ∀ c ∈ calls, CallFits c) :
    session rnd calls (Generator.new rnd) = session rne calls (Generator.new rne) := by
  obtain ⟨h1, h2⟩ := tolerance_tame hr
  have hn : Generator.new rnd = Generator.new rne := by unfold Generator.new; rw [h1]
  rw [hn]
  have h0 : inI32 0 := by unfold inI32; omega
  exact session_eq hr calls _ hc ⟨h2, h0, h0, h0, h0⟩

/-- **C82** The rasteriser itself, with any step sizes and any tolerance that are not extreme. -/
theorem C82_rasteriser {rnd : ℚ → ℚ} (hr : RoundsNormal rnd) (z : Zond) (hx : Moderate z.dx) (hy : Moderate z.dy) (he : Moderate z.eps)
    (hw : inI32 z.ws.leftTop.x ∧ inI32 z.ws.leftTop.y ∧ inI32 z.ws.rightBot.x ∧ inI32 z.ws.rightBot.y)
    (hb : z.bound.iBegin < 2 ^ 64 ∧ z.bound.iEnd < 2 ^ 64 ∧ z.bound.jBegin < 2 ^ 64 ∧ z.bound.jEnd < 2 ^ 64)
    (gs : List (Option Geometry)) (hg : ∀ g, some g ∈ gs → ∀ c ∈ g.coords, inI32 c.x ∧ inI32 c.y) (m : BitMatrix) :
    zondAll rnd z gs m = zondAll rne z gs m ∧ (∀ v, setEps rnd v z = setEps rne v z) := by
  refine ⟨congrFun (zondAll_eq hr ⟨moderate_tame hx, moderate_tame hy, moderate_tame he, hw, hb⟩ gs hg) m, fun v => ?_⟩
  have : rnd (1 / 2) = rne (1 / 2) := by
    refine hr _ (.inr ?_)
    rw [abs_of_nonneg (by norm_num)]
    constructor
    · refine le_trans (zpow_le_zpow_right₀ (by norm_num) (show (-1022 : ℤ) ≤ -1 by norm_num)) (by norm_num)
    · refine le_trans (by norm_num : (1 / 2 : ℚ) ≤ 2 ^ 0) (pow_le_pow_right₀ (by norm_num) (by norm_num))
  unfold setEps
  rw [this]

/-- **C82** A fragment's own processing. -/
theorem C82_fragment {rnd : ℚ → ℚ} (hr : RoundsNormal rnd) (f : Fragment) : Fragment.process rnd f = Fragment.process rne f := by
  have e := fun a b n => (calcDelta_tame hr a b n).1
  unfold Fragment.process
  simp only [e]

/-- **C82** The division of the work among fragments (not called by `Process`): the rectangles of the fragments and the indices of the
fragments a rectangle meets. -/
theorem C82_fragment_plan {rnd : ℚ → ℚ} (hr : RoundsNormal rnd) (g : Generator) (hx : Moderate g.dx) (hy : Moderate g.dy)
    (hw : inI32 g.ws.leftTop.x ∧ inI32 g.ws.leftTop.y) (hn : g.frags.length < 2 ^ 64) (hn' : ∀ row ∈ g.frags, row.length < 2 ^ 64) :
    Generator.initFragmentsWorkspaces rnd g = Generator.initFragmentsWorkspaces rne g ∧
      ∀ r, Generator.pushRectangleRaw rnd g r = Generator.pushRectangleRaw rne g r ∧
        Generator.pushRectangleShared rnd g r = Generator.pushRectangleShared rne g r := by
  have h := fun r => rectFragments_eq hr (moderate_tame hx) (moderate_tame hy) r
  refine ⟨workspaces_eq hr (moderate_tame hx) (moderate_tame hy) hw.1 hw.2 hn hn', fun r => ⟨?_, ?_⟩⟩
  · unfold Generator.pushRectangleRaw; rw [h r]
  · unfold Generator.pushRectangleShared; rw [h r]

/-- **C82** The ratios of a matrix, the comparison of two and the operators `==` and `!=`; a count that would exceed 2⁵³ stops growing, and
nothing overflows. -/
theorem C82_ratios {rnd : ℚ → ℚ} (hr : RoundsNormal rnd) (al : Alloc) (a b : BitMatrix) :
    oneRatio rnd a = oneRatio rne a ∧ zeroRatio rnd a = zeroRatio rne a ∧ compare rnd al a b = compare rne al a b ∧
      opEq rnd al a b = opEq rne al a b ∧ opNe rnd al a b = opNe rne al a b :=
  ⟨(calcRatio_eq hr a true).1, (calcRatio_eq hr a false).1, compare_eq hr al a b, opEq_eq hr al a b, opNe_eq hr al a b⟩

/-- **C82** The compression coefficients, for texts and codes whose lengths fit in a `size_t`. -/
theorem C82_coefficients {rnd : ℚ → ℚ} (hr : RoundsNormal rnd) (str : List UInt8) (b : Bool) (m : BitMatrix)
    (h1 : str.length < 2 ^ 64) (h2 : ∀ e, (if b then Rle.byteEncode str else Rle.encodeStr str) = .ok e → e.length < 2 ^ 64)
    (h3 : ∀ s, BitMatrix.serialize m = .ok s → s.length < 2 ^ 64) (h4 : ∀ s, Rle.encode m = .ok s → s.length < 2 ^ 64) :
    Rle.coeffStr rnd str b = Rle.coeffStr rne str b ∧ Rle.coeffMatrix rnd m = Rle.coeffMatrix rne m :=
  ⟨coeffStr_eq hr str b h1 h2, coeffMatrix_eq hr m h3 h4⟩

/-- **C82** Reading GDSII: every eight bytes, and every file. -/
theorem C82_gdsii_read {rnd : ℚ → ℚ} (hr : RoundsNormal rnd) :
    (∀ bytes, Gds.normalizeDouble rnd bytes = Gds.normalizeDouble rne bytes) ∧
      ∀ (env : Gds.Env) (next : Nat) (null : Bool) (w : Gds.World),
        Gds.read { env with rnd := rnd } next null w = Gds.read { env with rnd := rne } next null w :=
  ⟨normalizeDouble_eq hr, fun env next null w => congrFun (read_eq hr env next null) w⟩

/-- **C82** Writing GDSII reals: every `double` of at most 2⁷⁰⁰ in size, the infinities and NaN. -/
theorem C82_gdsii_write {rnd : ℚ → ℚ} (hr : RoundsNormal rnd) (value : Fl) (hv : ∀ q, value = .fin q → rne q = q ∧ |q| ≤ 2 ^ 700) :
    Gds.deNormalizeDouble rnd value = Gds.deNormalizeDouble rne value := deNormalizeDouble_eq hr value hv

/-- binary64 with subnormal numbers is such an arithmetic, and differs from the idealised one -/
theorem C82_subnormal : RoundsNormal rneSub ∧ rneSub ((2 ^ 52 + 1) / 2 ^ 1100) ≠ rne ((2 ^ 52 + 1) / 2 ^ 1100) :=
  ⟨rneSub_normal, by decide +kernel⟩

/-- an arithmetic that yields 7 for every result that is not normal -/
example : RoundsNormal (fun q => open Classical in if Normal q then rne q else 7) := fun q h => by simp [h]

/-- a layout with one rectangle on layer 1 -/
def oneRectangle : LayoutData :=
  let r : Geometry := { type := .rectangle, coords := [⟨0, 3⟩, ⟨3, 3⟩, ⟨3, 0⟩, ⟨0, 0⟩], min := ⟨0, 0⟩, max := ⟨3, 3⟩ }
  { libraries := [some { layers := [{ layer := 1, geometries := [some r] }] }] }

/-- a session to which `C82_generator` applies: `Init`, `Process` twice -/
def drawing : List Call := [.init (some 0) [1] ⟨0, 0⟩ ⟨4, 7⟩,
  .process (fun _ _ => none) (.ok 0) ⟨fun _ => oneRectangle, fun _ => {}⟩ 9 2 4, .setLayers [1],
  .process (fun _ _ => none) (.ok 0) ⟨fun _ => oneRectangle, fun _ => {}⟩ 9 3 1]

theorem drawing_fits : ∀ c ∈ drawing, CallFits c := by
  intro c hc
  simp only [drawing, List.mem_cons, List.not_mem_nil, or_false] at hc
  rcases hc with rfl | rfl | rfl | rfl
  · simp only [CallFits, inI32]; decide
  all_goals first | trivial | skip
  all_goals
    refine ⟨by norm_num, by norm_num, fun a l y g hl hy hg => ?_⟩
    simp only [oneRectangle, List.mem_singleton, Option.some.injEq] at hl
    subst hl
    simp only [List.mem_singleton] at hy
    subst hy
    simp only [List.mem_singleton, Option.some.injEq] at hg
    subst hg
    simp only [inI32]
    decide

example : session rneSub drawing (Generator.new rneSub) = session rne drawing (Generator.new rne) ∧
    (session rne drawing (Generator.new rne)).length = 4 :=
  ⟨C82_generator rneSub_normal drawing drawing_fits, by decide +kernel⟩

/-- a rasteriser, a matrix and numbers to which the other theorems apply -/
example : Moderate (.fin (3 / 4)) ∧ Moderate (.fin (2 ^ 100)) ∧ Moderate .pinf ∧ ¬ Moderate (.fin (1 / 3)) := by
  refine ⟨⟨by decide +kernel, .inr ⟨?_, ?_⟩⟩, ⟨by decide +kernel, .inr ⟨?_, ?_⟩⟩, trivial, fun h => ?_⟩
  · decide +kernel
  · decide +kernel
  · decide +kernel
  · decide +kernel
  · exact absurd h.1 (by decide +kernel)

end Verif.Props
