import Verif.Proofs.Generator

/-! Call histories of a generator. -/

namespace Verif

/-- the object state of an outcome, seen through `f` -/
def Out.mapS {σ τ α : Type} (f : σ → τ) : Out σ α → Out τ α
  | .ok a s => .ok a (f s)
  | .throw e s => .throw e (f s)
  | .ub => .ub

end Verif

namespace Verif.Generator
open Verif Converter Spec BitMatrix Zond

/-- the zero matrix -/
def blank (R C : Nat) : BitMatrix := ⟨List.replicate R (List.replicate (bytesPerRow C) 0), R, C⟩

theorem blank_shape (R C : Nat) : Shape R C (blank R C) := ⟨zeroMat_wf R C, rfl, rfl⟩

theorem resize_ok {al : Alloc} {R C : Nat} (hR : 0 < R) (hC : 0 < C) (hal : al R (bytesPerRow C) = none) (m : BitMatrix) :
    BitMatrix.resize al R C m = .ok () (blank R C) := by
  have : ¬ (R = 0 ∨ C = 0) := by omega
  simp [BitMatrix.resize, this, V2.resize, hal, blank]

/-- collection, drawing and printing on a blank bitmap -/
def drawOut (rnd : ℚ → ℚ) (z : Zond) (H : Elements) (depth : Nat) (req : List Int) (libs : List (Option Library))
    (R C : Nat) : Option (Out BitMatrix (Bool × List UInt8)) :=
  match gatherLibs H depth z.ws req libs with
  | none => none
  | some .ub => some .ub
  | some (.throw e) => some (.throw e (blank R C))
  | some (.ok (gs, ls)) =>
    match zondAll rnd z ((gs ++ ls).map some) (blank R C) with
    | .ub => some .ub
    | .throw e b => some (.throw e b)
    | .ok _ b =>
      match BitMatrix.print b with
      | .ub => some .ub
      | .throw e => some (.throw e b)
      | .ok txt => some (.ok (true, txt) b)

/-- the coordinate differences of the workspace are `int`s -/
def WsFits (ws : Workspace) : Prop :=
  inI32 (ws.rightBot.x - ws.leftTop.x) ∧ inI32 (ws.rightBot.y - ws.leftTop.y)

/-- corners in the right order -/
def WsOrdered (ws : Workspace) : Prop := ws.leftTop.x ≤ ws.rightBot.x ∧ ws.rightBot.y ≤ ws.leftTop.y

theorem setUp_ok {rnd : ℚ → ℚ} (hr : Ieee.Rounding rnd) {k R C : Nat} {g : Generator} (hf : g.frags = [])
    (hR : 0 < R) (hC : 0 < C) (hR2 : R < 4294967296) (hC2 : C < 4294967296) (hb : g.bitmap = blank R C)
    (hw : WsFits g.ws) (ho : WsOrdered g.ws) :
    ∃ dx dy, setUp rnd (.ok k) R C g =
      .ok { g with dx := dx, dy := dy, zond := rasteriser rnd g.ws R C g.zond.eps } := by
  obtain ⟨h1, h2⟩ := hw
  obtain ⟨v1, e1⟩ := (calcDelta_ok_iff rnd g.ws.leftTop.x g.ws.rightBot.x k).mpr h1
  obtain ⟨v2, e2⟩ := (calcDelta_ok_iff rnd g.ws.leftTop.y g.ws.rightBot.y 0).mpr h2
  refine ⟨v1, v2, ?_⟩
  have e3 := calcDelta_eq hr h1 hC hC2
  have e4 := calcDelta_eq hr h2 hR hR2
  have n3 := calcDelta_notNeg hr e3
  have n4 := calcDelta_notNeg hr e4
  unfold setUp
  rw [hb]
  simp only [hf, Res.ok_bind, e1, V2.rowCount, List.length_nil, e2, blank, e3, e4, Zond.setDeltas, n3, n4,
    Bool.or_false, Bool.false_eq_true, if_false, Out.toRes, Res.pure_eq]
  have a1 : |g.ws.rightBot.x - g.ws.leftTop.x| = wsW g.ws := by
    unfold wsW; rw [abs_of_nonneg]; have := ho.1; omega
  have a2 : |g.ws.rightBot.y - g.ws.leftTop.y| = wsH g.ws := by
    unfold wsH; rw [abs_of_nonpos]
    · omega
    · have := ho.2; omega
  rw [a1, a2]
  have s1 : subSz R 1 = R - 1 := subSz_eq R 1 hR (by omega)
  have s2 : subSz C 1 = C - 1 := subSz_eq C 1 hC (by omega)
  rw [s1, s2]
  rfl

theorem setUp_ub {rnd : ℚ → ℚ} {k R C : Nat} {g : Generator} (hf : g.frags = []) (hw : ¬ WsFits g.ws) :
    setUp rnd (.ok k) R C g = .ub := by
  unfold setUp
  simp only [hf, Res.ok_bind, V2.rowCount, List.length_nil]
  by_cases h1 : inI32 (g.ws.rightBot.x - g.ws.leftTop.x)
  · have h2 : ¬ inI32 (g.ws.rightBot.y - g.ws.leftTop.y) := fun h => hw ⟨h1, h⟩
    obtain ⟨v1, e1⟩ := (calcDelta_ok_iff rnd g.ws.leftTop.x g.ws.rightBot.x k).mpr h1
    rw [e1, calcDelta_ub rnd _ _ _ h2]; rfl
  · rw [calcDelta_ub rnd _ _ _ h1]; rfl

/-- What `Process` does after an `Init`, seen through the matrix. -/
theorem process_obs {rnd : ℚ → ℚ} (hr : Ieee.Rounding rnd) {al : Alloc} {k R C : Nat} {g : Generator} {a : Nat}
    (mem : Memory) (depth : Nat) (hd : g.data = some a) (hf : g.frags = [])
    (hR : 0 < R) (hC : 0 < C) (hR2 : R < 4294967296) (hC2 : C < 4294967296) (hal : al R (bytesPerRow C) = none)
    (hw : WsFits g.ws) (ho : WsOrdered g.ws) :
    (process rnd al (.ok k) mem depth R C g).map (Out.mapS Generator.bitmap) =
      drawOut rnd (rasteriser rnd g.ws R C g.zond.eps) mem.elements depth g.layers (mem.layouts a).libraries R C := by
  unfold process
  simp only [hR.ne', hC.ne', if_false, resize_ok hR hC hal]
  obtain ⟨dx, dy, es⟩ := setUp_ok hr (k := k) (R := R) (C := C)
    (g := { g with bitmap := blank R C, geoms := [], legacy := [], frags := fragsSetMatrix g.frags })
    (by simp [hf, fragsSetMatrix]) hR hC hR2 hC2 rfl hw ho
  rw [es]
  simp only [initGeometryItems, hd, drawOut]
  have hws : (rasteriser rnd g.ws R C g.zond.eps).ws = g.ws := rfl
  rw [hws]
  cases hg : gatherLibs mem.elements depth g.ws g.layers (mem.layouts a).libraries with
  | none => rfl
  | some r =>
    cases r with
    | ub => rfl
    | throw e => rfl
    | ok gl =>
      obtain ⟨gs, ls⟩ := gl
      simp only [zondMatrix]
      obtain ⟨h1, h2⟩ := hw
      obtain ⟨v1, e1⟩ := (calcDelta_ok_iff rnd g.ws.leftTop.x g.ws.rightBot.x (blank R C).isize).mpr h1
      obtain ⟨v2, e2⟩ := (calcDelta_ok_iff rnd g.ws.leftTop.y g.ws.rightBot.y (blank R C).jsize).mpr h2
      rw [e1, e2]
      simp only
      cases hz : zondAll rnd (rasteriser rnd g.ws R C g.zond.eps) ((gs ++ ls).map some) (blank R C) with
      | ub => rfl
      | throw e b => rfl
      | ok u b =>
        simp only
        cases hp : BitMatrix.print b with
        | ub => rfl
        | throw e => rfl
        | ok t => rfl

theorem process_ub_of_setUp {rnd : ℚ → ℚ} {al : Alloc} {stale : Res Nat} {R C : Nat} {g : Generator} (mem : Memory)
    (depth : Nat) (hR : 0 < R) (hC : 0 < C) (hal : al R (bytesPerRow C) = none)
    (h : setUp rnd stale R C { g with bitmap := blank R C, geoms := [], legacy := [], frags := fragsSetMatrix g.frags } = .ub) :
    process rnd al stale mem depth R C g = some .ub := by
  unfold process
  simp only [hR.ne', hC.ne', if_false, resize_ok hR hC hal, h]

/-- what `setUp` leaves alone -/
theorem setUp_frame {rnd : ℚ → ℚ} {stale : Res Nat} {R C : Nat} {g g' : Generator} (h : setUp rnd stale R C g = .ok g') :
    g'.frags = g.frags ∧ g'.data = g.data ∧ g'.ws = g.ws ∧ g'.layers = g.layers ∧ g'.zond.eps = g.zond.eps ∧
      g'.bitmap = g.bitmap := by
  unfold setUp at h
  have ok_of : ∀ {α β : Type} {x : Res α} {f : α → Res β} {b : β}, (x >>= f) = .ok b → ∃ a, x = .ok a ∧ f a = .ok b := by
    intro α β x f b h
    cases x with
    | ok a => exact ⟨a, rfl, h⟩
    | throw e => cases h
    | ub => cases h
  obtain ⟨c, _, h⟩ := ok_of h
  obtain ⟨dx, _, h⟩ := ok_of h
  obtain ⟨dy, _, h⟩ := ok_of h
  obtain ⟨cdx, _, h⟩ := ok_of h
  obtain ⟨cdy, _, h⟩ := ok_of h
  obtain ⟨z, hz, h⟩ := ok_of h
  simp only [Res.pure_eq, Res.ok.injEq] at h
  subst h
  refine ⟨rfl, rfl, rfl, rfl, ?_, rfl⟩
  unfold Zond.setDeltas at hz
  split at hz
  · cases hz
  · simp only [Out.toRes, Res.ok.injEq] at hz
    subst hz; rfl

/-- what `Process` leaves alone, whether it returns or throws -/
theorem process_frame {rnd : ℚ → ℚ} {al : Alloc} {stale : Res Nat} {mem : Memory} {depth R C : Nat} {g g' : Generator}
    (h : (∃ r, process rnd al stale mem depth R C g = some (.ok r g')) ∨
      ∃ e, process rnd al stale mem depth R C g = some (.throw e g')) :
    (g'.frags = g.frags ∨ g'.frags = fragsSetMatrix g.frags) ∧ g'.data = g.data ∧ g'.ws = g.ws ∧
      g'.layers = g.layers ∧ g'.zond.eps = g.zond.eps := by
  unfold process at h
  by_cases h0 : R = 0
  · simp only [h0, if_true] at h
    rcases h with ⟨r, h⟩ | ⟨e, h⟩
    · simp at h
    · simp only [Option.some.injEq, Out.throw.injEq] at h
      rw [← h.2]; simp
  by_cases h1 : C = 0
  · simp only [h0, h1, if_true, if_false] at h
    rcases h with ⟨r, h⟩ | ⟨e, h⟩
    · simp at h
    · simp only [Option.some.injEq, Out.throw.injEq] at h
      rw [← h.2]; simp
  simp only [h0, h1, if_false] at h
  cases hz : BitMatrix.resize al R C g.bitmap with
  | ub => simp [hz] at h
  | throw e b =>
    simp only [hz] at h
    rcases h with ⟨r, h⟩ | ⟨e, h⟩
    · simp at h
    · simp only [Option.some.injEq, Out.throw.injEq] at h
      rw [← h.2]; simp
  | ok u b =>
    simp only [hz] at h
    cases hs : setUp rnd stale R C { g with bitmap := b, geoms := [], legacy := [], frags := fragsSetMatrix g.frags } with
    | ub => simp [hs] at h
    | throw e =>
      simp only [hs] at h
      rcases h with ⟨r, h⟩ | ⟨e, h⟩
      · simp at h
      · simp only [Option.some.injEq, Out.throw.injEq] at h
        rw [← h.2]; simp
    | ok g2 =>
      simp only [hs] at h
      obtain ⟨f1, f2, f3, f4, f5, _⟩ := setUp_frame hs
      simp only at f1 f2 f3 f4 f5
      cases hi : initGeometryItems mem depth g2 with
      | none => simp [hi] at h
      | some r =>
        cases r with
        | ub => simp [hi] at h
        | throw e =>
          simp only [hi] at h
          rcases h with ⟨r, h⟩ | ⟨e, h⟩
          · simp at h
          · simp only [Option.some.injEq, Out.throw.injEq] at h
            rw [← h.2]; exact ⟨.inr f1, f2, f3, f4, f5⟩
        | ok gl =>
          obtain ⟨gs, ls⟩ := gl
          simp only [hi] at h
          have zf : ∀ g3, (zondMatrix rnd { g2 with geoms := gs, legacy := ls } = .ok () g3 ∨
              ∃ e, zondMatrix rnd { g2 with geoms := gs, legacy := ls } = .throw e g3) →
              g3.frags = g2.frags ∧ g3.data = g2.data ∧ g3.ws = g2.ws ∧ g3.layers = g2.layers ∧ g3.zond.eps = g2.zond.eps := by
            intro g3 h3
            unfold zondMatrix at h3
            split at h3
            · dsimp only at h3
              split at h3
              · rcases h3 with h3 | ⟨e, h3⟩
                · injection h3 with _ h3; subst h3; simp
                · cases h3
              · rcases h3 with h3 | ⟨e, h3⟩
                · cases h3
                · injection h3 with _ h3; subst h3; simp
              · rcases h3 with h3 | ⟨e, h3⟩ <;> cases h3
            · rcases h3 with h3 | ⟨e, h3⟩ <;> cases h3
          cases hzm : zondMatrix rnd { g2 with geoms := gs, legacy := ls } with
          | ub => simp [hzm] at h
          | throw e g3 =>
            simp only [hzm] at h
            obtain ⟨z1, z2, z3, z4, z5⟩ := zf g3 (.inr ⟨e, hzm⟩)
            rcases h with ⟨r, h⟩ | ⟨e, h⟩
            · simp at h
            · simp only [Option.some.injEq, Out.throw.injEq] at h
              rw [← h.2]
              exact ⟨.inr (z1.trans f1), z2.trans f2, z3.trans f3, z4.trans f4, z5.trans f5⟩
          | ok u g3 =>
            simp only [hzm] at h
            obtain ⟨z1, z2, z3, z4, z5⟩ := zf g3 (.inl hzm)
            have goal : (g3.frags = g.frags ∨ g3.frags = fragsSetMatrix g.frags) ∧ g3.data = g.data ∧ g3.ws = g.ws ∧
              g3.layers = g.layers ∧ g3.zond.eps = g.zond.eps :=
                ⟨.inr (z1.trans f1), z2.trans f2, z3.trans f3, z4.trans f4, z5.trans f5⟩
            cases hp : BitMatrix.print g3.bitmap with
            | ub => simp [hp] at h
            | throw e =>
              simp only [hp] at h
              rcases h with ⟨r, h⟩ | ⟨e, h⟩
              · simp at h
              · simp only [Option.some.injEq, Out.throw.injEq] at h
                rw [← h.2]; exact goal
            | ok t =>
              simp only [hp] at h
              rcases h with ⟨r, h⟩ | ⟨e, h⟩
              · simp only [Option.some.injEq, Out.ok.injEq] at h
                rw [← h.2]; exact goal
              · simp at h

theorem opNot_fragsSetMatrix (fs : V2 Fragment) : V2.opNot (fragsSetMatrix fs) = V2.opNot fs := by
  unfold V2.opNot V2.checkParameters fragsSetMatrix
  cases fs with
  | nil => rfl
  | cons row rest => simp [List.all_map, Function.comp_def]

/-- the state after `h` calls (an entry records whether the call returned or threw) -/
structure HistInv (rnd : ℚ → ℚ) (h : List (GenCall × Bool)) (g : Generator) : Prop where
  eps : g.zond.eps = .fin (rnd (1 / 10 ^ 13))
  fresh : (∀ c ∈ h, ¬ c.1.properInit) → V2.opNot g.frags = false ∧ g.data = none ∧ g.ws = Workspace.new
  used : (∃ c ∈ h, c.1.properInit) → g.frags = []
  failed : (∀ d ls mn mx, (GenCall.init d ls mn mx, true) ∉ h) → g.data = none
  inited : ∀ d ls mn mx, (GenCall.init d ls mn mx, true) ∈ h →
    g.data = d ∧ d ≠ none ∧ ls ≠ [] ∧ g.ws = ⟨⟨mn.x, mx.y⟩, ⟨mx.x, mn.y⟩⟩ ∧ mn.x ≤ mx.x ∧ mn.y ≤ mx.y ∧
      lastLayers h = some g.layers

theorem lastLayers_append (h : List (GenCall × Bool)) (c : GenCall × Bool) :
    lastLayers (h ++ [c]) = match setsLayers c with
      | some l => some l
      | none => lastLayers h := by
  induction h with
  | nil => simp only [List.nil_append, lastLayers]; cases setsLayers c <;> rfl
  | cons x xs ih =>
    rw [List.cons_append]
    simp only [lastLayers]
    rw [ih]
    cases hc : setsLayers c with
    | some l => rfl
    | none => rfl

end Verif.Generator
