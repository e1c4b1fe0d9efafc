import Verif.Props.Zond
import Verif.Spec.ZondFresh

/-! C85: a rasteriser whose cell size has not been set (or was set to zero, which `SetDeltas` accepts). -/

namespace Verif.Props
open Verif Zond BitMatrix Ieee Spec

theorem covers_zero (rnd : ℚ → ℚ) (hr : Rounding rnd) (z : Zond) (e : ℚ) (hx : z.dx = .fin 0) (hy : z.dy = .fin 0) (he : z.eps = .fin e)
    (lt rb : Coord) (hi : IntCorners z.ws lt rb) : coversAll rnd z lt rb = true ↔ CoversWs z.ws lt rb := by
  have ex : ∀ n : Int, inI32 n → rnd (n : ℚ) = n := by
    intro n hn
    apply hr.int
    rw [abs_le]; unfold inI32 at hn
    constructor <;> omega
  have e0 : rnd 0 = 0 := by have := ex 0 (by unfold inI32; omega); simpa using this
  obtain ⟨w1, w2, w3, w4, l1, l2, r1, r2⟩ := hi
  have two : (2 : ℚ) ≠ 0 := by norm_num
  unfold coversAll CoversWs
  simp only [hx, hy, he, Fl.ofInt, Fl.div, Fl.mul, Fl.sub, Fl.add, Fl.le, two, if_false, zero_div, zero_mul, e0, ex _ w1, ex _ w2, ex _ w3,
    ex _ w4, ex _ l1, ex _ l2, ex _ r1, ex _ r2, add_zero, sub_zero, Bool.and_eq_true, decide_eq_true_eq, Int.cast_le]
  tauto

theorem norm_zero (rnd : ℚ → ℚ) (b e eps : Fl) (b1 b2 : Nat) : normPair rnd b e (.fin 0) eps b1 b2 = .throw .invalidArgument := by
  unfold normPair
  split
  · rfl
  split
  · rfl
  rw [if_pos (by simp [Fl.le])]

/-- **C85** With cell size 0 a rectangle is either taken to cover the whole bitmap — exactly if it covers the workspace rectangle, and then
every cell between the bound indices is set — or refused with `invalid_argument` without touching the bitmap; if one of the coordinate
differences is no `int`, the behaviour is undefined instead of the refusal. -/
theorem C85_zero_deltas (rnd : ℚ → ℚ) (hr : Rounding rnd) (z : Zond) (e : ℚ) (hx : z.dx = .fin 0) (hy : z.dy = .fin 0) (he : z.eps = .fin e)
    (hb : BoundsFit z.bound) (g : Geometry) (lt rb : Coord) (hg : RectGeom g lt rb) (hi : IntCorners z.ws lt rb) (m : BitMatrix) (hm : Built m) :
    (CoversWs z.ws lt rb → ∃ m', zondGeometry rnd z (some g) m = .ok () m' ∧ Built m' ∧ m'.isize = m.isize ∧ m'.jsize = m.jsize ∧
      ∀ i j, Lit m' i j ↔ Lit m i j ∨ (i < m.isize ∧ j < m.jsize ∧ z.bound.iBegin ≤ i ∧ i ≤ z.bound.iEnd ∧
        z.bound.jBegin ≤ j ∧ j ≤ z.bound.jEnd)) ∧
    (¬ CoversWs z.ws lt rb → DiffsFit z.ws lt rb → zondGeometry rnd z (some g) m = .throw .invalidArgument m) ∧
    (¬ CoversWs z.ws lt rb → ¬ DiffsFit z.ws lt rb → zondGeometry rnd z (some g) m = .ub) := by
  have hc := covers_zero rnd hr z e hx hy he lt rb hi
  obtain ⟨b1, b2, b3, b4⟩ := hb
  refine ⟨fun h => ?_, fun h hd => ?_, fun h hd => ?_⟩
  · rw [rect_all hg (hc.mpr h)]
    obtain ⟨m', e', o⟩ := fillAll_paints m.isize m.jsize z.bound b2 b4 (by omega) (by omega) m (built_shape hm)
    obtain ⟨h1, h2, h3, h4⟩ := ones_lit hm o
    refine ⟨m', e', h1, h2, h3, fun i j => (h4 i j).trans ?_⟩
    unfold Box
    tauto
  · have hf : coversAll rnd z lt rb = false := by
      cases h' : coversAll rnd z lt rb
      · rfl
      · exact absurd (hc.mp h') h
    obtain ⟨f1, f2, f3, f4⟩ := hd
    have hq : ∃ a b c d, rawIndicies rnd z lt rb = .ok (a, b, c, d) := by
      unfold rawIndicies sub32 chk32
      rw [if_pos f1, if_pos f2, if_pos f3, if_pos f4]
      exact ⟨_, _, _, _, rfl⟩
    obtain ⟨a, b, c, d, hq⟩ := hq
    refine rect_throws hg hf hq ?_ m
    unfold normIndicies
    rw [hy, norm_zero]
    rfl
  · have hf : coversAll rnd z lt rb = false := by
      cases h' : coversAll rnd z lt rb
      · rfl
      · exact absurd (hc.mp h') h
    exact C37_overflow_ub rnd z g lt rb hg hd hf m

/-- **C85** A rasteriser as constructed (workspace and bound indices all zero, only the tolerance given): a rectangle sets cell (0,0), and no
other, if the point (0,0) lies in it, and is refused otherwise — unless an ordinate is the least `int`, whose negation overflows. -/
theorem C85_fresh (rnd : ℚ → ℚ) (hr : Rounding rnd) (e : ℚ) (g : Geometry) (lt rb : Coord) (hg : RectGeom g lt rb)
    (hi : inI32 lt.x ∧ inI32 lt.y ∧ inI32 rb.x ∧ inI32 rb.y) (m : BitMatrix) (hm : Built m)
    (h0 : 0 < m.isize ∧ 0 < m.jsize) :
    (lt.x ≤ 0 ∧ 0 ≤ rb.x ∧ 0 ≤ lt.y ∧ rb.y ≤ 0 → ∃ m', zondGeometry rnd { eps := .fin e } (some g) m = .ok () m' ∧
      Built m' ∧ m'.isize = m.isize ∧ m'.jsize = m.jsize ∧ ∀ i j, Lit m' i j ↔ Lit m i j ∨ (i = 0 ∧ j = 0)) ∧
    (¬ (lt.x ≤ 0 ∧ 0 ≤ rb.x ∧ 0 ≤ lt.y ∧ rb.y ≤ 0) →
      zondGeometry rnd { eps := .fin e } (some g) m =
        if lt.y = -2147483648 ∨ rb.y = -2147483648 then .ub else .throw .invalidArgument m) := by
  have key := C85_zero_deltas rnd hr { eps := .fin e } e rfl rfl rfl (show BoundsFit {} from ⟨by decide, by decide, by decide, by decide⟩) g lt rb hg
    (by
      have h0 : inI32 0 := by unfold inI32; omega
      exact ⟨h0, h0, h0, h0, hi⟩) m hm
  constructor
  · intro h
    obtain ⟨m', e', h1, h2, h3, h4⟩ := key.1 h
    refine ⟨m', e', h1, h2, h3, fun i j => (h4 i j).trans ?_⟩
    constructor
    · rintro (h | ⟨_, _, _, h1, _, h2⟩)
      · exact Or.inl h
      · exact Or.inr ⟨Nat.le_zero.mp h1, Nat.le_zero.mp h2⟩
    · rintro (h | ⟨rfl, rfl⟩)
      · exact Or.inl h
      · exact Or.inr ⟨h0.1, h0.2, Nat.le_refl _, Nat.le_refl _, Nat.le_refl _, Nat.le_refl _⟩
  · intro h
    obtain ⟨h1, h2, h3, h4⟩ := hi
    split
    · rename_i hn
      refine key.2.2 h fun hd => ?_
      obtain ⟨_, _, d3, d4⟩ := hd
      unfold inI32 at *
      simp only [Workspace.new] at d3 d4
      omega
    · rename_i hn
      refine key.2.1 h ?_
      unfold inI32 at *
      refine ⟨?_, ?_, ?_, ?_⟩ <;> simp only [Workspace.new] <;> constructor <;> omega

/-- **C85** With cell size 0 and a tolerance that is not finite — the constructor and `SetEps` do not refuse it — every rectangle is refused,
or, if a coordinate difference is no `int`, undefined: even one that covers the workspace. -/
theorem C85_not_finite (rnd : ℚ → ℚ) (z : Zond) (hx : z.dx = .fin 0) (hy : z.dy = .fin 0) (he : ∀ q, z.eps ≠ .fin q)
    (g : Geometry) (lt rb : Coord) (hg : RectGeom g lt rb) (m : BitMatrix) :
    (DiffsFit z.ws lt rb → zondGeometry rnd z (some g) m = .throw .invalidArgument m) ∧
    (¬ DiffsFit z.ws lt rb → zondGeometry rnd z (some g) m = .ub) := by
  have hn : Fl.mul rnd z.dx z.eps = .nan := by
    rw [hx]
    cases h : z.eps with
    | fin q => exact absurd h (he q)
    | nan => rfl
    | pinf => simp [Fl.mul, Fl.infOf]
    | ninf => simp [Fl.mul, Fl.infOf]
  have hs : ∀ a : Fl, Fl.sub rnd a .nan = .nan := by intro a; cases a <;> rfl
  have hl : ∀ a : Fl, a.le .nan = false := by intro a; cases a <;> rfl
  have hf : coversAll rnd z lt rb = false := by
    unfold coversAll
    simp only [hn, hs, hl]
    simp
  refine ⟨fun hd => ?_, fun hd => C37_overflow_ub rnd z g lt rb hg hd hf m⟩
  obtain ⟨f1, f2, f3, f4⟩ := hd
  have hq : ∃ a b c d, rawIndicies rnd z lt rb = .ok (a, b, c, d) := by
    unfold rawIndicies sub32 chk32
    rw [if_pos f1, if_pos f2, if_pos f3, if_pos f4]
    exact ⟨_, _, _, _, rfl⟩
  obtain ⟨a, b, c, d, hq⟩ := hq
  refine rect_throws hg hf hq ?_ m
  unfold normIndicies
  rw [hy, norm_zero]
  rfl

/-- an infinite tolerance: even the point (0,0) is refused -/
example : zondGeometry rne { eps := .pinf } (some (exRect (-1) 1 1 (-1))) (BitMatrix.new Alloc.ok 10 10) =
    .throw .invalidArgument (BitMatrix.new Alloc.ok 10 10) :=
  (C85_not_finite rne { eps := .pinf } rfl rfl (by intro q; simp) (exRect (-1) 1 1 (-1)) ⟨-1, 1⟩ ⟨1, -1⟩ ⟨rfl, _, _, rfl⟩ _).1
    (by unfold DiffsFit inI32; decide)

/-- **C85** Zero is accepted by `SetDeltas`. -/
theorem C85_zero_accepted (z : Zond) : setDeltas (.fin 0) (.fin 0) z = .ok () { z with dx := .fin 0, dy := .fin 0 } := by
  unfold setDeltas
  rw [if_neg (by simp [Fl.lt])]

/-- a fresh rasteriser: the point (0,0) in the rectangle, and not -/
example : (∃ m', zondGeometry rne { eps := .fin (1 / 100) } (some (exRect (-1) 1 1 (-1))) (BitMatrix.new Alloc.ok 10 10) = .ok () m' ∧
      Lit m' 0 0) ∧
    zondGeometry rne { eps := .fin (1 / 100) } (some (exRect 20 80 45 60)) (BitMatrix.new Alloc.ok 10 10) =
      .throw .invalidArgument (BitMatrix.new Alloc.ok 10 10) := by
  have hm : Built (BitMatrix.new Alloc.ok 10 10) := .new 10 10 (by norm_num) (by norm_num)
  constructor
  · obtain ⟨m', e, _, _, _, h⟩ := (C85_fresh rne rne_rounding (1 / 100) (exRect (-1) 1 1 (-1)) ⟨-1, 1⟩ ⟨1, -1⟩ ⟨rfl, _, _, rfl⟩
      (by unfold inI32; decide) _ hm (by decide)).1 (by decide)
    exact ⟨m', e, (h 0 0).mpr (Or.inr ⟨rfl, rfl⟩)⟩
  · exact (C85_fresh rne rne_rounding (1 / 100) (exRect 20 80 45 60) ⟨20, 80⟩ ⟨45, 60⟩ ⟨rfl, _, _, rfl⟩
      (by unfold inI32; decide) _ hm (by decide)).2 (by decide)

end Verif.Props
