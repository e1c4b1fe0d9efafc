import Verif.Proofs.ZondAxis
import Verif.Spec.Zond

/-! Rasterising one rectangle. -/

namespace Verif.Zond
open Verif BitMatrix Ieee Spec

theorem rect_idx {g : Geometry} {lt rb : Coord} (h : RectGeom g lt rb) :
    Res.idx g.coords 0 = .ok lt ∧ Res.idx g.coords 2 = .ok rb := by
  obtain ⟨_, q, rest, e⟩ := h
  rw [e]; exact ⟨rfl, rfl⟩

theorem rect_all {rnd : ℚ → ℚ} {z : Zond} {g : Geometry} {lt rb : Coord} (h : RectGeom g lt rb)
    (hc : coversAll rnd z lt rb = true) : zondGeometry rnd z (some g) = fillAll z.bound := by
  obtain ⟨h1, h2⟩ := rect_idx h
  funext m
  simp only [zondGeometry, h.1]
  unfold zondRectangle
  rw [h1, h2, M.run_bind_ok (M.run_lift_ok _ _), M.run_bind_ok (M.run_lift_ok _ _), if_pos hc]

theorem rect_raw {rnd : ℚ → ℚ} {z : Zond} {g : Geometry} {lt rb : Coord} (h : RectGeom g lt rb)
    (hc : coversAll rnd z lt rb = false) : zondGeometry rnd z (some g) = (do
      let q ← M.lift (rawIndicies rnd z lt rb)
      let n ← M.lift (normIndicies rnd z q.1 q.2.1 q.2.2.1 q.2.2.2)
      fillRange z.bound n) := by
  obtain ⟨h1, h2⟩ := rect_idx h
  funext m
  simp only [zondGeometry, h.1]
  unfold zondRectangle
  rw [h1, h2, M.run_bind_ok (M.run_lift_ok _ _), M.run_bind_ok (M.run_lift_ok _ _), if_neg (by simp [hc])]

theorem raw_eq {rnd : ℚ → ℚ} (hr : Rounding rnd) {z : Zond} {lt rb : Coord} {dx dy : ℚ}
    (hf : DiffsFit z.ws lt rb) (hx : z.dx = .fin dx) (hy : z.dy = .fin dy) (px : 0 < dx) (py : 0 < dy) :
    rawIndicies rnd z lt rb = .ok
      (.fin (rnd (((z.ws.leftTop.y - lt.y : Int) : ℚ) / dy)), .fin (rnd (((z.ws.leftTop.y - rb.y : Int) : ℚ) / dy)),
       .fin (rnd (((lt.x - z.ws.leftTop.x : Int) : ℚ) / dx)), .fin (rnd (((rb.x - z.ws.leftTop.x : Int) : ℚ) / dx))) := by
  obtain ⟨f1, f2, f3, f4⟩ := hf
  have ex : ∀ n : Int, inI32 n → rnd (n : ℚ) = n := by
    intro n hn
    apply hr.int
    rw [abs_le]; unfold inI32 at hn
    constructor <;> omega
  have nx : dx ≠ 0 := ne_of_gt px
  have ny : dy ≠ 0 := ne_of_gt py
  unfold rawIndicies sub32 chk32
  rw [if_pos f1, if_pos f2, if_pos f3, if_pos f4]
  simp only [Res.ok_bind, Res.pure_eq, hx, hy, Fl.div, Fl.ofInt, nx, ny, if_false, ex _ f1, ex _ f2, ex _ f3,
    ex _ f4]

/-- With both axes normalised, the rectangle paints the box between the ends. -/
theorem rect_paints {rnd : ℚ → ℚ} {z : Zond} {g : Geometry} {lt rb : Coord} (h : RectGeom g lt rb)
    (hc : coversAll rnd z lt rb = false) {iB iE jB jE : Fl} (hq : rawIndicies rnd z lt rb = .ok (iB, iE, jB, jE))
    {p q : Nat × Nat}
    (h1 : normPair rnd iB iE z.dy z.eps z.bound.iBegin z.bound.iEnd = .ok p)
    (h2 : normPair rnd jB jE z.dx z.eps z.bound.jBegin z.bound.jEnd = .ok q) :
    zondGeometry rnd z (some g) = fillRange z.bound ⟨p.1, p.2, q.1, q.2⟩ := by
  rw [rect_raw h hc]
  funext m
  have : normIndicies rnd z iB iE jB jE = .ok ⟨p.1, p.2, q.1, q.2⟩ := by
    unfold normIndicies; rw [h1, Res.ok_bind, h2]; rfl
  rw [hq, M.run_bind_ok (M.run_lift_ok _ _), this, M.run_bind_ok (M.run_lift_ok _ _)]

theorem rect_throws {rnd : ℚ → ℚ} {z : Zond} {g : Geometry} {lt rb : Coord} (h : RectGeom g lt rb)
    (hc : coversAll rnd z lt rb = false) {iB iE jB jE : Fl} (hq : rawIndicies rnd z lt rb = .ok (iB, iE, jB, jE))
    (hn : normIndicies rnd z iB iE jB jE = .throw .invalidArgument) (m : BitMatrix) :
    zondGeometry rnd z (some g) m = .throw .invalidArgument m := by
  rw [rect_raw h hc, hq, M.run_bind_ok (M.run_lift_ok _ _), hn]; rfl

theorem normIndicies_ok {rnd z a b c d n} (h : normIndicies rnd z a b c d = .ok n) :
    ∃ p q, normPair rnd a b z.dy z.eps z.bound.iBegin z.bound.iEnd = .ok p ∧
      normPair rnd c d z.dx z.eps z.bound.jBegin z.bound.jEnd = .ok q ∧ n = ⟨p.1, p.2, q.1, q.2⟩ := by
  unfold normIndicies at h
  cases h1 : normPair rnd a b z.dy z.eps z.bound.iBegin z.bound.iEnd with
  | throw _ => rw [h1] at h; cases h
  | ub => rw [h1] at h; cases h
  | ok p =>
    rw [h1, Res.ok_bind] at h
    cases h2 : normPair rnd c d z.dx z.eps z.bound.jBegin z.bound.jEnd with
    | throw _ => rw [h2] at h; cases h
    | ub => rw [h2] at h; cases h
    | ok q =>
      rw [h2, Res.ok_bind] at h
      cases h
      exact ⟨p, q, rfl, rfl, rfl⟩

/-- bounds that the loops can count up to -/
def BoundsFit (bd : Indicies) : Prop :=
  bd.iBegin < 2147483647 ∧ bd.iEnd < 2147483647 ∧ bd.jBegin < 2147483647 ∧ bd.jEnd < 2147483647

/-- No undefined behaviour: sane bounds, coordinate differences that fit, indices below 2^31. -/
theorem rect_defined {rnd : ℚ → ℚ} (hr : Rounding rnd) {z : Zond} {g : Geometry} {lt rb : Coord}
    {dx dy : ℚ} (h : RectGeom g lt rb) (hb : BoundsFit z.bound) (hf : DiffsFit z.ws lt rb)
    (hx : z.dx = .fin dx) (hy : z.dy = .fin dy) (px : 0 < dx) (py : 0 < dy)
    (ex : ((rb.x - z.ws.leftTop.x : Int) : ℚ) ≤ 2147483647 * dx)
    (ey : ((z.ws.leftTop.y - rb.y : Int) : ℚ) ≤ 2147483647 * dy) (R C : Nat) :
    Throws R C (zondGeometry rnd z (some g)) .invalidArgument ∨
    ∃ P, Paints R C (zondGeometry rnd z (some g)) P ∧ ∀ i j, P i j →
      i < R ∧ j < C ∧ z.bound.iBegin ≤ i ∧ i ≤ z.bound.iEnd ∧ z.bound.jBegin ≤ j ∧ j ≤ z.bound.jEnd := by
  obtain ⟨b1, b2, b3, b4⟩ := hb
  cases hc : coversAll rnd z lt rb with
  | true =>
    right
    rw [rect_all h hc]
    exact ⟨_, fillAll_paints R C z.bound b2 b4 (by omega) (by omega), fun i j hp => hp⟩
  | false =>
    have hq := raw_eq hr hf hx hy px py
    have lim : ∀ a d : ℚ, 0 < d → a ≤ 2147483647 * d → rnd (a / d) < 2147483648 := by
      intro a d hd ha
      have h1 : a / d ≤ 2147483647 := by rw [div_le_iff₀ hd]; exact ha
      have h2 := hr.mono _ _ h1
      have h3 : rnd (2147483647 : ℚ) = 2147483647 := by
        have := hr.nat 2147483647 (by norm_num)
        exact_mod_cast this
      rw [h3] at h2; linarith
    rcases normPair_cases (rnd := rnd) (B := rnd (((z.ws.leftTop.y - lt.y : Int) : ℚ) / dy)) (delta := z.dy) (eps := z.eps)
      (b1 := z.bound.iBegin) (b2 := z.bound.iEnd) (lim _ _ py ey) with ht | ⟨_, _, _, f, s, hok, hfr, hsr⟩
    · left; intro m _
      refine rect_throws h hc hq ?_ m
      unfold normIndicies; rw [ht]; rfl
    · rcases normPair_cases (rnd := rnd) (B := rnd (((lt.x - z.ws.leftTop.x : Int) : ℚ) / dx)) (delta := z.dx) (eps := z.eps)
        (b1 := z.bound.jBegin) (b2 := z.bound.jEnd) (lim _ _ px ex) with ht | ⟨_, _, _, f', s', hok', hfr', hsr'⟩
      · left; intro m _
        refine rect_throws h hc hq ?_ m
        unfold normIndicies; rw [hok, Res.ok_bind, ht]; rfl
      · right
        rw [rect_paints h hc hq hok hok']
        refine ⟨_, fillRange_paints R C z.bound ⟨f, s, f', s'⟩ b2 b4 ?_ ?_ ?_ ?_, fun i j hp => ?_⟩
        · dsimp only; omega
        · dsimp only; omega
        · dsimp only; omega
        · dsimp only; omega
        · obtain ⟨g1, g2, g3, g4, g5, g6⟩ := hp
          dsimp only at g3 g4 g5 g6
          omega

/-- The rectangle inside the whole-bitmap set-up paints the selected rows × columns. -/
theorem setup_paints {rnd : ℚ → ℚ} {z : Zond} {ws : Workspace} {R C : Nat} {ep : ℚ}
    (hs : SetUp rnd z ws R C ep) {g : Geometry} {lt rb : Coord} (h : RectGeom g lt rb)
    (hc : coversAll rnd z lt rb = false) {iB iE jB jE : ℚ}
    (hq : rawIndicies rnd z lt rb = .ok (.fin iB, .fin iE, .fin jB, .fin jE))
    (hi0 : 0 ≤ iB) (hi1 : iB ≤ iE) (hi2 : iE < 2147483648) (hj0 : 0 ≤ jB) (hj1 : jB ≤ jE) (hj2 : jE < 2147483648)
    (hdx : z.dx.le (.fin 0) = false) (hdy : z.dy.le (.fin 0) = false)
    {p q : Nat × Nat}
    (h1 : normPair rnd (.fin iB) (.fin iE) z.dy z.eps 0 (R - 1) = .ok p)
    (h2 : normPair rnd (.fin jB) (.fin jE) z.dx z.eps 0 (C - 1) = .ok q) :
    Paints R C (zondGeometry rnd z (some g)) (fun i j => Sel p R i ∧ Sel q C j) := by
  have hrm := hs.rmax
  have hcm := hs.cmax
  have hrp := hs.rpos
  have hcp := hs.cpos
  obtain ⟨f, s, e1, r1, r2⟩ := normPair_range (rnd := rnd) (eps := z.eps) (b1 := 0) (b2 := R - 1) hi0 hi1 hi2 hdy
  obtain ⟨f', s', e2, r3, r4⟩ := normPair_range (rnd := rnd) (eps := z.eps) (b1 := 0) (b2 := C - 1) hj0 hj1 hj2 hdx
  rw [h1] at e1; cases e1
  rw [h2] at e2; cases e2
  rw [rect_paints h hc hq (p := (f, s)) (q := (f', s')) (by rw [hs.bound]; exact h1) (by rw [hs.bound]; exact h2),
    hs.bound]
  refine (fillRange_paints R C _ ⟨f, s, f', s'⟩ ?_ ?_ ?_ ?_ ?_ ?_).congr fun i j => ?_
  all_goals dsimp only
  all_goals try omega
  unfold Box Sel
  try dsimp only
  omega

theorem setup_all {rnd : ℚ → ℚ} {z : Zond} {ws : Workspace} {R C : Nat} {ep : ℚ}
    (hs : SetUp rnd z ws R C ep) {g : Geometry} {lt rb : Coord} (h : RectGeom g lt rb)
    (hc : coversAll rnd z lt rb = true) :
    Paints R C (zondGeometry rnd z (some g)) (fun i j => i < R ∧ j < C) := by
  have hrm := hs.rmax
  have hcm := hs.cmax
  have hrp := hs.rpos
  have hcp := hs.cpos
  rw [rect_all h hc, hs.bound]
  refine (fillAll_paints R C _ ?_ ?_ ?_ ?_).congr fun i j => ?_
  all_goals dsimp only
  all_goals try omega
  unfold Box
  try dsimp only
  omega

end Verif.Zond
