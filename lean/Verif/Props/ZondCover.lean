import Verif.Props.Moved

/-! C37, C39: the cases of a rectangle that does not cover the workspace, in terms of cell centres. -/

namespace Verif.Props
open Verif BitMatrix Zond Spec Ieee

open Moved in
theorem misses_not_covers_tol {rnd : ℚ → ℚ} (hr : Rounding rnd) {z : Zond} {ws : Workspace} {R C : Nat} {e : ℚ}
    (hs : SetUp rnd z ws R C e) (he0 : 0 ≤ e) (he1 : e ≤ 1 / 10 ^ 12) (hC2 : (C : ℤ) ≤ 256 * wsW ws) (hR2 : (R : ℤ) ≤ 256 * wsH ws)
    (hws : inI32 ws.leftTop.x ∧ inI32 ws.leftTop.y ∧ inI32 ws.rightBot.x ∧ inI32 ws.rightBot.y) {lt rb : Coord}
    (hrect : inI32 lt.x ∧ inI32 lt.y ∧ inI32 rb.x ∧ inI32 rb.y) (hm : MissesACentre ws R C lt rb) :
    coversAll rnd z lt rb = false := by
  have hRq : (0 : ℚ) < R := by exact_mod_cast hs.rpos
  have hCq : (0 : ℚ) < C := by exact_mod_cast hs.cpos
  have ex : ∀ n : Int, inI32 n → rnd (n : ℚ) = n := by
    intro n hn
    apply hr.int
    rw [abs_le]; unfold inI32 at hn
    constructor <;> omega
  have hcx : 1 / 2 ^ 8 ≤ (wsW ws : ℚ) / C := by
    rw [le_div_iff₀ hCq]
    have : (C : ℚ) ≤ 256 * wsW ws := by exact_mod_cast hC2
    linarith
  have hcy : 1 / 2 ^ 8 ≤ (wsH ws : ℚ) / R := by
    rw [le_div_iff₀ hRq]
    have : (R : ℚ) ≤ 256 * wsH ws := by exact_mod_cast hR2
    linarith
  obtain ⟨i, j, hi, hj, h⟩ := hm
  have hi : (i : ℚ) + 1 ≤ R := by exact_mod_cast hi
  have hj : (j : ℚ) + 1 ≤ C := by exact_mod_cast hj
  have hi0 : (0 : ℚ) ≤ i := Nat.cast_nonneg _
  have hj0 : (0 : ℚ) ≤ j := Nat.cast_nonneg _
  have eW : (ws.rightBot.x : ℚ) = ws.leftTop.x + C * ((wsW ws : ℚ) / C) := by
    rw [mul_div_cancel₀ _ hCq.ne']; unfold wsW; push_cast; ring
  have eH : (ws.rightBot.y : ℚ) = ws.leftTop.y - R * ((wsH ws : ℚ) / R) := by
    rw [mul_div_cancel₀ _ hRq.ne']; unfold wsH; push_cast; ring
  have a1 := abs_lt.mp (centre_err_tol hr hws.1 hcx he0 he1).1
  have a2 := abs_lt.mp (centre_err_tol hr hws.2.2.1 hcx he0 he1).2
  have a3 := abs_lt.mp (centre_err_tol hr hws.2.1 hcy he0 he1).2
  have a4 := abs_lt.mp (centre_err_tol hr hws.2.2.2 hcy he0 he1).1
  have x0 : ∀ D : ℚ, 0 < D → 0 ≤ j * D ∧ (j + 1) * D ≤ C * D := fun D hD =>
    ⟨mul_nonneg hj0 hD.le, mul_le_mul_of_nonneg_right hj hD.le⟩
  have y0 : ∀ D : ℚ, 0 < D → 0 ≤ i * D ∧ (i + 1) * D ≤ R * D := fun D hD =>
    ⟨mul_nonneg hi0 hD.le, mul_le_mul_of_nonneg_right hi hD.le⟩
  have x0 := x0 _ (lt_of_lt_of_le (by norm_num) hcx)
  have y0 := y0 _ (lt_of_lt_of_le (by norm_num) hcy)
  unfold centreX centreY at h
  have hdx := hs.dx
  have hdy := hs.dy
  generalize (wsW ws : ℚ) / C = DX at *
  generalize (wsH ws : ℚ) / R = DY at *
  rw [← Bool.not_eq_true]
  intro hc
  simp only [coversAll, hdx, hdy, hs.wks, hs.eps, Fl.ofInt, Fl.div, Fl.mul, Fl.sub, Fl.add, Fl.le, Bool.and_eq_true,
    decide_eq_true_eq, show (2 : ℚ) ≠ 0 by norm_num, if_false] at hc
  rw [ex _ hrect.1, ex _ hrect.2.1, ex _ hrect.2.2.1, ex _ hrect.2.2.2, ex _ hws.1, ex _ hws.2.1, ex _ hws.2.2.1,
    ex _ hws.2.2.2] at hc
  obtain ⟨⟨c1, c2⟩, c3, c4⟩ := hc
  rw [add_one_mul] at x0 y0
  rcases h with h | h | h | h
  · linarith
  · rw [eW] at c2 a2; linarith
  · linarith
  · rw [eH] at c4 a4; linarith

open Moved in
theorem misses_not_covers {rnd : ℚ → ℚ} (hr : Rounding rnd) {z : Zond} {ws : Workspace} {R C : Nat}
    (hs : SetUp rnd z ws R C (rnd (1 / 10 ^ 13))) (hC2 : (C : ℤ) ≤ 256 * wsW ws) (hR2 : (R : ℤ) ≤ 256 * wsH ws)
    (hws : inI32 ws.leftTop.x ∧ inI32 ws.leftTop.y ∧ inI32 ws.rightBot.x ∧ inI32 ws.rightBot.y) {lt rb : Coord}
    (hrect : inI32 lt.x ∧ inI32 lt.y ∧ inI32 rb.x ∧ inI32 rb.y) (hm : MissesACentre ws R C lt rb) :
    coversAll rnd z lt rb = false :=
  misses_not_covers_tol hr hs (tol_range hr).1 (tol_range hr).2 hC2 hR2 hws hrect hm

/-- **C39** A rectangle that sticks out at the left or top and misses the centre of some cell by a thousandth of a cell is never
drawn: the call throws `invalid_argument` and leaves the bitmap unchanged, in `double` arithmetic. -/
theorem C39_left_top_misses (rnd : ℚ → ℚ) (hr : Rounding rnd) (z : Zond) (ws : Workspace) (R C : Nat)
    (hs : SetUp rnd z ws R C (rnd (1 / 10 ^ 13))) (hC2 : (C : ℤ) ≤ 256 * wsW ws) (hR2 : (R : ℤ) ≤ 256 * wsH ws)
    (hws : inI32 ws.leftTop.x ∧ inI32 ws.leftTop.y ∧ inI32 ws.rightBot.x ∧ inI32 ws.rightBot.y)
    (g : Geometry) (lt rb : Coord) (hg : RectGeom g lt rb) (hrect : inI32 lt.x ∧ inI32 lt.y ∧ inI32 rb.x ∧ inI32 rb.y)
    (hf : DiffsFit ws lt rb) (hout : lt.x < ws.leftTop.x ∨ ws.leftTop.y < lt.y) (hmiss : MissesACentre ws R C lt rb)
    (hx2 : colOf ws C rb.x ≤ 1073741824) (hy2 : rowOf ws R rb.y ≤ 1073741824) (m : BitMatrix) (hm : Built m) :
    zondGeometry rnd z (some g) m = .throw .invalidArgument m :=
  C39_left_top_throws rnd hr z ws R C _ hs g lt rb hg hf hout (misses_not_covers hr hs hC2 hR2 hws hrect hmiss) hx2 hy2 m hm

/-- **C37** A rectangle that misses the centre of some cell by a thousandth of a cell and one of whose corners is farther than
2^31-1 from the workspace corner is undefined behaviour. -/
theorem C37_overflow_misses (rnd : ℚ → ℚ) (hr : Rounding rnd) (z : Zond) (ws : Workspace) (R C : Nat)
    (hs : SetUp rnd z ws R C (rnd (1 / 10 ^ 13))) (hC2 : (C : ℤ) ≤ 256 * wsW ws) (hR2 : (R : ℤ) ≤ 256 * wsH ws)
    (hws : inI32 ws.leftTop.x ∧ inI32 ws.leftTop.y ∧ inI32 ws.rightBot.x ∧ inI32 ws.rightBot.y)
    (g : Geometry) (lt rb : Coord) (hg : RectGeom g lt rb) (hrect : inI32 lt.x ∧ inI32 lt.y ∧ inI32 rb.x ∧ inI32 rb.y)
    (hf : ¬ DiffsFit ws lt rb) (hmiss : MissesACentre ws R C lt rb) (m : BitMatrix) : zondGeometry rnd z (some g) m = .ub :=
  C37_overflow_ub rnd z g lt rb hg (by rw [hs.wks]; exact hf) (misses_not_covers hr hs hC2 hR2 hws hrect hmiss) m

/-- the hypotheses are met: a window of 4×4 units in 2×2 cells and a rectangle that sticks out at the left -/
example : MissesACentre ⟨⟨0, 4⟩, ⟨4, 0⟩⟩ 2 2 ⟨-5, 4⟩ ⟨2, 0⟩ ∧ DiffsFit ⟨⟨0, 4⟩, ⟨4, 0⟩⟩ ⟨-5, 4⟩ ⟨2, 0⟩ ∧
    colOf ⟨⟨0, 4⟩, ⟨4, 0⟩⟩ 2 2 ≤ 1073741824 ∧ rowOf ⟨⟨0, 4⟩, ⟨4, 0⟩⟩ 2 0 ≤ 1073741824 ∧
    ∃ z, SetUp rne z ⟨⟨0, 4⟩, ⟨4, 0⟩⟩ 2 2 (rne (1 / 10 ^ 13)) := by
  refine ⟨⟨0, 1, by norm_num, by norm_num, .inr (.inl ?_)⟩, by unfold DiffsFit; decide, ?_, ?_, ?_⟩
  · unfold centreX wsW; norm_num
  · unfold colOf wsW; norm_num
  · unfold rowOf wsH; norm_num
  · exact ⟨{ bound := ⟨0, 1, 0, 1⟩, ws := ⟨⟨0, 4⟩, ⟨4, 0⟩⟩, dx := .fin (rne ((wsW ⟨⟨0, 4⟩, ⟨4, 0⟩⟩ : ℚ) / (2 : Nat))), dy := .fin (rne ((wsH ⟨⟨0, 4⟩, ⟨4, 0⟩⟩ : ℚ) / (2 : Nat))), eps := .fin (rne (1 / 10 ^ 13)) },
      rfl, rfl, rfl, rfl, rfl, by norm_num, by norm_num, by norm_num, by norm_num, by decide, by decide⟩

end Verif.Props
