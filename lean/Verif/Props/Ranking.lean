import Verif.Props.AreaLookup

/-! C09, C10, C92: ranking by `Compare` and `OneRatio`. -/

namespace Verif.Props
open Verif BitMatrix Zond Spec Ieee Generator Client

/-- the two roundings of `Compare` -/
theorem compare_rounding {d : ℚ} (d0 : 0 ≤ d) (d1 : d ≤ 1) : |rne (1 - rne d) - (1 - d)| ≤ 1 / 2 ^ 52 := by
  have z0 : rne 0 = 0 := rne_rounding.zero
  have z1 : rne 1 = 1 := by simpa using rne_rounding.exact 1 0 (by norm_num)
  have b0 : 0 ≤ rne d := by rw [← z0]; exact rne_rounding.mono _ _ d0
  have b1 : rne d ≤ 1 := by rw [← z1]; exact rne_rounding.mono _ _ d1
  have r1 := rne_rounding.relErr d
  have r2 := rne_rounding.relErr (1 - rne d)
  rw [abs_of_nonneg d0] at r1
  rw [abs_of_nonneg (show 0 ≤ 1 - rne d by linarith)] at r2
  have t1 : d / 2 ^ 53 ≤ 1 / 2 ^ 53 := div_le_div_of_nonneg_right d1 (by norm_num)
  have t2 : (1 - rne d) / 2 ^ 53 ≤ 1 / 2 ^ 53 := div_le_div_of_nonneg_right (by linarith) (by norm_num)
  rw [abs_le] at *
  have p : (1 : ℚ) / 2 ^ 52 = 1 / 2 ^ 53 + 1 / 2 ^ 53 := by norm_num
  rw [p]
  constructor <;> linarith [r1.1, r1.2, r2.1, r2.2]

theorem fraction_gap {x y N : Nat} (hN : 0 < N) (h : x < y) : (x : ℚ) / N + 1 / N ≤ y / N := by
  rw [← add_div]
  apply div_le_div_of_nonneg_right _ (by positivity)
  exact_mod_cast h

theorem compare_lt {x y N : Nat} (hN : 0 < N) (hs : N ≤ 2 ^ 50) (hy : y ≤ N) (h : x < y) :
    rne (1 - rne ((y : ℚ) / N)) < rne (1 - rne ((x : ℚ) / N)) := by
  have g := fraction_gap hN h
  have hN' : (0 : ℚ) < N := by exact_mod_cast hN
  have small : (1 : ℚ) / 2 ^ 50 ≤ 1 / N := one_div_le_one_div_of_le hN' (by exact_mod_cast hs)
  have le1 : ∀ z : Nat, z ≤ N → (z : ℚ) / N ≤ 1 := fun z hz => by
    rw [div_le_one hN']
    exact_mod_cast hz
  have e1 := abs_le.1 (compare_rounding (d := (x : ℚ) / N) (by positivity) (le1 x (by omega)))
  have e2 := abs_le.1 (compare_rounding (d := (y : ℚ) / N) (by positivity) (le1 y hy))
  have p : (1 : ℚ) / 2 ^ 52 + 1 / 2 ^ 52 < 1 / 2 ^ 50 := by norm_num
  linarith [e1.1, e2.2]

/-- **C09** `Compare` ranks by the number of differing cells, in `double`, for bitmaps of at most 2^50 cells: of two bitmaps the one with fewer
cells different from a third gets the strictly larger value, and equal numbers give the same value. -/
theorem C09_ranking (a b q : BitMatrix) (ha : Built a) (hb : Built b) (hq : Built q) (h1 : a.isize = q.isize) (h2 : a.jsize = q.jsize)
    (h1' : b.isize = q.isize) (h2' : b.jsize = q.jsize) (h3 : 0 < q.isize) (h4 : 0 < q.jsize) (hs : q.isize * q.jsize ≤ 2 ^ 50) :
    ∃ x y : ℚ, BitMatrix.compare rne Alloc.ok a q = .ok (.fin x) ∧ BitMatrix.compare rne Alloc.ok b q = .ok (.fin y) ∧
      (y < x ↔ diffCount a q < diffCount b q) ∧ (x = y ↔ diffCount a q = diffCount b q) := by
  have hb53 : q.isize * q.jsize ≤ 2 ^ 53 := le_trans hs (by norm_num)
  refine ⟨_, _, (C09_compare a q ha hq h1 h2 (by omega) (by omega) (by rw [h1, h2]; exact hb53)).2,
    (C09_compare b q hb hq h1' h2' (by omega) (by omega) (by rw [h1', h2']; exact hb53)).2, ?_⟩
  rw [h1, h2, h1', h2']
  have la := diffCount_le a q
  have lb := diffCount_le b q
  rw [h1, h2] at la
  rw [h1', h2'] at lb
  have hN : 0 < q.isize * q.jsize := Nat.mul_pos h3 h4
  rcases lt_trichotomy (diffCount a q) (diffCount b q) with h | h | h
  · have := compare_lt hN hs lb h
    exact ⟨⟨fun _ => h, fun _ => this⟩, ⟨fun e => absurd e this.ne', fun e => absurd e h.ne⟩⟩
  · rw [h]
    exact ⟨⟨fun e => absurd e (lt_irrefl _), fun e => absurd e (lt_irrefl _)⟩, ⟨fun _ => rfl, fun _ => rfl⟩⟩
  · have := compare_lt hN hs la h
    exact ⟨⟨fun e => absurd e (lt_asymm this), fun e => absurd e (lt_asymm h)⟩, ⟨fun e => absurd e this.ne, fun e => absurd e h.ne'⟩⟩

/-- **C10** `OneRatio` ranks by the number of ones, in `double`, for bitmaps of the same size of at most 2^50 cells. -/
theorem C10_ranking (a b : BitMatrix) (ha : Built a) (hb : Built b) (h1 : a.isize = b.isize) (h2 : a.jsize = b.jsize)
    (h3 : 0 < a.isize) (h4 : 0 < a.jsize) (hs : a.isize * a.jsize ≤ 2 ^ 50) :
    ∃ x y : ℚ, BitMatrix.oneRatio rne a = .ok (.fin x) ∧ BitMatrix.oneRatio rne b = .ok (.fin y) ∧
      (x < y ↔ countOf a true < countOf b true) ∧ (x = y ↔ countOf a true = countOf b true) := by
  have hb53 : a.isize * a.jsize ≤ 2 ^ 53 := le_trans hs (by norm_num)
  refine ⟨_, _, (C10_ratio a ha h3 h4 hb53).2.2.1, (C10_ratio b hb (by omega) (by omega) (by rw [← h1, ← h2]; exact hb53)).2.2.1, ?_⟩
  have key : ∀ x y N : Nat, 0 < N → N ≤ 2 ^ 50 → y ≤ N → x < y → rne ((x : ℚ) / N) < rne ((y : ℚ) / N) := by
    intro x y N hN hs hy h
    have g := fraction_gap hN h
    have hN' : (0 : ℚ) < N := by exact_mod_cast hN
    have small : (1 : ℚ) / 2 ^ 50 ≤ 1 / N := one_div_le_one_div_of_le hN' (by exact_mod_cast hs)
    have le1 : ∀ z : Nat, z ≤ N → (z : ℚ) / N / 2 ^ 53 ≤ 1 / 2 ^ 53 := fun z hz =>
      div_le_div_of_nonneg_right (by rw [div_le_one hN']; exact_mod_cast hz) (by norm_num)
    have e1 := rne_rounding.relErr ((x : ℚ) / N)
    have e2 := rne_rounding.relErr ((y : ℚ) / N)
    rw [abs_of_nonneg (a := (x : ℚ) / N) (by positivity), abs_le] at e1
    rw [abs_of_nonneg (a := (y : ℚ) / N) (by positivity), abs_le] at e2
    have p : (1 : ℚ) / 2 ^ 53 + 1 / 2 ^ 53 < 1 / 2 ^ 50 := by norm_num
    linarith [e1.2, e2.1, le1 x (by omega), le1 y hy]
  rw [← h1, ← h2]
  have la : countOf a true ≤ a.isize * a.jsize := by
    unfold countOf
    refine le_trans (Finset.card_filter_le _ _) ?_
    unfold cells
    rw [Finset.card_product, Finset.card_range, Finset.card_range]
  have lb : countOf b true ≤ a.isize * a.jsize := by
    rw [h1, h2]
    unfold countOf
    refine le_trans (Finset.card_filter_le _ _) ?_
    unfold cells
    rw [Finset.card_product, Finset.card_range, Finset.card_range]
  have hN : 0 < a.isize * a.jsize := Nat.mul_pos h3 h4
  rcases lt_trichotomy (countOf a true) (countOf b true) with h | h | h
  · have := key _ _ _ hN hs lb h
    exact ⟨⟨fun _ => h, fun _ => this⟩, ⟨fun e => absurd e this.ne, fun e => absurd e h.ne⟩⟩
  · rw [h]
    exact ⟨⟨fun e => absurd e (lt_irrefl _), fun e => absurd e (lt_irrefl _)⟩, ⟨fun _ => rfl, fun _ => rfl⟩⟩
  · have := key _ _ _ hN hs la h
    exact ⟨⟨fun e => absurd e (lt_asymm this), fun e => absurd e (lt_asymm h)⟩, ⟨fun e => absurd e this.ne', fun e => absurd e h.ne'⟩⟩

/-- **C92** … so that a search for the stored bitmap with the largest `Compare` finds the layout that differs in the smaller area: of two lists of
rectangles shown in the same window and grid (at most 2^50 cells) the one that differs from the query in a smaller area, by more than the rims,
gets the strictly larger value. -/
theorem C92_ranking (mn mx : Coord) (R C : Nat) (hR : 0 < R) (hC : 0 < C) (hw : mn.x < mx.x) (hh : mn.y < mx.y)
    (rs rs' qs : List Msk.Rect) (hpos : ∀ r ∈ rs ++ rs' ++ qs, 0 ≤ r.w ∧ 0 ≤ r.h) (m m' q : BitMatrix) (hm : Built m) (hm' : Built m')
    (hq : Built q) (hs : Shows mn mx R C rs m) (hs' : Shows mn mx R C rs' m') (hsq : Shows mn mx R C qs q) (hsz : R * C ≤ 2 ^ 50)
    (hgap : differingArea mn mx rs qs + ((rs ++ qs).map (rimCells mn mx R C 0)).sum / (R * C) <
      differingArea mn mx rs' qs - ((rs' ++ qs).map (rimCells mn mx R C 0)).sum / (R * C)) :
    ∃ x y : ℚ, BitMatrix.compare rne Alloc.ok m q = .ok (.fin x) ∧ BitMatrix.compare rne Alloc.ok m' q = .ok (.fin y) ∧ y < x := by
  have hb53 : R * C ≤ 2 ^ 53 := le_trans hsz (by norm_num)
  obtain ⟨x, y, c1, c2, c3, -⟩ := C09_ranking m m' q hm hm' hq (hs.rows.trans hsq.rows.symm) (hs.cols.trans hsq.cols.symm)
    (hs'.rows.trans hsq.rows.symm) (hs'.cols.trans hsq.cols.symm) (by rw [hsq.rows]; exact hR) (by rw [hsq.cols]; exact hC)
    (by rw [hsq.rows, hsq.cols]; exact hsz)
  refine ⟨x, y, c1, c2, c3.2 ?_⟩
  have d1 := abs_le.1 (diff_area mn mx R C hR hC hw hh rs qs (fun r hr => hpos r (by
    simp only [List.mem_append] at hr ⊢; tauto)) m q hm hq hs hsq hb53)
  have d2 := abs_le.1 (diff_area mn mx R C hR hC hw hh rs' qs (fun r hr => hpos r (by
    simp only [List.mem_append] at hr ⊢; tauto)) m' q hm' hq hs' hsq hb53)
  have : (diffCount m q : ℚ) / (R * C) < diffCount m' q / (R * C) := by linarith [d1.2, d2.1]
  rw [div_lt_div_iff_of_pos_right (by positivity)] at this
  exact_mod_cast this

/-! ### the hypotheses can be met -/

/-- two bitmaps of 123 × 456 cells that differ from a third in one and in two cells -/
example : ∃ (a b q : BitMatrix) (x y : ℚ), BitMatrix.compare rne Alloc.ok a q = .ok (.fin x) ∧ BitMatrix.compare rne Alloc.ok b q = .ok (.fin y) ∧
    y < x := by
  obtain ⟨z, a, b, hz, ha, hb, z1, z2, a1, a2, b1, b2, d1, d2, d3⟩ :=
    witness 123 456 (by omega) (by omega) (by norm_num) (by norm_num)
  obtain ⟨x, y, c1, c2, c3, -⟩ := C09_ranking a b z ha hb hz (by omega) (by omega) (by omega) (by omega) (by omega) (by omega)
    (by rw [z1, z2]; norm_num)
  refine ⟨a, b, z, x, y, c1, c2, c3.2 ?_⟩
  rw [diffCount_symm a z (by omega) (by omega), diffCount_symm b z (by omega) (by omega)]
  omega

/-- two bitmaps with no and with one cell set -/
example : ∃ (a b : BitMatrix) (x y : ℚ), BitMatrix.oneRatio rne a = .ok (.fin x) ∧ BitMatrix.oneRatio rne b = .ok (.fin y) ∧ x < y := by
  have hb : Built (BitMatrix.new Alloc.ok 2 5) := .new 2 5 (by norm_num) (by norm_num)
  have e : BitMatrix.set 1 3 true (BitMatrix.new Alloc.ok 2 5) = .ok () ⟨[[0], [16]], 2, 5⟩ := by decide +kernel
  obtain ⟨x, y, c1, c2, c3, -⟩ := C10_ranking (BitMatrix.new Alloc.ok 2 5) ⟨[[0], [16]], 2, 5⟩ hb (.set hb e) rfl rfl (by decide +kernel)
    (by decide +kernel) (by decide +kernel)
  exact ⟨_, _, x, y, c1, c2, c3.2 (by decide +kernel)⟩

/-- The rectangle `23..57 × 63..81`, shown with 70 × 70 cells in the window `15..65 × 50..100`, is closer to itself than the empty bitmap is. -/
example : ∃ (m : BitMatrix) (x y : ℚ), Built m ∧ BitMatrix.compare rne Alloc.ok m m = .ok (.fin x) ∧
    BitMatrix.compare rne Alloc.ok (blank 70 70) m = .ok (.fin y) ∧ y < x := by
  obtain ⟨w, -, h⟩ := render_visible exWhole_plain 7 (fun _ => {}) (by simp)
  have f1 : onLayer 23 exWhole = [⟨23, 63, 34, 18, "ME"⟩] := rfl
  have v1 : visible ⟨15, 50⟩ ⟨65, 100⟩ 23 exWhole = [⟨23, 63, 34, 18, "ME"⟩] := rfl
  obtain ⟨g, m, g1, _, _, b, s⟩ := h rne rne_rounding ⟨15, 50⟩ ⟨65, 100⟩ 70 70
    ⟨by unfold inI32; decide, by unfold inI32; decide, by unfold inI32; decide, by decide, by decide, by decide, by decide, by decide, by decide⟩
    Alloc.ok rfl ⟨fun _ => w.data, w.heap⟩ 0 rfl rfl 0 0 23 (by
      rw [f1]
      intro q hq _
      rw [List.mem_singleton] at hq
      subst hq
      exact .inl ⟨by decide, by decide, by unfold inI32; decide, by unfold inI32; decide, by decide, by decide⟩)
  rw [v1] at s
  obtain ⟨x, y, c1, c2, c3⟩ := C92_ranking ⟨15, 50⟩ ⟨65, 100⟩ 70 70 (by decide) (by decide) (by decide) (by decide) _ [] _ (by simp) m (blank 70 70) m
    b (built_blank (by omega) (by omega)) b s ⟨rfl, rfl, by simp, fun i j h => absurd h blank_dark⟩ s (by norm_num) (by
      have gap := C92_gap ⟨15, 50⟩ ⟨65, 100⟩ [] [⟨23, 63, 34, 18, "ME"⟩]
      rw [C91_one_rectangle _ _ _ (by decide) (by decide) (by decide) (by decide) (by decide) (by decide)] at gap
      have e : coveredArea ⟨15, 50⟩ ⟨65, 100⟩ [] = 0 := by simp [coveredArea]
      have e' : differingArea ⟨15, 50⟩ ⟨65, 100⟩ [⟨23, 63, 34, 18, "ME"⟩] [⟨23, 63, 34, 18, "ME"⟩] = 0 := by simp [differingArea]
      rw [e] at gap
      rw [e']
      simp only [List.cons_append, List.nil_append, List.map_cons, List.map_nil, List.sum_cons, List.sum_nil, rimCells]
      norm_num at gap ⊢
      linarith)
  exact ⟨m, x, y, b, c1, c2, c3⟩

end Verif.Props
