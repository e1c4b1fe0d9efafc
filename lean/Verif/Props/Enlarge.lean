import Verif.Spec.Enlarge
import Verif.Props.Zond

/-!
C72: what happens to the drawing when a rectangle is enlarged.
-/

namespace Verif.Props
open Verif BitMatrix Zond Spec Ieee

theorem axisCell_grow {b b' e e' t : ℚ} {n j : Nat} (hb : b' ≤ b) (hbe : b ≤ e) (hee : e ≤ e') (ht : 0 ≤ t)
    (h : AxisCell b e t n j) : ¬ AxisCell b' e' t n j ↔ Slips e e' t n j := by
  obtain ⟨h1, h2⟩ := h
  unfold AxisCell Slips
  have hb1 : b' ≤ j + 1 / 2 + t := le_trans hb h1
  constructor
  · intro hn
    rw [not_and] at hn
    have hn := hn hb1
    rw [not_or] at hn
    obtain ⟨n1, n2⟩ := hn
    rw [not_le] at n1
    rcases h2 with h2 | ⟨hf, h3⟩
    · linarith
    · have hlt : ⌊b⌋ < ⌊e⌋ := lt_of_le_of_ne (Int.floor_mono hbe) hf
      have hlt' : ⌊b'⌋ < ⌊e'⌋ := lt_of_le_of_lt (Int.floor_mono hb) (lt_of_lt_of_le hlt (Int.floor_mono hee))
      have n3 : ¬((e' < (n : ℚ) - 1 ∧ 1 / 2 ≤ e' - ⌊e'⌋ ∧ (j : ℤ) = ⌊e'⌋ + 1) ∨ ((n : ℚ) - 1 ≤ e' ∧ j + 1 = n)) :=
        fun hx => n2 ⟨ne_of_lt hlt', hx⟩
      rcases h3 with ⟨h4, h5, h6⟩ | ⟨h4, h5⟩
      · have h6q : (j : ℚ) = (⌊e⌋ : ℚ) + 1 := by exact_mod_cast h6
        have fe := Int.lt_floor_add_one e
        have fle := Int.floor_le e
        have hje : (j : ℚ) ≤ e' := by
          by_contra hlt2
          rw [not_le] at hlt2
          have hfl : ⌊e'⌋ = ⌊e⌋ := by
            rw [Int.floor_eq_iff]
            constructor <;> linarith
          have hjn : (j : ℚ) ≤ n - 1 := by
            have : ⌊e⌋ < (n : ℤ) - 1 := by
              rw [Int.floor_lt]; push_cast; exact h4
            have : (j : ℤ) ≤ (n : ℤ) - 1 := by omega
            exact_mod_cast this
          apply n3
          left
          rw [hfl]
          exact ⟨by linarith, by linarith, h6⟩
        refine ⟨?_, by linarith, by linarith, hje, n1⟩
        by_contra hjn
        have : ⌊e⌋ < (n : ℤ) - 1 := by
          rw [Int.floor_lt]; push_cast; exact h4
        have hj : j + 1 = n := by omega
        apply n3
        right
        refine ⟨?_, hj⟩
        have : (j : ℚ) + 1 = n := by exact_mod_cast hj
        linarith
      · exact absurd (Or.inr ⟨le_trans h4 hee, h5⟩) n3
  · rintro ⟨c1, c2, c3, c4, c5⟩ ⟨-, hx⟩
    have c1q : (j : ℚ) + 2 ≤ n := by exact_mod_cast c1
    have hfl : ⌊e'⌋ = j := by
      rw [Int.floor_eq_iff]
      constructor
      · push_cast; exact c4
      · push_cast; linarith
    rcases hx with hx | ⟨-, ⟨-, -, hx⟩ | ⟨hx, -⟩⟩
    · linarith
    · rw [hfl] at hx; omega
    · linarith

/-- **C72** Exactly which cells disappear when a rectangle is enlarged: a cell drawn for the small rectangle is not drawn for the
large one if and only if it is in a column, or in a row, the end of the rectangle has slipped into. -/
theorem C72_exact (z : Zond) (ws : Workspace) (R C : Nat) (ep : ℚ) (hs : SetUp id z ws R C ep)
    (hep : 0 ≤ ep) (hex : ep * ((wsW ws : ℚ) / C) < 1 / 2) (hey : ep * ((wsH ws : ℚ) / R) < 1 / 2)
    (g g' : Geometry) (lt rb lt' rb' : Coord) (hg : RectGeom g lt rb) (hg' : RectGeom g' lt' rb')
    (hf : DiffsFit ws lt rb) (hf' : DiffsFit ws lt' rb') (hc : Contains lt' rb' lt rb)
    (hx0 : ws.leftTop.x ≤ lt'.x) (hx1 : lt.x ≤ rb.x) (hy0 : lt'.y ≤ ws.leftTop.y) (hy1 : rb.y ≤ lt.y)
    (hx2 : colOf ws C rb'.x < 2147483648) (hy2 : rowOf ws R rb'.y < 2147483648)
    (m : BitMatrix) (hm : Built m) (hR : m.isize = R) (hC : m.jsize = C) :
    ∃ m1 m2, zondGeometry id z (some g) m = .ok () m1 ∧ zondGeometry id z (some g') m = .ok () m2 ∧
      ∀ i j, i < R → j < C → Lit m1 i j → (¬ Lit m2 i j ↔ ¬ Lit m i j ∧
        (Slips (colOf ws C rb.x) (colOf ws C rb'.x) (ep * ((wsW ws : ℚ) / C)) C j ∨
         Slips (rowOf ws R rb.y) (rowOf ws R rb'.y) (ep * ((wsH ws : ℚ) / R)) R i)) := by
  have hW : (0 : ℚ) < wsW ws := by exact_mod_cast hs.wpos
  have hH : (0 : ℚ) < wsH ws := by exact_mod_cast hs.hpos
  have hRq : (0 : ℚ) < R := by exact_mod_cast hs.rpos
  have hCq : (0 : ℚ) < C := by exact_mod_cast hs.cpos
  have pdx : 0 < (wsW ws : ℚ) / C := div_pos hW hCq
  have pdy : 0 < (wsH ws : ℚ) / R := div_pos hH hRq
  have colm : ∀ {x y : Int}, x ≤ y → colOf ws C x ≤ colOf ws C y := by
    intro x y h
    unfold colOf
    apply div_le_div_of_nonneg_right _ pdx.le
    exact_mod_cast Int.sub_le_sub_right h _
  have rowm : ∀ {x y : Int}, y ≤ x → rowOf ws R x ≤ rowOf ws R y := by
    intro x y h
    unfold rowOf
    apply div_le_div_of_nonneg_right _ pdy.le
    exact_mod_cast Int.sub_le_sub_left h _
  have c1 := hc.left
  have c2 := hc.right
  have c3 := hc.top
  have c4 := hc.bottom
  obtain ⟨m1, e1, l1⟩ := C39_exact_cells z ws R C ep hs hep hex hey g lt rb hg hf (by omega) hx1 (by omega) hy1
    (lt_of_le_of_lt (colm c2) hx2) (lt_of_le_of_lt (rowm c4) hy2) m hm hR hC
  obtain ⟨m2, e2, l2⟩ := C39_exact_cells z ws R C ep hs hep hex hey g' lt' rb' hg' hf' hx0 (by omega) hy0 (by omega)
    hx2 hy2 m hm hR hC
  refine ⟨m1, m2, e1, e2, fun i j hi hj h => ?_⟩
  rw [l2 i j hi hj]
  rcases (l1 i j hi hj).1 h with hl | ⟨hr, hcl⟩
  · exact ⟨fun hn => absurd (Or.inl hl) hn, fun hn => absurd hl hn.1⟩
  · have k1 := axisCell_grow (colm c1) (colm hx1) (colm c2) (by positivity) hcl
    have k2 := axisCell_grow (rowm c3) (rowm hy1) (rowm c4) (by positivity) hr
    rw [← k1, ← k2]
    tauto

/-- **C72** Moving the left or the top side outwards never removes a cell. -/
theorem C72_left_top (z : Zond) (ws : Workspace) (R C : Nat) (ep : ℚ) (hs : SetUp id z ws R C ep)
    (hep : 0 ≤ ep) (hex : ep * ((wsW ws : ℚ) / C) < 1 / 2) (hey : ep * ((wsH ws : ℚ) / R) < 1 / 2)
    (g g' : Geometry) (lt rb lt' : Coord) (hg : RectGeom g lt rb) (hg' : RectGeom g' lt' rb)
    (hf : DiffsFit ws lt rb) (hf' : DiffsFit ws lt' rb)
    (hx0 : ws.leftTop.x ≤ lt'.x) (hx : lt'.x ≤ lt.x) (hx1 : lt.x ≤ rb.x)
    (hy0 : lt'.y ≤ ws.leftTop.y) (hy : lt.y ≤ lt'.y) (hy1 : rb.y ≤ lt.y)
    (hx2 : colOf ws C rb.x < 2147483648) (hy2 : rowOf ws R rb.y < 2147483648)
    (m : BitMatrix) (hm : Built m) (hR : m.isize = R) (hC : m.jsize = C) :
    ∃ m1 m2, zondGeometry id z (some g) m = .ok () m1 ∧ zondGeometry id z (some g') m = .ok () m2 ∧
      ∀ i j, i < R → j < C → Lit m1 i j → Lit m2 i j := by
  obtain ⟨m1, m2, e1, e2, h⟩ := C72_exact z ws R C ep hs hep hex hey g g' lt rb lt' rb hg hg' hf hf'
    ⟨hx, le_refl _, hy, le_refl _⟩ hx0 hx1 hy0 hy1 hx2 hy2 m hm hR hC
  refine ⟨m1, m2, e1, e2, fun i j hi hj hl => ?_⟩
  by_contra hn
  obtain ⟨-, ⟨-, -, a, b, -⟩ | ⟨-, -, a, b, -⟩⟩ := (h i j hi hj hl).1 hn
  · exact absurd a (not_lt.2 b)
  · exact absurd a (not_lt.2 b)

/-- **C72** Moving the right side outwards can remove a column: if the small rectangle, not all in one column, ends in the second
half of the column before `j`, and the large one in the first half of `j`, and `j` is not the last column, then column `j` is
drawn for the small rectangle and not for the large one. -/
theorem C72_can_shrink (z : Zond) (ws : Workspace) (R C : Nat) (ep : ℚ) (hs : SetUp id z ws R C ep)
    (hep : 0 ≤ ep) (hex : ep * ((wsW ws : ℚ) / C) < 1 / 2) (hey : ep * ((wsH ws : ℚ) / R) < 1 / 2)
    (g g' : Geometry) (lt rb rb' : Coord) (hg : RectGeom g lt rb) (hg' : RectGeom g' lt rb')
    (hf : DiffsFit ws lt rb) (hf' : DiffsFit ws lt rb') (hyy : rb'.y = rb.y)
    (hx0 : ws.leftTop.x ≤ lt.x) (hx1 : lt.x ≤ rb.x) (hy0 : lt.y ≤ ws.leftTop.y) (hy1 : rb.y ≤ lt.y)
    (hy2 : rowOf ws R rb.y < 2147483648) (j : Nat)
    (hb : colOf ws C lt.x + 1 < j) (hsl : Slips (colOf ws C rb.x) (colOf ws C rb'.x) (ep * ((wsW ws : ℚ) / C)) C j)
    (m : BitMatrix) (hm : Built m) (hR : m.isize = R) (hC : m.jsize = C) (i : Nat) (hi : i < R) (hl : ¬ Lit m i j)
    (hic : (rb.y : ℚ) ≤ centreY ws R i ∧ centreY ws R i ≤ lt.y) :
    ∃ m1 m2, zondGeometry id z (some g) m = .ok () m1 ∧ zondGeometry id z (some g') m = .ok () m2 ∧
      Lit m1 i j ∧ ¬ Lit m2 i j := by
  have hW : (0 : ℚ) < wsW ws := by exact_mod_cast hs.wpos
  have hH : (0 : ℚ) < wsH ws := by exact_mod_cast hs.hpos
  have hRq : (0 : ℚ) < R := by exact_mod_cast hs.rpos
  have hCq : (0 : ℚ) < C := by exact_mod_cast hs.cpos
  have pdx : 0 < (wsW ws : ℚ) / C := div_pos hW hCq
  have pdy : 0 < (wsH ws : ℚ) / R := div_pos hH hRq
  obtain ⟨s1, s2, s3, s4, s5⟩ := hsl
  have hCmax : (C : ℚ) ≤ 2147483647 := by
    have := hs.cmax
    exact_mod_cast this
  have s1q : (j : ℚ) + 2 ≤ C := by exact_mod_cast s1
  have tpos : 0 ≤ ep * ((wsW ws : ℚ) / C) := by positivity
  have rpos : 0 ≤ ep * ((wsH ws : ℚ) / R) := by positivity
  have hxx : rb.x ≤ rb'.x := by
    by_contra hlt
    rw [not_le] at hlt
    have : colOf ws C rb'.x ≤ colOf ws C rb.x := by
      unfold colOf
      apply div_le_div_of_nonneg_right _ pdx.le
      exact_mod_cast Int.sub_le_sub_right hlt.le _
    linarith
  obtain ⟨m1, m2, e1, e2, h⟩ := C72_exact z ws R C ep hs hep hex hey g g' lt rb lt rb' hg hg' hf hf'
    ⟨le_refl _, hxx, le_refl _, by omega⟩ hx0 hx1 hy0 hy1 (by linarith) (by rw [hyy]; exact hy2) m hm hR hC
  obtain ⟨m1', e1', l1⟩ := C39_exact_cells z ws R C ep hs hep hex hey g lt rb hg hf hx0 hx1 hy0 hy1
    (by linarith) hy2 m hm hR hC
  obtain rfl : m1 = m1' := by rw [e1] at e1'; cases e1'; rfl
  have hlit : Lit m1 i j := by
    rw [l1 i j hi (by omega)]
    right
    have hfl : ⌊colOf ws C rb.x⌋ = (j : ℤ) - 1 := by
      rw [Int.floor_eq_iff]; push_cast
      constructor <;> linarith
    have hfb : ⌊colOf ws C lt.x⌋ < (j : ℤ) - 1 := by
      rw [Int.floor_lt]; push_cast; linarith
    refine ⟨⟨?_, Or.inl ?_⟩, ⟨by linarith, Or.inr ⟨by omega, Or.inl ⟨by linarith, ?_, by omega⟩⟩⟩⟩
    · have := hic.2
      unfold centreY at this
      unfold rowOf
      rw [div_le_iff₀ pdy]; push_cast
      nlinarith
    · have := hic.1
      unfold centreY at this
      have : (i : ℚ) + 1 / 2 ≤ rowOf ws R rb.y := by
        unfold rowOf
        rw [le_div_iff₀ pdy]; push_cast
        linarith
      linarith
    · rw [hfl]; push_cast; linarith
  exact ⟨m1, m2, e1, e2, hlit, ((h i j hi (by omega) hlit).2 ⟨hl, Or.inl ⟨s1, s2, s3, s4, s5⟩⟩)⟩

/-- the 10 × 10 grid of 10 × 10 cells, in `double` arithmetic: `20..45` draws columns 2 to 5, the larger `20..52` only 2 to 4 -/
example : ∃ m1 m2, zondGeometry rne (exZond rne) (some (exRect 20 80 45 60)) (BitMatrix.new Alloc.ok 10 10) = .ok () m1 ∧
    zondGeometry rne (exZond rne) (some (exRect 20 80 52 60)) (BitMatrix.new Alloc.ok 10 10) = .ok () m2 ∧
    Lit m1 3 5 ∧ ¬ Lit m2 3 5 := by
  have key : (match zondGeometry rne (exZond rne) (some (exRect 20 80 45 60)) (BitMatrix.new Alloc.ok 10 10),
      zondGeometry rne (exZond rne) (some (exRect 20 80 52 60)) (BitMatrix.new Alloc.ok 10 10) with
      | .ok () m1, .ok () m2 => decide (BitMatrix.get m1 3 5 = .ok true ∧ BitMatrix.get m2 3 5 ≠ .ok true)
      | _, _ => false) = true := by decide +kernel
  split at key
  · rename_i m1 m2 h1 h2
    exact ⟨m1, m2, h1, h2, (of_decide_eq_true key).1, (of_decide_eq_true key).2⟩
  · cases key

/-- … and by the theorem, in exact arithmetic -/
example : ∃ m1 m2, zondGeometry id (exZond id) (some (exRect 20 80 45 60)) (BitMatrix.new Alloc.ok 10 10) = .ok () m1 ∧
    zondGeometry id (exZond id) (some (exRect 20 80 52 60)) (BitMatrix.new Alloc.ok 10 10) = .ok () m2 ∧
    Lit m1 3 5 ∧ ¬ Lit m2 3 5 := by
  refine C72_can_shrink (exZond id) exWs 10 10 _ (exSetUp id) (by norm_num) (by unfold wsW exWs; norm_num)
    (by unfold wsH exWs; norm_num) (exRect 20 80 45 60) (exRect 20 80 52 60) ⟨20, 80⟩ ⟨45, 60⟩ ⟨52, 60⟩ ⟨rfl, _, _, rfl⟩
    ⟨rfl, _, _, rfl⟩ (by unfold DiffsFit inI32; decide) (by unfold DiffsFit inI32; decide) rfl (by decide) (by decide) (by decide)
    (by decide) (by unfold rowOf wsH exWs; norm_num) 5 (by unfold colOf wsW exWs; norm_num)
    (by unfold Slips colOf wsW exWs; norm_num) _ (.new 10 10 (by norm_num) (by norm_num)) rfl rfl 3 (by norm_num) ?_
    (by unfold centreY wsH exWs; norm_num)
  unfold Lit; decide

end Verif.Props
