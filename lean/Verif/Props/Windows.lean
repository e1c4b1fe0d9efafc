import Verif.Props.Union
import Verif.Props.ZondCover
import Verif.Spec.Windows

/-! C90: one layout seen through two windows on the same grid of cells. -/

namespace Verif.Props
open Verif BitMatrix Zond Spec Ieee Generator Client

/-- one axis: what a rectangle draws in a window and in the part of a larger window it takes up -/
theorem axis_window {b e t : ℚ} (hbe : b ≤ e) (ht : 0 ≤ t) {n n' l j : Nat} (hj : j < n) (hl : l + n ≤ n') :
    AxisCell b e t n j ↔ AxisCell (b + l) (e + l) t n' (j + l) ∨ Rim b e t n n' l j := by
  rw [axisCell_iff hbe hj, axisCell_iff (by linarith : b + l ≤ e + l) (by omega : j + l < n')]
  have hfl : ⌊b + (l : ℚ)⌋ ≠ ⌊e + (l : ℚ)⌋ ↔ ⌊b⌋ ≠ ⌊e⌋ := by
    rw [Int.floor_add_natCast, Int.floor_add_natCast]; omega
  rw [hfl]
  push_cast
  have e1 : (b + l ≤ (j : ℚ) + l + 1 / 2 + t) ↔ b ≤ j + 1 / 2 + t := by constructor <;> intro h <;> linarith
  have e2 : ((j : ℚ) + l + 1 / 2 ≤ e + l + t) ↔ (j : ℚ) + 1 / 2 ≤ e + t := by constructor <;> intro h <;> linarith
  have e3 : (b + l < (j : ℚ) + l - 1) ↔ b < (j : ℚ) - 1 := by constructor <;> intro h <;> linarith
  have e4 : ((j : ℚ) + l - 1 / 2 ≤ e + l) ↔ (j : ℚ) - 1 / 2 ≤ e := by constructor <;> intro h <;> linarith
  have e5 : (e + l < (j : ℚ) + l) ↔ e < j := by constructor <;> intro h <;> linarith
  have e6 : ((j : ℚ) + l ≤ e + l) ↔ (j : ℚ) ≤ e := by constructor <;> intro h <;> linarith
  rw [e1, e2, e3, e4, e5, e6]
  unfold Rim
  constructor
  · rintro ⟨h1, h | h | ⟨h2, h3, h4⟩⟩
    · exact Or.inl ⟨h1, Or.inl h⟩
    · exact Or.inl ⟨h1, Or.inr (Or.inl h)⟩
    · by_cases hc : (j : ℚ) + 1 / 2 ≤ e + t
      · exact Or.inl ⟨h1, Or.inl hc⟩
      · rw [not_le] at hc
        by_cases hn : j + l + 1 = n'
        · exact Or.inl ⟨h1, Or.inr (Or.inr ⟨h2, h3, hn⟩)⟩
        · refine Or.inr ⟨h4, by omega, ?_, h3, hc⟩
          by_contra hb
          rw [not_lt] at hb
          apply h2
          have f1 : ⌊b⌋ = (j : ℤ) := by
            rw [Int.floor_eq_iff]; push_cast; constructor <;> linarith
          have f2 : ⌊e⌋ = (j : ℤ) := by
            rw [Int.floor_eq_iff]; push_cast; constructor <;> linarith
          rw [f1, f2]
  · rintro (⟨h1, h | h | ⟨h2, h3, h4⟩⟩ | ⟨h1, h2, h3, h4, h5⟩)
    · exact ⟨h1, Or.inl h⟩
    · exact ⟨h1, Or.inr (Or.inl h)⟩
    · exact ⟨h1, Or.inr (Or.inr ⟨h2, h3, by omega⟩)⟩
    · refine ⟨by linarith, Or.inr (Or.inr ⟨?_, h4, h1⟩)⟩
      apply ne_of_lt
      have : ⌊b⌋ < (j : ℤ) := by rw [Int.floor_lt]; push_cast; exact h3
      have : (j : ℤ) ≤ ⌊e⌋ := by rw [Int.le_floor]; push_cast; exact h4
      omega

theorem axis_rim {b e t : ℚ} (ht : 0 ≤ t) {n n' l j : Nat} (hbe : b ≤ e) (hj : j < n) (hl : l + n ≤ n')
    (h : Rim b e t n n' l j) : ¬ AxisCell (b + l) (e + l) t n' (j + l) := by
  rw [axisCell_iff (by linarith : b + l ≤ e + l) (by omega : j + l < n')]
  obtain ⟨h1, h2, h3, h4, h5⟩ := h
  push_cast
  rintro ⟨-, h | ⟨_, _, h⟩ | ⟨_, _, h⟩⟩
  · linarith
  · linarith
  · omega

section
variable {ws ws' : Workspace} {R C R' C' k l : Nat}

theorem aligned_col (ha : Aligned ws ws' R C R' C' k l) (hw : 0 < wsW ws) (hw' : 0 < wsW ws') (hC : 0 < C) (x : Int) :
    (wsW ws' : ℚ) / C' = (wsW ws : ℚ) / C ∧ colOf ws' C' x = colOf ws C x + l := by
  have hC' : 0 < C' := by have := ha.cols; omega
  have h1 : (wsW ws' : ℚ) / C' = (wsW ws : ℚ) / C := by
    rw [div_eq_div_iff (by positivity) (by positivity)]
    exact_mod_cast ha.width.symm
  refine ⟨h1, ?_⟩
  unfold colOf
  rw [h1]
  have pd : 0 < (wsW ws : ℚ) / C := by positivity
  have h2 : (((ws.leftTop.x - ws'.leftTop.x : Int)) : ℚ) = l * ((wsW ws : ℚ) / C) := by
    have := ha.left
    have : (((ws.leftTop.x - ws'.leftTop.x : Int)) : ℚ) * C = l * wsW ws := by exact_mod_cast this
    field_simp
    exact this
  rw [div_add' _ _ _ pd.ne']
  congr 1
  rw [← h2]
  push_cast
  ring

theorem aligned_row (ha : Aligned ws ws' R C R' C' k l) (hw : 0 < wsH ws) (hw' : 0 < wsH ws') (hR : 0 < R) (y : Int) :
    (wsH ws' : ℚ) / R' = (wsH ws : ℚ) / R ∧ rowOf ws' R' y = rowOf ws R y + k := by
  have hR' : 0 < R' := by have := ha.rows; omega
  have h1 : (wsH ws' : ℚ) / R' = (wsH ws : ℚ) / R := by
    rw [div_eq_div_iff (by positivity) (by positivity)]
    exact_mod_cast ha.height.symm
  refine ⟨h1, ?_⟩
  unfold rowOf
  rw [h1]
  have pd : 0 < (wsH ws : ℚ) / R := by positivity
  have h2 : (((ws'.leftTop.y - ws.leftTop.y : Int)) : ℚ) = k * ((wsH ws : ℚ) / R) := by
    have := ha.top
    have : (((ws'.leftTop.y - ws.leftTop.y : Int)) : ℚ) * R = k * wsH ws := by exact_mod_cast this
    field_simp
    exact this
  rw [div_add' _ _ _ pd.ne']
  congr 1
  rw [← h2]
  push_cast
  ring

theorem aligned_corner (ha : Aligned ws ws' R C R' C' k l) (hw : 0 < wsW ws) (hh : 0 < wsH ws) (hR : 0 < R) (hC : 0 < C) :
    ws'.leftTop.x ≤ ws.leftTop.x ∧ ws.leftTop.y ≤ ws'.leftTop.y := by
  have h1 := ha.left
  have h2 := ha.top
  constructor
  · by_contra hc
    have : (ws.leftTop.x - ws'.leftTop.x) * (C : ℤ) < 0 := mul_neg_of_neg_of_pos (by omega) (by omega)
    have : 0 ≤ (l : ℤ) * wsW ws := by positivity
    omega
  · by_contra hc
    have : (ws'.leftTop.y - ws.leftTop.y) * (R : ℤ) < 0 := mul_neg_of_neg_of_pos (by omega) (by omega)
    have : 0 ≤ (k : ℤ) * wsH ws := by positivity
    omega
end

theorem window_prop {L L' a A p q P Q U V : Prop} (hp : p ↔ P ∨ U) (hq : q ↔ Q ∨ V) (hu : U → ¬ P) (hv : V → ¬ Q)
    (ha : a ↔ L ∨ (p ∧ q)) (hA : A ↔ L' ∨ (P ∧ Q)) (hL : L ↔ L') :
    (A → a) ∧ ((a ∧ ¬ A) ↔ ¬ L ∧ ((U ∧ q) ∨ (p ∧ V))) := by
  rw [ha, hA, hp, hq, ← hL]
  by_cases L <;> by_cases P <;> by_cases Q <;> by_cases U <;> by_cases V <;> simp_all

/-- **C90** One rectangle drawn in a window and in a larger window that goes on beyond it by whole cells (exact arithmetic), on bitmaps that
agree where the windows do: both drawings return, every cell that is on in the larger one is on in the smaller one, and the cells that are
on only in the smaller one are those of its last row or column that `Rim` names. -/
theorem C90_windows (z z' : Zond) (ws ws' : Workspace) (R C R' C' k l : Nat) (ep : ℚ) (hs : SetUp id z ws R C ep)
    (hs' : SetUp id z' ws' R' C' ep) (ha : Aligned ws ws' R C R' C' k l)
    (hep : 0 ≤ ep) (hex : ep * ((wsW ws : ℚ) / C) < 1 / 2) (hey : ep * ((wsH ws : ℚ) / R) < 1 / 2)
    (g : Geometry) (lt rb : Coord) (hg : RectGeom g lt rb) (hf : DiffsFit ws' lt rb)
    (hx0 : ws.leftTop.x ≤ lt.x) (hx1 : lt.x ≤ rb.x) (hy0 : lt.y ≤ ws.leftTop.y) (hy1 : rb.y ≤ lt.y)
    (hx2 : colOf ws' C' rb.x < 2147483648) (hy2 : rowOf ws' R' rb.y < 2147483648)
    (m M : BitMatrix) (hm : Built m) (hR : m.isize = R) (hC : m.jsize = C) (hM : Built M) (hR' : M.isize = R') (hC' : M.jsize = C') :
    ∃ a A, zondGeometry id z (some g) m = .ok () a ∧ zondGeometry id z' (some g) M = .ok () A ∧
      ∀ i j, i < R → j < C → (Lit m i j ↔ Lit M (i + k) (j + l)) →
        (Lit A (i + k) (j + l) → Lit a i j) ∧
        ((Lit a i j ∧ ¬ Lit A (i + k) (j + l)) ↔ ¬ Lit m i j ∧
          ((Rim (rowOf ws R lt.y) (rowOf ws R rb.y) (ep * ((wsH ws : ℚ) / R)) R R' k i ∧
              AxisCell (colOf ws C lt.x) (colOf ws C rb.x) (ep * ((wsW ws : ℚ) / C)) C j) ∨
            (AxisCell (rowOf ws R lt.y) (rowOf ws R rb.y) (ep * ((wsH ws : ℚ) / R)) R i ∧
              Rim (colOf ws C lt.x) (colOf ws C rb.x) (ep * ((wsW ws : ℚ) / C)) C C' l j))) := by
  obtain ⟨o1, o2⟩ := aligned_corner ha hs.wpos hs.hpos hs.rpos hs.cpos
  have cx := fun x => (aligned_col ha hs.wpos hs'.wpos hs.cpos x).2
  have cy := fun y => (aligned_row ha hs.hpos hs'.hpos hs.rpos y).2
  have dx := (aligned_col ha hs.wpos hs'.wpos hs.cpos 0).1
  have dy := (aligned_row ha hs.hpos hs'.hpos hs.rpos 0).1
  have bx := colOf_mono hs.wpos hs.cpos hx1
  have by' := rowOf_mono hs.hpos hs.rpos hy1
  have wp := hs.wpos
  have hp := hs.hpos
  have tx : 0 ≤ ep * ((wsW ws : ℚ) / C) := by positivity
  have ty : 0 ≤ ep * ((wsH ws : ℚ) / R) := by positivity
  obtain ⟨f1, f2, f3, f4⟩ := hf
  have hf0 : DiffsFit ws lt rb := by
    unfold inI32 at f1 f2 f3 f4
    refine ⟨?_, ?_, ?_, ?_⟩ <;> unfold inI32 <;> constructor <;> omega
  obtain ⟨a, ea, la⟩ := C39_exact_cells z ws R C ep hs hep hex hey g lt rb hg hf0 hx0 hx1 hy0 hy1
    (by rw [cx] at hx2; have : (0 : ℚ) ≤ l := by positivity
        linarith)
    (by rw [cy] at hy2; have : (0 : ℚ) ≤ k := by positivity
        linarith) m hm hR hC
  obtain ⟨A, eA, lA⟩ := C39_exact_cells z' ws' R' C' ep hs' hep (by rw [dx]; exact hex) (by rw [dy]; exact hey) g lt rb hg ⟨f1, f2, f3, f4⟩
    (by omega) hx1 (by omega) hy1 hx2 hy2 M hM hR' hC'
  refine ⟨a, A, ea, eA, fun i j hi hj hL => ?_⟩
  have hc := ha.cols
  have hr := ha.rows
  have l1 := la i j hi hj
  have l2 := lA (i + k) (j + l) (by omega) (by omega)
  rw [dx, dy, cx, cx, cy, cy] at l2
  exact window_prop (axis_window by' ty hi (by omega)) (axis_window bx tx hj (by omega)) (axis_rim ty by' hi (by omega))
    (axis_rim tx bx hj (by omega)) l1 l2 hL

/-- **C90** The same in `double` arithmetic, for rectangles whose sides are clear of the lines of the grid. -/
theorem C90_windows_double (rnd : ℚ → ℚ) (hr : Rounding rnd) (z z' : Zond) (ws ws' : Workspace) (R C R' C' k l : Nat) (ep : ℚ)
    (hs : SetUp rnd z ws R C ep) (hs' : SetUp rnd z' ws' R' C' ep) (ha : Aligned ws ws' R C R' C' k l)
    (he0 : 0 ≤ ep) (he1 : ep ≤ 2 / 10 ^ 13) (hC2 : (C : ℤ) ≤ 256 * wsW ws) (hR2 : (R : ℤ) ≤ 256 * wsH ws)
    (hws : inI32 ws.leftTop.x ∧ inI32 ws.leftTop.y ∧ inI32 ws.rightBot.x ∧ inI32 ws.rightBot.y)
    (hws' : inI32 ws'.leftTop.x ∧ inI32 ws'.leftTop.y ∧ inI32 ws'.rightBot.x ∧ inI32 ws'.rightBot.y)
    (g : Geometry) (lt rb : Coord) (hg : RectGeom g lt rb) (hrect : inI32 lt.x ∧ inI32 lt.y ∧ inI32 rb.x ∧ inI32 rb.y)
    (hf : DiffsFit ws' lt rb)
    (hx0 : ws.leftTop.x ≤ lt.x) (hx1 : lt.x ≤ rb.x) (hy0 : lt.y ≤ ws.leftTop.y) (hy1 : rb.y ≤ lt.y)
    (hx2 : colOf ws' C' rb.x ≤ 1073741824) (hy2 : rowOf ws' R' rb.y ≤ 1073741824)
    (hcl : SidesClear ws R C lt rb) (hcl' : SidesClear ws' R' C' lt rb)
    (m M : BitMatrix) (hm : Built m) (hR : m.isize = R) (hC : m.jsize = C) (hM : Built M) (hR' : M.isize = R') (hC' : M.jsize = C') :
    ∃ a A, zondGeometry rnd z (some g) m = .ok () a ∧ zondGeometry rnd z' (some g) M = .ok () A ∧
      ∀ i j, i < R → j < C → (Lit m i j ↔ Lit M (i + k) (j + l)) →
        (Lit A (i + k) (j + l) → Lit a i j) ∧
        ((Lit a i j ∧ ¬ Lit A (i + k) (j + l)) ↔ ¬ Lit m i j ∧
          ((Rim (rowOf ws R lt.y) (rowOf ws R rb.y) 0 R R' k i ∧ AxisCell (colOf ws C lt.x) (colOf ws C rb.x) 0 C j) ∨
            (AxisCell (rowOf ws R lt.y) (rowOf ws R rb.y) 0 R i ∧ Rim (colOf ws C lt.x) (colOf ws C rb.x) 0 C C' l j))) := by
  obtain ⟨o1, o2⟩ := aligned_corner ha hs.wpos hs.hpos hs.rpos hs.cpos
  have cx := fun x => (aligned_col ha hs.wpos hs'.wpos hs.cpos x).2
  have cy := fun y => (aligned_row ha hs.hpos hs'.hpos hs.rpos y).2
  have bx := colOf_mono hs.wpos hs.cpos hx1
  have by' := rowOf_mono hs.hpos hs.rpos hy1
  have wp := hs.wpos
  have hp := hs.hpos
  have cp := hs.cpos
  have rp := hs.rpos
  obtain ⟨f1, f2, f3, f4⟩ := hf
  have hf0 : DiffsFit ws lt rb := by
    unfold inI32 at f1 f2 f3 f4
    refine ⟨?_, ?_, ?_, ?_⟩ <;> unfold inI32 <;> constructor <;> omega
  have hC3 : (C' : ℤ) ≤ 256 * wsW ws' := by
    have h := ha.width
    have : (C' : ℤ) * C ≤ 256 * wsW ws' * C := by
      rw [mul_assoc 256, ← h, ← mul_assoc, mul_comm (C' : ℤ)]
      exact mul_le_mul_of_nonneg_right hC2 (by omega)
    exact le_of_mul_le_mul_right this (by omega)
  have hR3 : (R' : ℤ) ≤ 256 * wsH ws' := by
    have h := ha.height
    have : (R' : ℤ) * R ≤ 256 * wsH ws' * R := by
      rw [mul_assoc 256, ← h, ← mul_assoc, mul_comm (R' : ℤ)]
      exact mul_le_mul_of_nonneg_right hR2 (by omega)
    exact le_of_mul_le_mul_right this (by omega)
  obtain ⟨a, ea, la⟩ := C39_exact_cells_double rnd hr z ws R C ep hs he0 he1 hC2 hR2 hws g lt rb hg hrect hf0 hx0 hx1 hy0 hy1
    (by rw [cx] at hx2; have : (0 : ℚ) ≤ l := by positivity
        linarith)
    (by rw [cy] at hy2; have : (0 : ℚ) ≤ k := by positivity
        linarith) hcl m hm hR hC
  obtain ⟨A, eA, lA⟩ := C39_exact_cells_double rnd hr z' ws' R' C' ep hs' he0 he1 hC3 hR3 hws' g lt rb hg hrect ⟨f1, f2, f3, f4⟩
    (by omega) hx1 (by omega) hy1 hx2 hy2 hcl' M hM hR' hC'
  refine ⟨a, A, ea, eA, fun i j hi hj hL => ?_⟩
  have hc := ha.cols
  have hr := ha.rows
  have l1 := la i j hi hj
  have l2 := lA (i + k) (j + l) (by omega) (by omega)
  rw [cx, cx, cy, cy] at l2
  exact window_prop (axis_window by' le_rfl hi (by omega)) (axis_window bx le_rfl hj (by omega)) (axis_rim le_rfl by' hi (by omega))
    (axis_rim le_rfl bx hj (by omega)) l1 l2 hL

/-- **C90** A rectangle that starts in the larger window to the left of the smaller one and ends before the middle of the smaller one's last
column: it is drawn in the larger window and refused in the smaller one (so a layout cannot in general be drawn piece by piece). -/
theorem C90_crossing (z z' : Zond) (ws ws' : Workspace) (R C R' C' k l : Nat) (ep : ℚ) (hs : SetUp id z ws R C ep)
    (hs' : SetUp id z' ws' R' C' ep) (ha : Aligned ws ws' R C R' C' k l)
    (hep : 0 ≤ ep) (hex : ep * ((wsW ws : ℚ) / C) < 1 / 2) (hey : ep * ((wsH ws : ℚ) / R) < 1 / 2)
    (g : Geometry) (lt rb : Coord) (hg : RectGeom g lt rb) (hf : DiffsFit ws lt rb) (hf' : DiffsFit ws' lt rb)
    (hx0 : ws'.leftTop.x ≤ lt.x) (hout : lt.x < ws.leftTop.x) (hx1 : lt.x ≤ rb.x) (hend : colOf ws C rb.x < C - 1 / 2)
    (hy0 : lt.y ≤ ws'.leftTop.y) (hy1 : rb.y ≤ lt.y) (hx2 : colOf ws' C' rb.x ≤ 1073741824) (hy2 : rowOf ws' R' rb.y ≤ 1073741824)
    (m M : BitMatrix) (hm : Built m) (hM : Built M) (hR' : M.isize = R') (hC' : M.jsize = C') :
    zondGeometry id z (some g) m = .throw .invalidArgument m ∧ ∃ A, zondGeometry id z' (some g) M = .ok () A := by
  have cx := fun x => (aligned_col ha hs.wpos hs'.wpos hs.cpos x).2
  have cy := fun y => (aligned_row ha hs.hpos hs'.hpos hs.rpos y).2
  have dx := (aligned_col ha hs.wpos hs'.wpos hs.cpos 0).1
  have dy := (aligned_row ha hs.hpos hs'.hpos hs.rpos 0).1
  have wp := hs.wpos
  have cp := hs.cpos
  have pdx : 0 < (wsW ws : ℚ) / C := by positivity
  constructor
  · refine C39_left_top_throws id id_rounding z ws R C ep hs g lt rb hg hf (Or.inl hout) ?_ ?_ ?_ m hm
    · have hw : (wsW ws : ℚ) = ws.rightBot.x - ws.leftTop.x := by unfold wsW; push_cast; ring
      have hlt : (rb.x : ℚ) < ws.rightBot.x - (wsW ws : ℚ) / C / 2 := by
        unfold colOf at hend
        rw [div_lt_iff₀ pdx] at hend
        have cq : (C : ℚ) ≠ 0 := by positivity
        have : ((C : ℚ) - 1 / 2) * ((wsW ws : ℚ) / C) = wsW ws - (wsW ws : ℚ) / C / 2 := by field_simp
        rw [this] at hend
        push_cast at hend
        linarith
      have tp : 0 ≤ (wsW ws : ℚ) / C * ep := by positivity
      unfold coversAll
      simp only [hs.dx, hs.eps, hs.wks, Fl.ofInt, Fl.div, Fl.mul, Fl.sub, Fl.add, Fl.le, id, two_ne_zero, if_false]
      rw [Bool.and_eq_false_iff]
      left
      rw [Bool.and_eq_false_iff]
      right
      rw [decide_eq_false_iff_not, not_le]
      linarith
    · rw [cx] at hx2
      have : (0 : ℚ) ≤ l := by positivity
      linarith
    · rw [cy] at hy2
      have : (0 : ℚ) ≤ k := by positivity
      linarith
  · obtain ⟨A, eA, -⟩ := C39_exact_cells z' ws' R' C' ep hs' hep (by rw [dx]; exact hex) (by rw [dy]; exact hey) g lt rb hg hf'
      hx0 hx1 hy0 hy1 (by linarith) (by linarith) M hM hR' hC'
    exact ⟨A, eA⟩

/-- **C90** The same in `double` arithmetic: a rectangle that starts in the larger window but to the left of or above the smaller one, and that
misses the centre of some cell of the smaller one, is refused in the smaller window; in the larger one it is drawn, with all cells whose
centre it contains. -/
theorem C90_crossing_double (rnd : ℚ → ℚ) (hr : Rounding rnd) (z z' : Zond) (ws ws' : Workspace) (R C R' C' k l : Nat)
    (hs : SetUp rnd z ws R C (rnd (1 / 10 ^ 13))) (hs' : SetUp rnd z' ws' R' C' (rnd (1 / 10 ^ 13)))
    (ha : Aligned ws ws' R C R' C' k l) (hC2 : (C' : ℤ) * C' ≤ 100 * wsW ws') (hR2 : (R' : ℤ) * R' ≤ 100 * wsH ws')
    (hws : inI32 ws.leftTop.x ∧ inI32 ws.leftTop.y ∧ inI32 ws.rightBot.x ∧ inI32 ws.rightBot.y)
    (g : Geometry) (lt rb : Coord) (hg : RectGeom g lt rb) (hrect : inI32 lt.x ∧ inI32 lt.y ∧ inI32 rb.x ∧ inI32 rb.y)
    (hf : DiffsFit ws lt rb) (hf' : DiffsFit ws' lt rb) (hout : lt.x < ws.leftTop.x ∨ ws.leftTop.y < lt.y) (hmiss : MissesACentre ws R C lt rb)
    (hx0 : ws'.leftTop.x ≤ lt.x) (hx1 : lt.x ≤ rb.x) (hy0 : lt.y ≤ ws'.leftTop.y) (hy1 : rb.y ≤ lt.y)
    (hx2 : colOf ws' C' rb.x ≤ 1073741824) (hy2 : rowOf ws' R' rb.y ≤ 1073741824)
    (m M : BitMatrix) (hm : Built m) (hM : Built M) (hR' : M.isize = R') (hC' : M.jsize = C') :
    zondGeometry rnd z (some g) m = .throw .invalidArgument m ∧ ∃ A, zondGeometry rnd z' (some g) M = .ok () A ∧
      ∀ i j, i < R' → j < C' → InRect lt rb (centreX ws' C' j) (centreY ws' R' i) → Lit A i j := by
  have cx := (aligned_col ha hs.wpos hs'.wpos hs.cpos rb.x).2
  have cy := (aligned_row ha hs.hpos hs'.hpos hs.rpos rb.y).2
  have cp := hs.cpos
  have rp := hs.rpos
  have cols := ha.cols
  have rows := ha.rows
  have l0 : (0 : ℚ) ≤ l := by positivity
  have k0 : (0 : ℚ) ≤ k := by positivity
  have c1 : (C' : ℤ) ≤ 100 * wsW ws' := le_trans (le_mul_of_one_le_left (by omega) (by omega)) hC2
  have r1 : (R' : ℤ) ≤ 100 * wsH ws' := le_trans (le_mul_of_one_le_left (by omega) (by omega)) hR2
  have c2 : (C : ℤ) ≤ 100 * wsW ws := by
    have h := ha.width
    have : (C : ℤ) * C' ≤ 100 * wsW ws * C' := by
      rw [mul_assoc 100, h, ← mul_assoc, mul_comm (C : ℤ)]
      exact mul_le_mul_of_nonneg_right c1 (by omega)
    exact le_of_mul_le_mul_right this (by omega)
  have r2 : (R : ℤ) ≤ 100 * wsH ws := by
    have h := ha.height
    have : (R : ℤ) * R' ≤ 100 * wsH ws * R' := by
      rw [mul_assoc 100, h, ← mul_assoc, mul_comm (R : ℤ)]
      exact mul_le_mul_of_nonneg_right r1 (by omega)
    exact le_of_mul_le_mul_right this (by omega)
  have wp := hs.wpos
  have hp := hs.hpos
  exact ⟨C39_left_top_misses rnd hr z ws R C hs (by omega) (by omega) hws g lt rb hg hrect hf hout hmiss (by linarith) (by linarith) m hm,
    C39_centres_covered rnd hr z' ws' R' C' hs' hC2 hR2 g lt rb hg hf' hx0 hx1 hy0 hy1 hx2 hy2 M hM hR' hC'⟩

/-! ### Concrete cases: `10..80 × 50..90` (4×7 cells of 10×10) in the window `0..100 × 0..100` (10×10 cells) -/

def exWs2 : Workspace := ⟨⟨10, 90⟩, ⟨80, 50⟩⟩

def exZond2 (rnd : ℚ → ℚ) : Zond :=
  { bound := ⟨0, 3, 0, 6⟩, ws := exWs2, dx := .fin (rnd 10), dy := .fin (rnd 10), eps := .fin (rnd (1 / 10 ^ 13)) }

theorem exSetUp2 (rnd : ℚ → ℚ) : SetUp rnd (exZond2 rnd) exWs2 4 7 (rnd (1 / 10 ^ 13)) where
  bound := rfl
  wks := rfl
  dx := by simp only [exZond2, wsW, exWs2]; norm_num
  dy := by simp only [exZond2, wsH, exWs2]; norm_num
  eps := rfl
  rpos := by norm_num
  cpos := by norm_num
  rmax := by norm_num
  cmax := by norm_num
  wpos := by decide
  hpos := by decide

theorem exAligned : Aligned exWs2 exWs 4 7 10 10 1 1 := ⟨by decide, by decide, by decide, by decide, by decide, by decide⟩

/-- `20..73 × 80..60`: the last column of the smaller window is on there and off in the larger one -/
example : Rim (colOf exWs2 7 20) (colOf exWs2 7 73) 0 7 10 1 6 := by
  unfold Rim colOf wsW exWs2; norm_num

example : ∃ a A, zondGeometry id (exZond2 id) (some (exRect 20 80 73 60)) (BitMatrix.new Alloc.ok 4 7) = .ok () a ∧
    zondGeometry id (exZond id) (some (exRect 20 80 73 60)) (BitMatrix.new Alloc.ok 10 10) = .ok () A ∧ Lit a 2 6 ∧ ¬ Lit A 3 7 := by
  obtain ⟨a, A, ea, eA, h⟩ := C90_windows (exZond2 id) (exZond id) exWs2 exWs 4 7 10 10 1 1 _ (exSetUp2 id) (exSetUp id) exAligned (by norm_num)
    (by unfold wsW exWs2; norm_num) (by unfold wsH exWs2; norm_num) (exRect 20 80 73 60) ⟨20, 80⟩ ⟨73, 60⟩ ⟨rfl, _, _, rfl⟩
    (by unfold DiffsFit inI32; decide) (by decide) (by decide) (by decide) (by decide) (by unfold colOf wsW exWs; norm_num)
    (by unfold rowOf wsH exWs; norm_num) _ _ (.new 4 7 (by norm_num) (by norm_num)) rfl rfl (.new 10 10 (by norm_num) (by norm_num)) rfl rfl
  have n1 : ¬ Lit (BitMatrix.new Alloc.ok 4 7) 2 6 := by unfold Lit; decide +kernel
  have n2 : ¬ Lit (BitMatrix.new Alloc.ok 10 10) (2 + 1) (6 + 1) := by unfold Lit; decide +kernel
  obtain ⟨-, h2⟩ := h 2 6 (by decide) (by decide) ⟨fun h => (n1 h).elim, fun h => (n2 h).elim⟩
  obtain ⟨r1, r2⟩ := h2.2 ⟨n1, Or.inr ⟨by
    rw [axisCell_iff (by unfold rowOf wsH exWs2; norm_num) (by decide)]
    unfold rowOf wsH exWs2; norm_num, by unfold Rim colOf wsW exWs2; norm_num⟩⟩
  exact ⟨a, A, ea, eA, r1, r2⟩

/-- the hypotheses of the `double` theorem, for `23..57 × 81..63` -/
example : SidesClear exWs2 4 7 ⟨23, 81⟩ ⟨57, 63⟩ ∧ SidesClear exWs 10 10 ⟨23, 81⟩ ⟨57, 63⟩ := by
  refine ⟨⟨Or.inr (off_mk 2 ?_ ?_), Or.inr (off_mk 1 ?_ ?_), Or.inr (off_mk 9 ?_ ?_), Or.inr (off_mk 5 ?_ ?_)⟩,
    Or.inr (off_mk 4 ?_ ?_), Or.inr (off_mk 3 ?_ ?_), Or.inr (off_mk 11 ?_ ?_), Or.inr (off_mk 7 ?_ ?_)⟩ <;>
    simp only [colOf, rowOf, wsW, wsH, exWs, exWs2] <;> norm_num

/-- `3..47 × 80..60` starts to the left of the smaller window -/
example : zondGeometry id (exZond2 id) (some (exRect 3 80 47 60)) (BitMatrix.new Alloc.ok 4 7) =
      .throw .invalidArgument (BitMatrix.new Alloc.ok 4 7) ∧
    ∃ A, zondGeometry id (exZond id) (some (exRect 3 80 47 60)) (BitMatrix.new Alloc.ok 10 10) = .ok () A :=
  C90_crossing (exZond2 id) (exZond id) exWs2 exWs 4 7 10 10 1 1 _ (exSetUp2 id) (exSetUp id) exAligned (by norm_num)
    (by unfold wsW exWs2; norm_num) (by unfold wsH exWs2; norm_num) (exRect 3 80 47 60) ⟨3, 80⟩ ⟨47, 60⟩ ⟨rfl, _, _, rfl⟩
    (by unfold DiffsFit inI32; decide) (by unfold DiffsFit inI32; decide) (by decide) (by decide) (by decide)
    (by unfold colOf wsW exWs2; norm_num) (by decide) (by decide) (by unfold colOf wsW exWs; norm_num)
    (by unfold rowOf wsH exWs; norm_num) _ _ (.new 4 7 (by norm_num) (by norm_num)) (.new 10 10 (by norm_num) (by norm_num)) rfl rfl

/-- `20..47 × 95..60` starts above the smaller window -/
example : zondGeometry rne (exZond2 rne) (some (exRect 20 95 47 60)) (BitMatrix.new Alloc.ok 4 7) =
      .throw .invalidArgument (BitMatrix.new Alloc.ok 4 7) ∧
    ∃ A, zondGeometry rne (exZond rne) (some (exRect 20 95 47 60)) (BitMatrix.new Alloc.ok 10 10) = .ok () A ∧
      ∀ i j, i < 10 → j < 10 → InRect ⟨20, 95⟩ ⟨47, 60⟩ (centreX exWs 10 j) (centreY exWs 10 i) → Lit A i j :=
  C90_crossing_double rne rne_rounding (exZond2 rne) (exZond rne) exWs2 exWs 4 7 10 10 1 1 (exSetUp2 rne) (exSetUp rne) exAligned
    (by decide) (by decide) (by unfold inI32; decide) (exRect 20 95 47 60) ⟨20, 95⟩ ⟨47, 60⟩ ⟨rfl, _, _, rfl⟩ (by unfold inI32; decide)
    (by unfold DiffsFit inI32; decide) (by unfold DiffsFit inI32; decide) (by decide)
    ⟨0, 6, by decide, by decide, Or.inr (Or.inl (by unfold centreX wsW exWs2; norm_num))⟩
    (by decide) (by decide) (by decide) (by decide) (by unfold colOf wsW exWs; norm_num)
    (by unfold rowOf wsH exWs; norm_num) _ _ (.new 4 7 (by norm_num) (by norm_num)) (.new 10 10 (by norm_num) (by norm_num)) rfl rfl

end Verif.Props
