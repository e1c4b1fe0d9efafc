import Verif.Props.Windows
import Verif.Props.WindowsFile
import Verif.Props.Scaled
import Verif.Spec.Zoom

/-! C94: one window, drawn with a grid that is an odd number of times as fine. -/

namespace Verif.Props
open Verif BitMatrix Zond Spec Ieee Generator Client

theorem middle_lt {q j n : Nat} (h : j < n) : middle q j < (2 * q + 1) * n := by
  unfold middle
  have : (2 * q + 1) * (j + 1) ≤ (2 * q + 1) * n := Nat.mul_le_mul_left _ h
  rw [Nat.mul_add] at this
  omega

/-- one axis: cell `j` and the cell in its middle are drawn alike unless the rectangle ends within one cell before their centre -/
theorem axis_zoom {b e : ℚ} (hbe : b ≤ e) {q n j : Nat} (hj : j < n) (hn : ¬ EndsBefore e j) :
    AxisCell b e 0 n j ↔ AxisCell (((2 * q + 1 : Nat) : ℚ) * b) (((2 * q + 1 : Nat) : ℚ) * e) 0 ((2 * q + 1) * n) (middle q j) := by
  have kq : (1 : ℚ) ≤ ((2 * q + 1 : Nat) : ℚ) := by exact_mod_cast Nat.le_add_left 1 (2 * q)
  have kp : (0 : ℚ) < ((2 * q + 1 : Nat) : ℚ) := by linarith
  rw [axisCell_iff hbe hj, axisCell_iff (mul_le_mul_of_nonneg_left hbe kp.le) (middle_lt hj)]
  have ec : ((middle q j : Nat) : ℚ) + 1 / 2 = ((2 * q + 1 : Nat) : ℚ) * (j + 1 / 2) := by
    unfold middle; push_cast; ring
  generalize hk : ((2 * q + 1 : Nat) : ℚ) = k at *
  have e1 : k * b ≤ ((middle q j : Nat) : ℚ) + 1 / 2 + 0 ↔ b ≤ (j : ℚ) + 1 / 2 + 0 := by
    rw [add_zero, add_zero, ec]; exact mul_le_mul_iff_right₀ kp
  have e2 : ((middle q j : Nat) : ℚ) + 1 / 2 ≤ k * e + 0 ↔ (j : ℚ) + 1 / 2 ≤ e + 0 := by
    rw [add_zero, add_zero, ec]; exact mul_le_mul_iff_right₀ kp
  rw [e1, e2]
  by_cases hc : (j : ℚ) + 1 / 2 ≤ e + 0
  · exact ⟨fun h => ⟨h.1, .inl hc⟩, fun h => ⟨h.1, .inl hc⟩⟩
  · have he : e < (j : ℚ) - 1 / 2 := by
      unfold EndsBefore at hn
      by_contra h
      exact hn ⟨by linarith, by linarith⟩
    have hke : k * e < k * ((j : ℚ) - 1 / 2) := by apply mul_lt_mul_of_pos_left he kp
    constructor
    · rintro ⟨_, h | ⟨_, h, _⟩ | ⟨_, h, _⟩⟩ <;> linarith
    · rintro ⟨_, h | ⟨_, h, _⟩ | ⟨_, h, _⟩⟩
      · exact absurd h hc
      · linarith
      · linarith

theorem colOf_mul {ws : Workspace} {C : Nat} (k : Nat) (x : Int) : colOf ws (k * C) x = (k : ℚ) * colOf ws C x := by
  unfold colOf
  rcases Nat.eq_zero_or_pos k with rfl | hk
  · simp
  rcases Nat.eq_zero_or_pos C with rfl | hC
  · simp
  push_cast
  rw [div_div_eq_mul_div, div_div_eq_mul_div]
  ring

theorem rowOf_mul {ws : Workspace} {R : Nat} (k : Nat) (y : Int) : rowOf ws (k * R) y = (k : ℚ) * rowOf ws R y := by
  unfold rowOf
  rcases Nat.eq_zero_or_pos k with rfl | hk
  · simp
  rcases Nat.eq_zero_or_pos R with rfl | hR
  · simp
  push_cast
  rw [div_div_eq_mul_div, div_div_eq_mul_div]
  ring

/-- **C94** One rectangle that starts inside the window, drawn into a bitmap of `R`×`C` cells and into one of `(2p+1)R`×`(2q+1)C` cells (`double`
arithmetic, sides clear of the lines of both grids): both drawings return, and each cell of the first bitmap gets what the cell in its middle
gets in the second one, unless the right or the bottom side of the rectangle is within one cell before the centre of the cell. -/
theorem C94_zoom_double (rnd : ℚ → ℚ) (hr : Rounding rnd) (z z' : Zond) (ws : Workspace) (R C p q : Nat) (ep : ℚ)
    (hs : SetUp rnd z ws R C ep) (hs' : SetUp rnd z' ws ((2 * p + 1) * R) ((2 * q + 1) * C) ep)
    (he0 : 0 ≤ ep) (he1 : ep ≤ 2 / 10 ^ 13)
    (hC2 : (((2 * q + 1) * C : Nat) : ℤ) ≤ 256 * wsW ws) (hR2 : (((2 * p + 1) * R : Nat) : ℤ) ≤ 256 * wsH ws)
    (hws : inI32 ws.leftTop.x ∧ inI32 ws.leftTop.y ∧ inI32 ws.rightBot.x ∧ inI32 ws.rightBot.y)
    (g : Geometry) (lt rb : Coord) (hg : RectGeom g lt rb) (hrect : inI32 lt.x ∧ inI32 lt.y ∧ inI32 rb.x ∧ inI32 rb.y)
    (hf : DiffsFit ws lt rb)
    (hx0 : ws.leftTop.x ≤ lt.x) (hx1 : lt.x ≤ rb.x) (hy0 : lt.y ≤ ws.leftTop.y) (hy1 : rb.y ≤ lt.y)
    (hx2 : colOf ws ((2 * q + 1) * C) rb.x ≤ 1073741824) (hy2 : rowOf ws ((2 * p + 1) * R) rb.y ≤ 1073741824)
    (hcl : SidesClear ws R C lt rb) (hcl' : SidesClear ws ((2 * p + 1) * R) ((2 * q + 1) * C) lt rb)
    (m M : BitMatrix) (hm : Built m) (hR : m.isize = R) (hC : m.jsize = C)
    (hM : Built M) (hR' : M.isize = (2 * p + 1) * R) (hC' : M.jsize = (2 * q + 1) * C) :
    ∃ a A, zondGeometry rnd z (some g) m = .ok () a ∧ zondGeometry rnd z' (some g) M = .ok () A ∧
      ∀ i j, i < R → j < C → (Lit m i j ↔ Lit M (middle p i) (middle q j)) →
        ¬ EndsBefore (rowOf ws R rb.y) i → ¬ EndsBefore (colOf ws C rb.x) j →
        (Lit a i j ↔ Lit A (middle p i) (middle q j)) := by
  have bx := colOf_mono hs.wpos hs.cpos hx1
  have by' := rowOf_mono hs.hpos hs.rpos hy1
  have c1 : C ≤ (2 * q + 1) * C := Nat.le_mul_of_pos_left _ (by omega)
  have r1 : R ≤ (2 * p + 1) * R := Nat.le_mul_of_pos_left _ (by omega)
  have kx : (1 : ℚ) ≤ ((2 * q + 1 : Nat) : ℚ) := by exact_mod_cast Nat.le_add_left 1 (2 * q)
  have ky : (1 : ℚ) ≤ ((2 * p + 1 : Nat) : ℚ) := by exact_mod_cast Nat.le_add_left 1 (2 * p)
  have px : 0 ≤ colOf ws C rb.x := by
    have := colOf_mono (ws := ws) hs.wpos hs.cpos (le_trans hx0 hx1)
    rwa [colOf_begin] at this
  have py : 0 ≤ rowOf ws R rb.y := by
    have := rowOf_mono (ws := ws) hs.hpos hs.rpos (le_trans hy1 hy0)
    rwa [rowOf_begin] at this
  obtain ⟨a, ea, la⟩ := C39_exact_cells_double rnd hr z ws R C ep hs he0 he1 (by omega) (by omega) hws g lt rb hg hrect hf hx0 hx1 hy0 hy1
    (by rw [colOf_mul] at hx2; nlinarith) (by rw [rowOf_mul] at hy2; nlinarith) hcl m hm hR hC
  obtain ⟨A, eA, lA⟩ := C39_exact_cells_double rnd hr z' ws _ _ ep hs' he0 he1 hC2 hR2 hws g lt rb hg hrect hf hx0 hx1 hy0 hy1 hx2 hy2 hcl' M hM hR' hC'
  refine ⟨a, A, ea, eA, fun i j hi hj hL h1 h2 => ?_⟩
  have l2 := lA _ _ (middle_lt (q := p) hi) (middle_lt (q := q) hj)
  rw [colOf_mul, colOf_mul, rowOf_mul, rowOf_mul] at l2
  rw [la i j hi hj, l2, hL, axis_zoom (q := p) by' hi h1, axis_zoom (q := q) bx hj h2]

/-- sides at whole units: a tolerance below half a unit does not matter -/
theorem axis_untol {W : ℤ} (hW : 0 < W) {b e t : ℚ} {K L : ℤ} (hb : b = K / W) (he : e = L / W) (ht : 0 ≤ t) (ht2 : t < 1 / (2 * W)) {n j : Nat} :
    AxisCell b e t n j ↔ AxisCell b e 0 n j := by
  have hWq : (W : ℚ) ≠ 0 := by exact_mod_cast hW.ne'
  have sh : ∀ N : ℤ, ((N - j * W : ℤ) : ℚ) / W = N / W - j := fun N => by push_cast; field_simp
  have h1 := (Scaled.half_tol hW ht ht2 (K - j * W)).2
  have h2 := (Scaled.half_tol hW ht ht2 (L - j * W)).1
  rw [sh, ← hb] at h1
  rw [sh, ← he] at h2
  have e1 : b ≤ (j : ℚ) + 1 / 2 + t ↔ b ≤ (j : ℚ) + 1 / 2 + 0 :=
    ⟨fun h => by linarith [h1.1 (by linarith)], fun h => by linarith⟩
  have e2 : (j : ℚ) + 1 / 2 ≤ e + t ↔ (j : ℚ) + 1 / 2 ≤ e + 0 :=
    ⟨fun h => by linarith [h2.1 (by linarith)], fun h => by linarith⟩
  unfold AxisCell
  rw [e1, e2]

theorem tol_small {W : ℤ} (hW : 0 < W) {n : Nat} (hn : 0 < n) {ep : ℚ} (h : 2 * ep * W * W < n) : ep * ((W : ℚ) / n) < 1 / (2 * W) := by
  have hWq : (0 : ℚ) < W := by exact_mod_cast hW
  have hnq : (0 : ℚ) < n := by exact_mod_cast hn
  rw [lt_div_iff₀ (by linarith), ← mul_div_assoc, div_mul_eq_mul_div, div_lt_iff₀ hnq]
  linarith

/-- **C94** The same in exact arithmetic: the sides may lie anywhere. -/
theorem C94_zoom (z z' : Zond) (ws : Workspace) (R C p q : Nat) (ep : ℚ)
    (hs : SetUp id z ws R C ep) (hs' : SetUp id z' ws ((2 * p + 1) * R) ((2 * q + 1) * C) ep) (he0 : 0 ≤ ep)
    (hex : 2 * ep * wsW ws * wsW ws < C) (hey : 2 * ep * wsH ws * wsH ws < R)
    (g : Geometry) (lt rb : Coord) (hg : RectGeom g lt rb) (hf : DiffsFit ws lt rb)
    (hx0 : ws.leftTop.x ≤ lt.x) (hx1 : lt.x ≤ rb.x) (hy0 : lt.y ≤ ws.leftTop.y) (hy1 : rb.y ≤ lt.y)
    (hx2 : colOf ws ((2 * q + 1) * C) rb.x < 2147483648) (hy2 : rowOf ws ((2 * p + 1) * R) rb.y < 2147483648)
    (m M : BitMatrix) (hm : Built m) (hR : m.isize = R) (hC : m.jsize = C)
    (hM : Built M) (hR' : M.isize = (2 * p + 1) * R) (hC' : M.jsize = (2 * q + 1) * C) :
    ∃ a A, zondGeometry id z (some g) m = .ok () a ∧ zondGeometry id z' (some g) M = .ok () A ∧
      ∀ i j, i < R → j < C → (Lit m i j ↔ Lit M (middle p i) (middle q j)) →
        ¬ EndsBefore (rowOf ws R rb.y) i → ¬ EndsBefore (colOf ws C rb.x) j →
        (Lit a i j ↔ Lit A (middle p i) (middle q j)) := by
  have wp := hs.wpos
  have hp := hs.hpos
  have bx := colOf_mono hs.wpos hs.cpos hx1
  have by' := rowOf_mono hs.hpos hs.rpos hy1
  have c1 : (C : ℚ) ≤ ((2 * q + 1) * C : Nat) := by exact_mod_cast Nat.le_mul_of_pos_left _ (by omega)
  have r1 : (R : ℚ) ≤ ((2 * p + 1) * R : Nat) := by exact_mod_cast Nat.le_mul_of_pos_left _ (by omega)
  have kx : (1 : ℚ) ≤ ((2 * q + 1 : Nat) : ℚ) := by exact_mod_cast Nat.le_add_left 1 (2 * q)
  have ky : (1 : ℚ) ≤ ((2 * p + 1 : Nat) : ℚ) := by exact_mod_cast Nat.le_add_left 1 (2 * p)
  have px : 0 ≤ colOf ws C rb.x := by
    have := colOf_mono (ws := ws) hs.wpos hs.cpos (le_trans hx0 hx1)
    rwa [colOf_begin] at this
  have py : 0 ≤ rowOf ws R rb.y := by
    have := rowOf_mono (ws := ws) hs.hpos hs.rpos (le_trans hy1 hy0)
    rwa [rowOf_begin] at this
  have tx := tol_small wp hs.cpos hex
  have ty := tol_small hp hs.rpos hey
  have tx' := tol_small wp hs'.cpos (lt_of_lt_of_le hex c1)
  have ty' := tol_small hp hs'.rpos (lt_of_lt_of_le hey r1)
  have half : ∀ {W : ℤ}, 0 < W → (1 : ℚ) / (2 * W) ≤ 1 / 2 := fun {W} hW => by
    have : (1 : ℚ) ≤ W := by exact_mod_cast hW
    exact one_div_le_one_div_of_le (by norm_num) (by linarith)
  have wq : (wsW ws : ℚ) ≠ 0 := by exact_mod_cast wp.ne'
  have hq : (wsH ws : ℚ) ≠ 0 := by exact_mod_cast hp.ne'
  have colK : ∀ (n : Nat) (x : Int), 0 < n → colOf ws n x = (((x - ws.leftTop.x) * n : ℤ) : ℚ) / wsW ws := fun n x hn => by
    have : (n : ℚ) ≠ 0 := by positivity
    unfold colOf; push_cast; field_simp
  have rowK : ∀ (n : Nat) (y : Int), 0 < n → rowOf ws n y = (((ws.leftTop.y - y) * n : ℤ) : ℚ) / wsH ws := fun n y hn => by
    have : (n : ℚ) ≠ 0 := by positivity
    unfold rowOf; push_cast; field_simp
  have nx : ∀ n : Nat, 0 ≤ ep * ((wsW ws : ℚ) / n) := fun n => by positivity
  have ny : ∀ n : Nat, 0 ≤ ep * ((wsH ws : ℚ) / n) := fun n => by positivity
  obtain ⟨a, ea, la⟩ := C39_exact_cells z ws R C ep hs he0 (lt_of_lt_of_le tx (half wp)) (lt_of_lt_of_le ty (half hp)) g lt rb hg hf hx0 hx1 hy0 hy1
    (by rw [colOf_mul] at hx2; nlinarith) (by rw [rowOf_mul] at hy2; nlinarith) m hm hR hC
  obtain ⟨A, eA, lA⟩ := C39_exact_cells z' ws _ _ ep hs' he0 (lt_of_lt_of_le tx' (half wp)) (lt_of_lt_of_le ty' (half hp)) g lt rb hg hf hx0 hx1 hy0 hy1
    hx2 hy2 M hM hR' hC'
  refine ⟨a, A, ea, eA, fun i j hi hj hL h1 h2 => ?_⟩
  have l1 := la i j hi hj
  rw [axis_untol wp (colK _ _ hs.cpos) (colK _ _ hs.cpos) (nx _) tx, axis_untol hp (rowK _ _ hs.rpos) (rowK _ _ hs.rpos) (ny _) ty] at l1
  have l2 := lA _ _ (middle_lt (q := p) hi) (middle_lt (q := q) hj)
  rw [axis_untol wp (colK _ _ hs'.cpos) (colK _ _ hs'.cpos) (nx _) tx', axis_untol hp (rowK _ _ hs'.rpos) (rowK _ _ hs'.rpos) (ny _) ty',
    colOf_mul, colOf_mul, rowOf_mul, rowOf_mul] at l2
  rw [l1, l2, hL, axis_zoom (q := p) by' hi h1, axis_zoom (q := q) bx hj h2]

theorem centreX_middle (ws : Workspace) (C q j : Nat) : centreX ws ((2 * q + 1) * C) (middle q j) = centreX ws C j := by
  unfold centreX middle
  rcases Nat.eq_zero_or_pos C with rfl | hC
  · simp
  have : (C : ℚ) ≠ 0 := by positivity
  have : (2 * q + 1 : ℚ) ≠ 0 := by positivity
  push_cast
  field_simp
  ring

theorem centreY_middle (ws : Workspace) (R p i : Nat) : centreY ws ((2 * p + 1) * R) (middle p i) = centreY ws R i := by
  unfold centreY middle
  rcases Nat.eq_zero_or_pos R with rfl | hR
  · simp
  have : (R : ℚ) ≠ 0 := by positivity
  have : (2 * p + 1 : ℚ) ≠ 0 := by positivity
  push_cast
  field_simp
  ring

/-- **C94** Whole bitmaps of a list of rectangles, however they came about, without a condition on the sides: each cell and the cell in its
middle are alike unless some rectangle comes near the cell without containing its centre. -/
theorem C94_bitmaps (mn mx : Coord) (R C p q : Nat) (hw : mn.x < mx.x) (hh : mn.y < mx.y) (rs : List Msk.Rect) (m M : BitMatrix)
    (hs : Client.Shows mn mx R C rs m) (hs' : Client.Shows mn mx ((2 * p + 1) * R) ((2 * q + 1) * C) rs M) (i j : Nat) (hi : i < R) (hj : j < C)
    (hn : ∀ r ∈ rs, InRect (Client.lt r) (Client.rb r) (centreX (window mn mx) C j) (centreY (window mn mx) R i) ∨
      ¬ NearRect (window mn mx) R C (Client.lt r) (Client.rb r) i j) :
    Lit m i j ↔ Lit M (middle p i) (middle q j) := by
  have hW : (0 : ℚ) < wsW (window mn mx) := by
    have : 0 < wsW (window mn mx) := by simp only [wsW, window]; omega
    exact_mod_cast this
  have hH : (0 : ℚ) < wsH (window mn mx) := by
    have : 0 < wsH (window mn mx) := by simp only [wsH, window]; omega
    exact_mod_cast this
  have cq : (0 : ℚ) < C := by exact_mod_cast (by omega : 0 < C)
  have rq : (0 : ℚ) < R := by exact_mod_cast (by omega : 0 < R)
  have fx : (wsW (window mn mx) : ℚ) / ((2 * q + 1) * C : Nat) ≤ wsW (window mn mx) / C :=
    div_le_div_of_nonneg_left hW.le cq (by exact_mod_cast Nat.le_mul_of_pos_left _ (by omega))
  have fy : (wsH (window mn mx) : ℚ) / ((2 * p + 1) * R : Nat) ≤ wsH (window mn mx) / R :=
    div_le_div_of_nonneg_left hH.le rq (by exact_mod_cast Nat.le_mul_of_pos_left _ (by omega))
  have near : ∀ r, NearRect (window mn mx) ((2 * p + 1) * R) ((2 * q + 1) * C) (Client.lt r) (Client.rb r) (middle p i) (middle q j) →
      NearRect (window mn mx) R C (Client.lt r) (Client.rb r) i j := by
    intro r h
    unfold NearRect at h ⊢
    rw [centreX_middle, centreY_middle] at h
    obtain ⟨h1, h2, h3, h4⟩ := h
    refine ⟨?_, ?_, ?_, ?_⟩ <;> linarith
  constructor
  · intro h
    obtain ⟨r, hr, h1⟩ := hs.near i j h
    rcases hn r hr with h2 | h2
    · refine hs'.covered _ _ (middle_lt hi) (middle_lt hj) ⟨r, hr, ?_⟩
      rw [centreX_middle, centreY_middle]
      exact h2
    · exact absurd h1 h2
  · intro h
    obtain ⟨r, hr, h1⟩ := hs'.near _ _ h
    rcases hn r hr with h2 | h2
    · exact hs.covered _ _ hi hj ⟨r, hr, h2⟩
    · exact absurd (near r h1) h2

/-- **C94** From a file to bitmaps: one layer of an MSK file drawn in one window with `R`×`C` and with `(2p+1)R`×`(2q+1)C` cells, where each
rectangle that meets the window covers it or starts inside it with sides clear of the lines of both grids.  Both are drawn, and each cell agrees
with the cell in its middle unless some such rectangle has its right or its bottom side within one cell before the centre of the cell. -/
theorem C94_files (env : Msk.Env) (name : List Nat) (r : Msk.Reader) (cr : Bool) (header : List UInt8)
    (rs : List (Msk.Rect × Int)) (hp : PlainFile env name r cr header rs) (addr : Nat) (heap : Elements)
    (hheap : ∀ e g, some g ∈ (heap e).geometries → g.coords.length < 2 ^ 64) :
    ∃ w, Msk.read env addr false ⟨r, {}, heap⟩ = .ok true w ∧
      ∀ (rnd : ℚ → ℚ) (_ : Rounding rnd) (mn mx : Coord) (R C p q : Nat) (_ : Grid mn mx R C) (_ : Grid mn mx ((2 * p + 1) * R) ((2 * q + 1) * C))
        (al : Alloc) (_ : al R (bytesPerRow C) = none) (_ : al ((2 * p + 1) * R) (bytesPerRow ((2 * q + 1) * C)) = none) (mem : Memory) (a : Nat)
        (_ : mem.layouts a = w.data) (_ : mem.elements = w.heap) (x depth : Nat) (n : Int)
        (_ : ∀ y ∈ rs, y.2 = n → Client.Meets mn mx y.1 →
          (Client.StartsInside mn mx R C y.1 ∧ SidesClear (window mn mx) R C (Client.lt y.1) (Client.rb y.1) ∧
            Client.StartsInside mn mx ((2 * p + 1) * R) ((2 * q + 1) * C) y.1 ∧
            SidesClear (window mn mx) ((2 * p + 1) * R) ((2 * q + 1) * C) (Client.lt y.1) (Client.rb y.1)) ∨ Client.Covers mn mx y.1),
        ∃ g g' m M g1 g1', Generator.init (some a) [0] mn mx (Generator.new rnd) = .ok () g ∧
          Generator.init (some a) [0] mn mx (Generator.new rnd) = .ok () g' ∧
          Verif.Client.renderLayers rnd al (.ok x) mem depth R C [n] g = some (.ok [m] g1) ∧
          Verif.Client.renderLayers rnd al (.ok x) mem depth ((2 * p + 1) * R) ((2 * q + 1) * C) [n] g' = some (.ok [M] g1') ∧
          ∀ i j, i < R → j < C →
            (∀ y ∈ rs, y.2 = n → Client.Meets mn mx y.1 → ¬ EndsBefore (rowOf (window mn mx) R (Client.rb y.1).y) i ∧
              ¬ EndsBefore (colOf (window mn mx) C (Client.rb y.1).x) j) →
            (Lit m i j ↔ Lit M (middle p i) (middle q j)) := by
  obtain ⟨w, e, hL, hg, _, hoth⟩ := read_plain hp addr heap
  refine ⟨w, e, fun rnd hr mn mx R C p q hgr hgr' al hal1 hal2 mem a ha he x depth n hd => ?_⟩
  have wp := hgr.wpos
  have hpw := hgr.hpos
  have rp := hgr.rpos
  have cp := hgr.cpos
  have hW : 0 < wsW (window mn mx) := by simp only [wsW, window]; omega
  have hH : 0 < wsH (window mn mx) := by simp only [wsH, window]; omega
  obtain ⟨g, hi⟩ := (C40_first_init rnd [] (Generator.new rnd) .start (by simp) a [0] (by simp) mn mx).1 ⟨by omega, by omega⟩
  have hh := (History.start (rnd := rnd)).call (.initRet hi)
  obtain ⟨ms, g1, r1, f1⟩ := render_exact (ls := [0]) hr hgr hal1 (by rw [ha]; exact hL) (by rw [he]; exact heap_fits hheap hg hoth)
    hp.sizes hp.fits x depth [n] _ g hh (by simp) (fun y hy hn hme => by
      rw [List.mem_singleton] at hn
      exact (hd y hy hn hme).imp And.left id)
  obtain ⟨ms', g1', r1', f1'⟩ := render_exact (ls := [0]) hr hgr' hal2 (by rw [ha]; exact hL) (by rw [he]; exact heap_fits hheap hg hoth)
    hp.sizes hp.fits x depth [n] _ g hh (by simp) (fun y hy hn hme => by
      rw [List.mem_singleton] at hn
      exact (hd y hy hn hme).imp (fun h => h.2.2.1) id)
  cases f1 with | cons l1 t1 => ?_
  cases f1' with | cons l2 t2 => ?_
  cases t1
  cases t2
  refine ⟨g, g, _, _, g1, g1', hi, hi, r1, r1', fun i j hiR hjC hne => ?_⟩
  rw [l1, l2]
  refine exists_congr fun y => and_congr_right fun hy => and_congr_right fun hn => and_congr_right fun hme => ?_
  obtain ⟨w0, h0⟩ := hp.sizes y hy
  obtain ⟨n1, n2⟩ := hne y hy hn hme
  rcases hd y hy hn hme with ⟨h1, h2, h3, h4⟩ | h1
  · rw [alone_cells hr hgr w0 h0 (hp.fits y hy) h1 h2 i j hiR hjC,
      alone_cells hr hgr' w0 h0 (hp.fits y hy) h3 h4 _ _ (middle_lt hiR) (middle_lt hjC), colOf_mul, colOf_mul, rowOf_mul, rowOf_mul,
      axis_zoom (q := p) (rowOf_mono hH rp (by simp only [Client.lt, Client.rb]; omega)) hiR n1,
      axis_zoom (q := q) (colOf_mono hW cp (by simp only [Client.lt, Client.rb]; omega)) hjC n2]
  · exact iff_of_true (cover_alone hr hgr w0 h0 (hp.fits y hy) h1 _ _ hiR hjC)
      (cover_alone hr hgr' w0 h0 (hp.fits y hy) h1 _ _ (middle_lt hiR) (middle_lt hjC))

/-! ### Concrete cases: the window `0..100 × 0..100` in 10×10 and in 30×30 cells -/

def exZond3 (rnd : ℚ → ℚ) : Zond :=
  { bound := ⟨0, 29, 0, 29⟩, ws := exWs, dx := .fin (rnd (100 / 30)), dy := .fin (rnd (100 / 30)), eps := .fin (rnd (1 / 10 ^ 13)) }

theorem exSetUp3 (rnd : ℚ → ℚ) : SetUp rnd (exZond3 rnd) exWs ((2 * 1 + 1) * 10) ((2 * 1 + 1) * 10) (rnd (1 / 10 ^ 13)) where
  bound := rfl
  wks := rfl
  dx := by simp only [exZond3, wsW, exWs]; norm_num
  dy := by simp only [exZond3, wsH, exWs]; norm_num
  eps := rfl
  rpos := by norm_num
  cpos := by norm_num
  rmax := by norm_num
  cmax := by norm_num
  wpos := by decide
  hpos := by decide

/-- `23..57 × 63..81`: cell (2, 3) is on in both bitmaps, cell (2, 7) in neither -/
example : ∃ a A, zondGeometry rne (exZond rne) (some (exRect 23 81 57 63)) (BitMatrix.new Alloc.ok 10 10) = .ok () a ∧
    zondGeometry rne (exZond3 rne) (some (exRect 23 81 57 63)) (BitMatrix.new Alloc.ok 30 30) = .ok () A ∧
    (Lit a 2 3 ↔ Lit A 7 10) ∧ (Lit a 2 7 ↔ Lit A 7 22) := by
  obtain ⟨a, A, ea, eA, h⟩ := C94_zoom_double rne rne_rounding (exZond rne) (exZond3 rne) exWs 10 10 1 1 _ (exSetUp rne) (exSetUp3 rne)
    (by decide +kernel) (by decide +kernel) (by decide) (by decide) (by unfold inI32; decide) (exRect 23 81 57 63) ⟨23, 81⟩ ⟨57, 63⟩ ⟨rfl, _, _, rfl⟩
    (by unfold inI32; decide) (by unfold DiffsFit inI32; decide) (by decide) (by decide) (by decide) (by decide)
    (by unfold colOf wsW exWs; norm_num) (by unfold rowOf wsH exWs; norm_num)
    (by
      refine ⟨Or.inr (off_mk 4 ?_ ?_), Or.inr (off_mk 3 ?_ ?_), Or.inr (off_mk 11 ?_ ?_), Or.inr (off_mk 7 ?_ ?_)⟩ <;>
        simp only [colOf, rowOf, wsW, wsH, exWs] <;> norm_num)
    (by
      refine ⟨Or.inr (off_mk 13 ?_ ?_), Or.inr (off_mk 11 ?_ ?_), Or.inr (off_mk 34 ?_ ?_), Or.inr (off_mk 22 ?_ ?_)⟩ <;>
        simp only [colOf, rowOf, wsW, wsH, exWs] <;> norm_num)
    _ _ (.new 10 10 (by norm_num) (by norm_num)) rfl rfl (.new 30 30 (by norm_num) (by norm_num)) rfl rfl
  refine ⟨a, A, ea, eA, h 2 3 (by decide) (by decide) ?_ ?_ ?_, h 2 7 (by decide) (by decide) ?_ ?_ ?_⟩
  · unfold Lit; decide +kernel
  · unfold EndsBefore rowOf wsH exWs; norm_num
  · unfold EndsBefore colOf wsW exWs; norm_num
  · unfold Lit; decide +kernel
  · unfold EndsBefore rowOf wsH exWs; norm_num
  · unfold EndsBefore colOf wsW exWs; norm_num

/-- the right side within one cell before the centre: `23..57` lights column 6 of the coarse bitmap only, `23..63` (the end is in the half of a fine
cell before the middle one) lights it only in the fine bitmap -/
example : (match zondGeometry rne (exZond rne) (some (exRect 23 81 57 63)) (BitMatrix.new Alloc.ok 10 10),
      zondGeometry rne (exZond3 rne) (some (exRect 23 81 57 63)) (BitMatrix.new Alloc.ok 30 30) with
    | .ok () a, .ok () A => decide (BitMatrix.get a 2 6 = .ok true ∧ BitMatrix.get A 7 19 = .ok false)
    | _, _ => false) = true ∧
    (match zondGeometry rne (exZond rne) (some (exRect 23 81 63 63)) (BitMatrix.new Alloc.ok 10 10),
      zondGeometry rne (exZond3 rne) (some (exRect 23 81 63 63)) (BitMatrix.new Alloc.ok 30 30) with
    | .ok () a, .ok () A => decide (BitMatrix.get a 2 6 = .ok false ∧ BitMatrix.get A 7 19 = .ok true)
    | _, _ => false) = true := by decide +kernel

end Verif.Props
