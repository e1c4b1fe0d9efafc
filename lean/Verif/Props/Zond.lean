import Verif.Proofs.ZondRect
import Verif.Props.Rle

/-!
C37–C39: rasterisation of one geometry (`LayoutZond`).

`rnd` is the rounding of `double` operations (`Ieee.rne` for binary64, `id` for exact arithmetic).  The bitmap
is any matrix obtained through the public API (`Built`).
-/

namespace Verif.Props
open Verif BitMatrix Zond Spec Ieee

theorem lit_iff {m : BitMatrix} (h : WF m) (i j : Nat) :
    Lit m i j ↔ i < m.isize ∧ j < m.jsize ∧ cell m i j = true := by
  unfold Lit
  by_cases hb : i < m.isize ∧ j < m.jsize
  · rw [get_eq h hb.1 hb.2]; simp [hb]
  · have : m.isize ≤ i ∨ m.jsize ≤ j := by omega
    simp only [BitMatrix.get, this, if_true]
    constructor
    · intro h; cases h
    · intro h; exact absurd ⟨h.1, h.2.1⟩ hb

/-- what a painted bitmap looks like to the caller -/
theorem ones_lit {m m' : BitMatrix} {P : Nat → Nat → Prop} (hm : Built m) (h : Ones m m' P) :
    Built m' ∧ m'.isize = m.isize ∧ m'.jsize = m.jsize ∧
      ∀ i j, Lit m' i j ↔ Lit m i j ∨ (i < m.isize ∧ j < m.jsize ∧ P i j) := by
  obtain ⟨w, s1, s2⟩ := hm.inv
  refine ⟨Built.of_wf h.wf (by rw [h.rows]; exact s1) (by rw [h.cols]; exact s2), h.rows, h.cols, fun i j => ?_⟩
  rw [lit_iff h.wf, lit_iff w, h.bits, h.rows, h.cols]
  tauto

theorem built_shape {m : BitMatrix} (hm : Built m) : Shape m.isize m.jsize m := ⟨hm.inv.1, rfl, rfl⟩

/-! ### C37 -/

/-- **C37** For every geometry (null included), every state of the rasteriser and every bitmap: a normal return
keeps the size, keeps every set bit set, and newly set bits are inside the bitmap and not past the
rasteriser's end indices; the only exception is `invalid_argument`, and then the bitmap is untouched. -/
theorem C37_frame (rnd : ℚ → ℚ) (z : Zond) (g : Option Geometry) (m : BitMatrix) (hm : Built m) :
    match zondGeometry rnd z g m with
    | .ok _ m' => Built m' ∧ m'.isize = m.isize ∧ m'.jsize = m.jsize ∧ (∀ i j, Lit m i j → Lit m' i j) ∧
        ∀ i j, Lit m' i j → ¬ Lit m i j → i < m.isize ∧ j < m.jsize ∧ i ≤ z.bound.iEnd ∧ j ≤ z.bound.jEnd
    | .throw e m' => e = .invalidArgument ∧ m' = m
    | .ub => True := by
  rcases zondGeometry_outcome m.isize m.jsize rnd z g with (⟨P, hp, hin⟩ | hu) | ht
  · obtain ⟨m', e, o⟩ := hp m (built_shape hm)
    rw [e]
    obtain ⟨b, r, c, l⟩ := ones_lit hm o
    refine ⟨b, r, c, fun i j h => (l i j).mpr (Or.inl h), fun i j h hn => ?_⟩
    rcases (l i j).mp h with h | ⟨_, _, h⟩
    · exact absurd h hn
    · exact hin i j h
  · rw [hu m (built_shape hm)]; trivial
  · rw [ht m (built_shape hm)]; exact ⟨rfl, rfl⟩

/-- **C37** No undefined behaviour for a rectangle when the end indices leave room to count past them, the four
coordinate differences are `int`s and the far ends are less than 2^31 cells away; newly set bits then also
respect the begin indices. -/
theorem C37_no_ub (rnd : ℚ → ℚ) (hr : Rounding rnd) (z : Zond) (g : Geometry) (lt rb : Coord) (dx dy : ℚ)
    (hg : RectGeom g lt rb)
    (hb : z.bound.iBegin < 2147483647 ∧ z.bound.iEnd < 2147483647 ∧ z.bound.jBegin < 2147483647 ∧
      z.bound.jEnd < 2147483647)
    (hf : DiffsFit z.ws lt rb) (hx : z.dx = .fin dx) (hy : z.dy = .fin dy) (px : 0 < dx) (py : 0 < dy)
    (ex : ((rb.x - z.ws.leftTop.x : Int) : ℚ) ≤ 2147483647 * dx)
    (ey : ((z.ws.leftTop.y - rb.y : Int) : ℚ) ≤ 2147483647 * dy) (m : BitMatrix) (hm : Built m) :
    zondGeometry rnd z (some g) m = .throw .invalidArgument m ∨
    ∃ m', zondGeometry rnd z (some g) m = .ok () m' ∧
      ∀ i j, Lit m' i j → ¬ Lit m i j →
        z.bound.iBegin ≤ i ∧ i ≤ z.bound.iEnd ∧ z.bound.jBegin ≤ j ∧ j ≤ z.bound.jEnd := by
  rcases rect_defined hr hg hb hf hx hy px py ex ey m.isize m.jsize with ht | ⟨P, hp, hin⟩
  · exact Or.inl (ht m (built_shape hm))
  · right
    obtain ⟨m', e, o⟩ := hp m (built_shape hm)
    obtain ⟨_, _, _, l⟩ := ones_lit hm o
    refine ⟨m', e, fun i j h hn => ?_⟩
    rcases (l i j).mp h with h | ⟨_, _, h⟩
    · exact absurd h hn
    · exact (hin i j h).2.2

/-- **C37** polygons are not drawn at all. -/
theorem C37_polygon_noop (rnd : ℚ → ℚ) (z : Zond) (g : Geometry) (h : g.type = .polygon) (m : BitMatrix) :
    zondGeometry rnd z (some g) m = .ok () m := by simp only [zondGeometry, h]; rfl

/-- **C37** paths, references, texts and geometries of undefined type are rejected. -/
theorem C37_unsupported (rnd : ℚ → ℚ) (z : Zond) (g : Geometry) (h : g.type ≠ .polygon) (h' : g.type ≠ .rectangle)
    (m : BitMatrix) : zondGeometry rnd z (some g) m = .throw .invalidArgument m := by
  cases ht : g.type <;> simp_all [zondGeometry]

/-- **C37** a null geometry, and a rectangle with fewer than three points, are undefined behaviour. -/
theorem C37_null_ub (rnd : ℚ → ℚ) (z : Zond) (m : BitMatrix) : zondGeometry rnd z none m = .ub := rfl

theorem C37_short_ub (rnd : ℚ → ℚ) (z : Zond) (g : Geometry) (h : g.type = .rectangle) (hl : g.coords.length < 3)
    (m : BitMatrix) : zondGeometry rnd z (some g) m = .ub := by
  simp only [zondGeometry, h]
  unfold zondRectangle
  rw [Res.idx_of_ge g.coords 2 (by omega)]
  cases h0 : Res.idx g.coords 0 with
  | ok _ => rfl
  | ub => rfl
  | throw _ => unfold Res.idx at h0; split at h0 <;> simp at h0

/-- **C37** without the size conditions it *is* undefined: a rectangle that does not cover the workspace and one
of whose corners is farther than 2^31-1 from the workspace corner overflows. -/
theorem C37_overflow_ub (rnd : ℚ → ℚ) (z : Zond) (g : Geometry) (lt rb : Coord) (hg : RectGeom g lt rb)
    (hf : ¬ DiffsFit z.ws lt rb) (hc : coversAll rnd z lt rb = false) (m : BitMatrix) :
    zondGeometry rnd z (some g) m = .ub := by
  rw [rect_raw hg hc]
  have : rawIndicies rnd z lt rb = .ub := by
    unfold rawIndicies sub32 chk32
    unfold DiffsFit at hf
    by_cases h1 : inI32 (lt.x - z.ws.leftTop.x)
    · by_cases h2 : inI32 (rb.x - z.ws.leftTop.x)
      · by_cases h3 : inI32 (z.ws.leftTop.y - lt.y)
        · have h4 : ¬ inI32 (z.ws.leftTop.y - rb.y) := by tauto
          rw [if_pos h1, if_pos h2, if_pos h3, if_neg h4]; rfl
        · rw [if_pos h1, if_pos h2, if_neg h3]; rfl
      · rw [if_pos h1, if_neg h2]; rfl
    · rw [if_neg h1]; rfl
  rw [this]; rfl

/-! ### C38 -/

theorem geometry_ok {R C : Nat} {rnd : ℚ → ℚ} {z : Zond} {g : Option Geometry} {m m' : BitMatrix}
    (hm : Shape R C m) (e : zondGeometry rnd z g m = .ok () m') :
    ∃ P, Paints R C (zondGeometry rnd z g) P ∧ Ones m m' P := by
  rcases zondGeometry_outcome R C rnd z g with (⟨P, hp, _⟩ | hu) | ht
  · obtain ⟨m2, e2, o⟩ := hp m hm
    rw [e] at e2; cases e2
    exact ⟨P, hp, o⟩
  · rw [hu m hm] at e; cases e
  · rw [ht m hm] at e; cases e

theorem ones_unique {m a b : BitMatrix} {P Q : Nat → Nat → Prop} (ha : Ones m a P) (hb : Ones m b Q)
    (h : ∀ i j, P i j ↔ Q i j) : a = b := by
  apply eq_of_cells ha.wf hb.wf (ha.rows.trans hb.rows.symm) (ha.cols.trans hb.cols.symm)
  intro i j
  have : (cell a i j = true ↔ cell b i j = true) := by rw [ha.bits, hb.bits, h]
  cases h1 : cell a i j <;> cases h2 : cell b i j <;> simp_all

/-- **C38** drawing a geometry a second time changes nothing. -/
theorem C38_idempotent (rnd : ℚ → ℚ) (z : Zond) (g : Option Geometry) (m m' : BitMatrix) (hm : Built m)
    (e : zondGeometry rnd z g m = .ok () m') : zondGeometry rnd z g m' = .ok () m' := by
  obtain ⟨P, hp, o⟩ := geometry_ok (built_shape hm) e
  obtain ⟨m2, e2, o2⟩ := hp m' (o.shape (built_shape hm))
  rw [e2]
  congr 1
  exact ones_unique (o.trans o2) o (fun i j => by tauto)

/-- **C38** two geometries (possibly drawn with differently configured rasterisers) give the same bitmap in
either order. -/
theorem C38_commute (rnd rnd' : ℚ → ℚ) (z z' : Zond) (g h : Option Geometry) (m m1 m2 : BitMatrix) (hm : Built m)
    (e1 : zondGeometry rnd z g m = .ok () m1) (e2 : zondGeometry rnd' z' h m1 = .ok () m2) :
    ∃ m1', zondGeometry rnd' z' h m = .ok () m1' ∧ zondGeometry rnd z g m1' = .ok () m2 := by
  obtain ⟨P, hp, o1⟩ := geometry_ok (built_shape hm) e1
  obtain ⟨Q, hq, o2⟩ := geometry_ok (o1.shape (built_shape hm)) e2
  obtain ⟨m1', e3, o3⟩ := hq m (built_shape hm)
  obtain ⟨m2', e4, o4⟩ := hp m1' (o3.shape (built_shape hm))
  refine ⟨m1', e3, ?_⟩
  rw [e4]
  congr 1
  exact ones_unique (o3.trans o4) (o1.trans o2) (fun i j => by tauto)

/-- **C38** the order of a whole list of geometries does not matter. -/
theorem C38_permutation (rnd : ℚ → ℚ) (z : Zond) (gs hs : List (Option Geometry)) (hp : gs.Perm hs)
    (m m' : BitMatrix) (hm : Built m) (e : zondAll rnd z gs m = .ok () m') :
    zondAll rnd z hs m = .ok () m' := by
  induction hp generalizing m with
  | nil => exact e
  | cons g _ ih =>
    unfold zondAll at e ⊢
    cases h : zondGeometry rnd z g m with
    | ok a m1 =>
      rw [M.run_bind_ok h] at e ⊢
      have hb : Built m1 := by
        have := C37_frame rnd z g m hm
        rw [h] at this; exact this.1
      exact ih m1 hb e
    | throw x m1 => rw [M.run_bind_throw h] at e; cases e
    | ub => rw [M.run_bind_ub h] at e; cases e
  | swap a b l =>
    unfold zondAll at e ⊢
    unfold zondAll at e ⊢
    cases h : zondGeometry rnd z b m with
    | throw x m1 => rw [M.run_bind_throw h] at e; cases e
    | ub => rw [M.run_bind_ub h] at e; cases e
    | ok u m1 =>
      rw [M.run_bind_ok h] at e
      cases h2 : zondGeometry rnd z a m1 with
      | throw x m1 => rw [M.run_bind_throw h2] at e; cases e
      | ub => rw [M.run_bind_ub h2] at e; cases e
      | ok u m2 =>
        rw [M.run_bind_ok h2] at e
        obtain ⟨m1', e3, e4⟩ := C38_commute rnd rnd z z b a m m1 m2 hm h h2
        rw [M.run_bind_ok e3, M.run_bind_ok e4]
        exact e
  | trans _ _ ih1 ih2 => exact ih2 m hm (ih1 m hm e)

/-! ### C39 -/

theorem built_paints {m : BitMatrix} (hm : Built m) {f : M BitMatrix Unit} {P : Nat → Nat → Prop}
    (h : Paints m.isize m.jsize f P) :
    ∃ m', f m = .ok () m' ∧ ∀ i j, Lit m' i j ↔ Lit m i j ∨ (i < m.isize ∧ j < m.jsize ∧ P i j) := by
  obtain ⟨m', e, o⟩ := h m (built_shape hm)
  exact ⟨m', e, (ones_lit hm o).2.2.2⟩

/-- **C39** Exact arithmetic: the precise set of cells a rectangle turns on, for every rectangle that does not
stick out at the left or top, every workspace and every grid. -/
theorem C39_exact_cells (z : Zond) (ws : Workspace) (R C : Nat) (ep : ℚ) (hs : SetUp id z ws R C ep)
    (hep : 0 ≤ ep) (hex : ep * ((wsW ws : ℚ) / C) < 1 / 2) (hey : ep * ((wsH ws : ℚ) / R) < 1 / 2)
    (g : Geometry) (lt rb : Coord) (hg : RectGeom g lt rb) (hf : DiffsFit ws lt rb)
    (hx0 : ws.leftTop.x ≤ lt.x) (hx1 : lt.x ≤ rb.x) (hy0 : lt.y ≤ ws.leftTop.y) (hy1 : rb.y ≤ lt.y)
    (hx2 : colOf ws C rb.x < 2147483648) (hy2 : rowOf ws R rb.y < 2147483648)
    (m : BitMatrix) (hm : Built m) (hR : m.isize = R) (hC : m.jsize = C) :
    ∃ m', zondGeometry id z (some g) m = .ok () m' ∧
      ∀ i j, i < R → j < C → (Lit m' i j ↔ Lit m i j ∨
        (AxisCell (rowOf ws R lt.y) (rowOf ws R rb.y) (ep * ((wsH ws : ℚ) / R)) R i ∧
         AxisCell (colOf ws C lt.x) (colOf ws C rb.x) (ep * ((wsW ws : ℚ) / C)) C j)) := by
  subst hR; subst hC
  have hW : (0 : ℚ) < wsW ws := by exact_mod_cast hs.wpos
  have hH : (0 : ℚ) < wsH ws := by exact_mod_cast hs.hpos
  have hRq : (0 : ℚ) < m.isize := by exact_mod_cast hs.rpos
  have hCq : (0 : ℚ) < m.jsize := by exact_mod_cast hs.cpos
  have pdx : 0 < (wsW ws : ℚ) / m.jsize := div_pos hW hCq
  have pdy : 0 < (wsH ws : ℚ) / m.isize := div_pos hH hRq
  obtain ⟨dx, hdx⟩ : ∃ d, d = (wsW ws : ℚ) / m.jsize := ⟨_, rfl⟩
  obtain ⟨dy, hdy⟩ : ∃ d, d = (wsH ws : ℚ) / m.isize := ⟨_, rfl⟩
  unfold colOf rowOf at *
  rw [← hdx] at pdx hex hx2
  rw [← hdy] at pdy hey hy2
  simp only [← hdx, ← hdy]
  have zdx : z.dx = .fin dx := by rw [hs.dx, hdx]; rfl
  have zdy : z.dy = .fin dy := by rw [hs.dy, hdy]; rfl
  have nn : ∀ a b : Int, a ≤ b → ∀ d : ℚ, 0 < d → (0 : ℚ) ≤ ((b - a : Int) : ℚ) / d := by
    intro a b h d hd
    apply div_nonneg _ hd.le
    have : 0 ≤ b - a := by omega
    exact_mod_cast this
  have mono : ∀ a b : Int, a ≤ b → ∀ d : ℚ, 0 < d → (a : ℚ) / d ≤ (b : ℚ) / d := by
    intro a b h d hd
    rw [div_le_div_iff_of_pos_right hd]
    exact_mod_cast h
  have i0 := nn lt.y ws.leftTop.y hy0 dy pdy
  have j0 := nn ws.leftTop.x lt.x hx0 dx pdx
  have i1 := mono (ws.leftTop.y - lt.y) (ws.leftTop.y - rb.y) (by omega) dy pdy
  have j1 := mono (lt.x - ws.leftTop.x) (rb.x - ws.leftTop.x) (by omega) dx pdx
  obtain ⟨p, hp, sp⟩ := sel_exact i0 i1 hy2 pdy hs.rpos (mul_nonneg hep pdy.le) hey
  obtain ⟨q, hq, sq⟩ := sel_exact j0 j1 hx2 pdx hs.cpos (mul_nonneg hep pdx.le) hex
  cases hc : coversAll id z lt rb with
  | false =>
    have hraw := raw_eq (rnd := id) id_rounding (z := z) (lt := lt) (rb := rb) (by rw [hs.wks]; exact hf) zdx zdy pdx pdy
    rw [hs.wks] at hraw
    obtain ⟨m', e, l⟩ := built_paints hm (setup_paints hs hg hc hraw i0 i1 hy2 j0 j1 hx2
      (by rw [zdx]; simp [Fl.le]; exact pdx) (by rw [zdy]; simp [Fl.le]; exact pdy)
      (p := p) (q := q) (by rw [zdy, hs.eps]; exact hp) (by rw [zdx, hs.eps]; exact hq))
    refine ⟨m', e, fun i j hi hj => ?_⟩
    rw [l, sp, sq]
    unfold AxisCell Over
    simp only [hi, hj, true_and]
  | true =>
    obtain ⟨m', e, l⟩ := built_paints hm (setup_all hs hg hc)
    refine ⟨m', e, fun i j hi hj => ?_⟩
    rw [l]
    simp only [hi, hj, and_self, or_true, true_iff]
    right
    -- the branch condition says that all centres are inside
    simp only [coversAll, zdx, zdy, hs.wks, hs.eps, Fl.ofInt, Fl.div, Fl.mul, Fl.sub, Fl.add, Fl.le, id,
      Bool.and_eq_true, decide_eq_true_eq, show (2 : ℚ) ≠ 0 by norm_num, if_false] at hc
    obtain ⟨⟨c1, c2⟩, c3, c4⟩ := hc
    have wq : (ws.rightBot.x : ℚ) - ws.leftTop.x = dx * m.jsize := by
      rw [hdx, div_mul_cancel₀ _ (ne_of_gt hCq)]; simp [wsW]
    have hq' : (ws.leftTop.y : ℚ) - ws.rightBot.y = dy * m.isize := by
      rw [hdy, div_mul_cancel₀ _ (ne_of_gt hRq)]; simp [wsH]
    have jn : (j : ℚ) + 1 ≤ m.jsize := by exact_mod_cast hj
    have in' : (i : ℚ) + 1 ≤ m.isize := by exact_mod_cast hi
    have jz : (0 : ℚ) ≤ j := Nat.cast_nonneg j
    have iz : (0 : ℚ) ≤ i := Nat.cast_nonneg i
    have ex0 : 0 ≤ dx * ep := mul_nonneg pdx.le hep
    have ey0 : 0 ≤ dy * ep := mul_nonneg pdy.le hep
    have tx0 : 0 ≤ ep * dx := mul_nonneg hep pdx.le
    have ty0 : 0 ≤ ep * dy := mul_nonneg hep pdy.le
    refine ⟨⟨?_, Or.inl ?_⟩, ?_, Or.inl ?_⟩
    · rw [div_le_iff₀ pdy]; push_cast
      nlinarith [mul_nonneg iz pdy.le, mul_nonneg ty0 pdy.le]
    · rw [← sub_le_iff_le_add, le_div_iff₀ pdy]; push_cast
      nlinarith [mul_le_mul_of_nonneg_left in' pdy.le, mul_nonneg ty0 pdy.le]
    · rw [div_le_iff₀ pdx]; push_cast
      nlinarith [mul_nonneg jz pdx.le, mul_nonneg tx0 pdx.le]
    · rw [← sub_le_iff_le_add, le_div_iff₀ pdx]; push_cast
      nlinarith [mul_le_mul_of_nonneg_left jn pdx.le, mul_nonneg tx0 pdx.le]

/-- rounding errors of one axis: `a/w` in cells, computed as `rnd (a / rnd w)` -/
theorem axis_upper {rnd : ℚ → ℚ} (hr : Rounding rnd) {w a t : ℚ} {n : Nat} (hw : 0 < w) (ha : 0 ≤ a)
    (ht : a / w ≤ t) (htn : t ≤ n) : 0 < rnd w ∧ rnd (a / rnd w) ≤ t + 3 / 2 ^ 53 * n := by
  have u : ∀ x : ℚ, 0 ≤ x → x * (1 - 1 / 2 ^ 53) ≤ rnd x ∧ rnd x ≤ x * (1 + 1 / 2 ^ 53) := by
    intro x hx
    have := abs_le.mp (hr.relErr x)
    rw [abs_of_nonneg hx] at this
    constructor <;> linarith
  obtain ⟨w1, w2⟩ := u w hw.le
  have pw : 0 < rnd w := lt_of_lt_of_le (mul_pos hw (by norm_num)) w1
  refine ⟨pw, ?_⟩
  have hq : a / rnd w * (1 - 1 / 2 ^ 53) ≤ t := by
    refine le_trans ?_ ht
    rw [div_mul_eq_mul_div, div_le_div_iff₀ pw hw]
    nlinarith
  have h2 := (u (a / rnd w) (div_nonneg ha pw.le)).2
  have hq0 : 0 ≤ a / rnd w := div_nonneg ha pw.le
  have ht0 : 0 ≤ t := le_trans (div_nonneg ha hw.le) ht
  have h3 : a / rnd w * (1 + 1 / 2 ^ 53) ≤ t * (1 + 3 / 2 ^ 53) := by
    have : a / rnd w ≤ t * (1 + 3 / 2 ^ 53) / (1 + 1 / 2 ^ 53) := by
      rw [le_div_iff₀ (by norm_num)]
      have e : a / rnd w ≤ t / (1 - 1 / 2 ^ 53) := by rw [le_div_iff₀ (by norm_num)]; exact hq
      have e2 : t / (1 - 1 / 2 ^ 53) * (1 + 1 / 2 ^ 53) ≤ t * (1 + 3 / 2 ^ 53) := by
        rw [div_mul_eq_mul_div, div_le_iff₀ (by norm_num), mul_assoc]
        apply mul_le_mul_of_nonneg_left _ ht0
        norm_num
      exact le_trans (mul_le_mul_of_nonneg_right e (by norm_num)) e2
    rwa [le_div_iff₀ (by norm_num)] at this
  have h4 : t * (3 / 2 ^ 53) ≤ 3 / 2 ^ 53 * n := by
    rw [mul_comm]; exact mul_le_mul_of_nonneg_left htn (by norm_num)
  linarith

theorem axis_lower {rnd : ℚ → ℚ} (hr : Rounding rnd) {w b t : ℚ} {n : Nat} (hw : 0 < w)
    (ht0 : 0 ≤ t) (ht : t ≤ b / w) (htn : t ≤ n) : t - 3 / 2 ^ 53 * n ≤ rnd (b / rnd w) := by
  have u : ∀ x : ℚ, 0 ≤ x → x * (1 - 1 / 2 ^ 53) ≤ rnd x ∧ rnd x ≤ x * (1 + 1 / 2 ^ 53) := by
    intro x hx
    have := abs_le.mp (hr.relErr x)
    rw [abs_of_nonneg hx] at this
    constructor <;> linarith
  obtain ⟨w1, w2⟩ := u w hw.le
  have pw : 0 < rnd w := lt_of_lt_of_le (mul_pos hw (by norm_num)) w1
  have hb : t * w ≤ b := by rwa [le_div_iff₀ hw] at ht
  have hb0 : 0 ≤ b := le_trans (mul_nonneg ht0 hw.le) hb
  have hq : t * (1 - 1 / 2 ^ 53) ≤ b / rnd w := by
    rw [le_div_iff₀ pw]
    calc t * (1 - 1 / 2 ^ 53) * rnd w ≤ t * (1 - 1 / 2 ^ 53) * (w * (1 + 1 / 2 ^ 53)) :=
          mul_le_mul_of_nonneg_left w2 (mul_nonneg ht0 (by norm_num))
      _ = t * w * ((1 - 1 / 2 ^ 53) * (1 + 1 / 2 ^ 53)) := by ring
      _ ≤ t * w * 1 := mul_le_mul_of_nonneg_left (by norm_num) (mul_nonneg ht0 hw.le)
      _ ≤ b := by linarith
  have h1 := (u (b / rnd w) (div_nonneg hb0 pw.le)).1
  have h2 : t * (1 - 1 / 2 ^ 53) * (1 - 1 / 2 ^ 53) ≤ b / rnd w * (1 - 1 / 2 ^ 53) :=
    mul_le_mul_of_nonneg_right hq (by norm_num)
  have h3 : t * (1 - 3 / 2 ^ 53) ≤ t * (1 - 1 / 2 ^ 53) * (1 - 1 / 2 ^ 53) := by
    rw [mul_assoc]; exact mul_le_mul_of_nonneg_left (by norm_num) ht0
  have h4 : t * (3 / 2 ^ 53) ≤ 3 / 2 ^ 53 * n := by
    rw [mul_comm]; exact mul_le_mul_of_nonneg_left htn (by norm_num)
  linarith

theorem axis_tol {rnd : ℚ → ℚ} (hr : Rounding rnd) {w : ℚ} {n : Nat} (hw : 0 < w)
    (hn : (n : ℚ) ≤ 100 * w) : 3 / 2 ^ 53 * (n : ℚ) ≤ rnd (rnd (1 / 10 ^ 13) * rnd w) := by
  have u : ∀ x : ℚ, 0 ≤ x → x * (1 - 1 / 2 ^ 53) ≤ rnd x := by
    intro x hx
    have := abs_le.mp (hr.relErr x)
    rw [abs_of_nonneg hx] at this
    linarith
  have w1 := u w hw.le
  have e1 := u (1 / 10 ^ 13) (by norm_num)
  have pw : 0 ≤ w * (1 - 1 / 2 ^ 53) := mul_nonneg hw.le (by norm_num)
  have p : 1 / 10 ^ 13 * (1 - 1 / 2 ^ 53) * (w * (1 - 1 / 2 ^ 53)) ≤ rnd (1 / 10 ^ 13) * rnd w :=
    mul_le_mul e1 w1 pw (le_trans (by norm_num) e1)
  have p0 : 0 ≤ 1 / 10 ^ 13 * (1 - 1 / 2 ^ 53) * (w * (1 - 1 / 2 ^ 53)) := mul_nonneg (by norm_num) pw
  have h := u _ (le_trans p0 p)
  have h2 := mul_le_mul_of_nonneg_right p (show (0 : ℚ) ≤ 1 - 1 / 2 ^ 53 by norm_num)
  refine le_trans ?_ (le_trans h2 h)
  calc 3 / 2 ^ 53 * (n : ℚ) ≤ 3 / 2 ^ 53 * (100 * w) := mul_le_mul_of_nonneg_left hn (by norm_num)
    _ = w * (300 / 2 ^ 53) := by ring
    _ ≤ w * (1 / 10 ^ 13 * (1 - 1 / 2 ^ 53) * (1 - 1 / 2 ^ 53) * (1 - 1 / 2 ^ 53)) :=
        mul_le_mul_of_nonneg_left (by norm_num) hw.le
    _ = _ := by ring

/-- one axis of the coverage theorem -/
theorem axis_sel {rnd : ℚ → ℚ} (hr : Rounding rnd) {w : ℚ} {a b : Int} {n : Nat} (hw : 0 < w)
    (hn0 : 0 < n) (hnm : n ≤ 2147483647) (hn : (n : ℚ) ≤ 100 * w) (ha : 0 ≤ a) (hab : a ≤ b)
    (hb : (b : ℚ) / w ≤ 1073741824) :
    0 < rnd w ∧ 0 ≤ rnd (a / rnd w) ∧ rnd (a / rnd w) ≤ rnd (b / rnd w) ∧ rnd (b / rnd w) < 2147483648 ∧
    ∃ p, normPair rnd (.fin (rnd (a / rnd w))) (.fin (rnd (b / rnd w))) (.fin (rnd w))
        (.fin (rnd (1 / 10 ^ 13))) 0 (n - 1) = .ok p ∧
      ∀ j : Nat, j < n → (a : ℚ) / w ≤ j + 1 / 2 → (j : ℚ) + 1 / 2 ≤ b / w → Sel p n j := by
  have haq : (0 : ℚ) ≤ a := by exact_mod_cast ha
  have hbq : (0 : ℚ) ≤ b := by exact_mod_cast le_trans ha hab
  obtain ⟨pw, hb'⟩ := axis_upper hr (n := 1073741824) hw hbq hb (by norm_num)
  have c0 : 0 ≤ rnd (a / rnd w) := by
    have := hr.mono 0 (a / rnd w) (div_nonneg haq pw.le)
    rwa [hr.zero] at this
  have c1 : rnd (a / rnd w) ≤ rnd (b / rnd w) := by
    apply hr.mono
    rw [div_le_div_iff_of_pos_right pw]
    exact_mod_cast hab
  have c2 : rnd (b / rnd w) < 2147483648 := by
    refine lt_of_le_of_lt hb' ?_
    norm_num
  refine ⟨pw, c0, c1, c2, ?_⟩
  obtain ⟨f, s, e, _⟩ := normPair_range (rnd := rnd) (eps := .fin (rnd (1 / 10 ^ 13))) (b1 := 0) (b2 := n - 1)
    (delta := .fin (rnd w)) c0 c1 c2 (by simp [Fl.le]; exact pw)
  refine ⟨(f, s), e, fun j hj h1 h2 => ?_⟩
  have jn : (j : ℚ) + 1 ≤ n := by exact_mod_cast hj
  have jz : (0 : ℚ) ≤ j := Nat.cast_nonneg j
  have nm : (n : ℚ) ≤ 2147483647 := by exact_mod_cast hnm
  have n0 : (0 : ℚ) ≤ n := Nat.cast_nonneg n
  have hB := (axis_upper hr (n := n) hw haq h1 (by linarith)).2
  have hE := axis_lower hr (n := n) hw (by linarith) h2 (by linarith)
  obtain ⟨p, hp, sp⟩ := sel_covers hr c0 c1 c2 pw hn0 (by omega) hj (δ := 3 / 2 ^ 53 * n)
    (mul_nonneg (by norm_num) n0) (by
      calc 3 / 2 ^ 53 * (n : ℚ) ≤ 3 / 2 ^ 53 * 2147483647 := mul_le_mul_of_nonneg_left nm (by norm_num)
        _ < 1 / 2 := by norm_num) (axis_tol hr hw hn) hB hE
  rw [e] at hp; cases hp
  exact sp

/-- **C39** In `double` arithmetic (any rounding with the binary64 error bound, hence `rne`) with the generator's
tolerance 1e-13: every cell whose centre lies in the rectangle is turned on, provided cells are not tiny
(`C² ≤ 100·width`, `R² ≤ 100·height`) and the rectangle does not stick out at the left or top. -/
theorem C39_centres_covered (rnd : ℚ → ℚ) (hr : Rounding rnd) (z : Zond) (ws : Workspace) (R C : Nat)
    (hs : SetUp rnd z ws R C (rnd (1 / 10 ^ 13)))
    (hC2 : (C : ℤ) * C ≤ 100 * wsW ws) (hR2 : (R : ℤ) * R ≤ 100 * wsH ws)
    (g : Geometry) (lt rb : Coord) (hg : RectGeom g lt rb) (hf : DiffsFit ws lt rb)
    (hx0 : ws.leftTop.x ≤ lt.x) (hx1 : lt.x ≤ rb.x) (hy0 : lt.y ≤ ws.leftTop.y) (hy1 : rb.y ≤ lt.y)
    (hx2 : colOf ws C rb.x ≤ 1073741824) (hy2 : rowOf ws R rb.y ≤ 1073741824)
    (m : BitMatrix) (hm : Built m) (hR : m.isize = R) (hC : m.jsize = C) :
    ∃ m', zondGeometry rnd z (some g) m = .ok () m' ∧
      ∀ i j, i < R → j < C → InRect lt rb (centreX ws C j) (centreY ws R i) → Lit m' i j := by
  subst hR; subst hC
  have hW : (0 : ℚ) < wsW ws := by exact_mod_cast hs.wpos
  have hH : (0 : ℚ) < wsH ws := by exact_mod_cast hs.hpos
  have hRq : (0 : ℚ) < m.isize := by exact_mod_cast hs.rpos
  have hCq : (0 : ℚ) < m.jsize := by exact_mod_cast hs.cpos
  have px : 0 < (wsW ws : ℚ) / m.jsize := div_pos hW hCq
  have py : 0 < (wsH ws : ℚ) / m.isize := div_pos hH hRq
  have tx : (m.jsize : ℚ) ≤ 100 * ((wsW ws : ℚ) / m.jsize) := by
    rw [← mul_div_assoc, le_div_iff₀ hCq]; exact_mod_cast hC2
  have ty : (m.isize : ℚ) ≤ 100 * ((wsH ws : ℚ) / m.isize) := by
    rw [← mul_div_assoc, le_div_iff₀ hRq]; exact_mod_cast hR2
  obtain ⟨dx, hdx⟩ : ∃ d, d = (wsW ws : ℚ) / m.jsize := ⟨_, rfl⟩
  obtain ⟨dy, hdy⟩ : ∃ d, d = (wsH ws : ℚ) / m.isize := ⟨_, rfl⟩
  have zdx := hs.dx
  have zdy := hs.dy
  unfold colOf rowOf at *
  unfold centreX centreY InRect
  rw [← hdx] at px tx hx2 zdx
  rw [← hdy] at py ty hy2 zdy
  simp only [← hdx, ← hdy]
  obtain ⟨qw, j0, j1, j2, q, hq, sq⟩ := axis_sel hr px hs.cpos hs.cmax tx (a := lt.x - ws.leftTop.x)
    (b := rb.x - ws.leftTop.x) (by omega) (by omega) hx2
  obtain ⟨qh, i0, i1, i2, p, hp, sp⟩ := axis_sel hr py hs.rpos hs.rmax ty (a := ws.leftTop.y - lt.y)
    (b := ws.leftTop.y - rb.y) (by omega) (by omega) hy2
  cases hc : coversAll rnd z lt rb with
  | true =>
    obtain ⟨m', e, l⟩ := built_paints hm (setup_all hs hg hc)
    exact ⟨m', e, fun i j hi hj _ => (l i j).mpr (Or.inr ⟨hi, hj, hi, hj⟩)⟩
  | false =>
    have hraw := raw_eq (rnd := rnd) hr (z := z) (lt := lt) (rb := rb) (by rw [hs.wks]; exact hf) zdx zdy qw qh
    rw [hs.wks] at hraw
    obtain ⟨m', e, l⟩ := built_paints hm (setup_paints hs hg hc hraw i0 i1 i2 j0 j1 j2
      (by rw [zdx]; simp [Fl.le]; exact qw) (by rw [zdy]; simp [Fl.le]; exact qh)
      (p := p) (q := q) (by rw [zdy, hs.eps]; exact hp) (by rw [zdx, hs.eps]; exact hq))
    refine ⟨m', e, fun i j hi hj hin => (l i j).mpr (Or.inr ⟨hi, hj, sp i hi ?_ ?_, sq j hj ?_ ?_⟩)⟩
    · rw [div_le_iff₀ py]; push_cast; linarith [hin.2.2.2]
    · rw [le_div_iff₀ py]; push_cast; linarith [hin.2.2.1]
    · rw [div_le_iff₀ px]; push_cast; linarith [hin.1]
    · rw [le_div_iff₀ px]; push_cast; linarith [hin.2.1]

/-- half a cell and the tolerance around a corner coordinate, in `double` arithmetic -/
theorem cover_margin {rnd : ℚ → ℚ} (hr : Rounding rnd) {x : Int} {d : ℚ} (hx : inI32 x)
    (h1 : 1 / 2 ^ 20 ≤ d) (h2 : d ≤ 2 ^ 32) :
    (x : ℚ) ≤ rnd (rnd (rnd x + rnd (d / 2)) - rnd (d * rnd (1 / 10 ^ 13))) ∧
    rnd (rnd (rnd x - rnd (d / 2)) + rnd (d * rnd (1 / 10 ^ 13))) ≤ x := by
  have exx : rnd (x : ℚ) = x := by
    apply hr.int
    rw [abs_le]; unfold inI32 at hx
    constructor <;> omega
  have pow : ∀ e : ℤ, rnd ((2 : ℚ) ^ e) = 2 ^ e := by
    intro e; have := hr.exact 1 e (by norm_num); simpa using this
  have epb : rnd (1 / 10 ^ 13) ≤ (2 : ℚ) ^ (-43 : ℤ) := by
    rw [← pow]; apply hr.mono; norm_num
  have ep0 : 0 ≤ rnd (1 / 10 ^ 13) := by
    have := hr.mono 0 (1 / 10 ^ 13) (by norm_num); rwa [hr.zero] at this
  have d0 : 0 ≤ d := le_trans (by norm_num) h1
  have kle : ∀ D : ℚ, d ≤ D → d * rnd (1 / 10 ^ 13) ≤ D * 2 ^ (-43 : ℤ) := fun D hD =>
    mul_le_mul hD epb ep0 (le_trans d0 hD)
  obtain ⟨μ, p1, p2, hμ, kμ⟩ : ∃ μ : ℚ, rnd (x + μ) = x + μ ∧ rnd (x - μ) = x - μ ∧ μ ≤ rnd (d / 2) ∧
      rnd (d * rnd (1 / 10 ^ 13)) ≤ μ := by
    unfold inI32 at hx
    by_cases hd : d ≤ 2 ^ 22
    · refine ⟨2 ^ (-21 : ℤ), ?_, ?_, ?_, ?_⟩
      · have := hr.exact (x * 2 ^ 21 + 1) (-21) (by rw [abs_le]; constructor <;> norm_num <;> omega)
        have e : (((x * 2 ^ 21 + 1 : ℤ) : ℚ)) * 2 ^ (-21 : ℤ) = x + 2 ^ (-21 : ℤ) := by
          push_cast; rw [zpow_neg]; norm_num; ring
        rwa [e] at this
      · have := hr.exact (x * 2 ^ 21 - 1) (-21) (by rw [abs_le]; constructor <;> norm_num <;> omega)
        have e : (((x * 2 ^ 21 - 1 : ℤ) : ℚ)) * 2 ^ (-21 : ℤ) = x - 2 ^ (-21 : ℤ) := by
          push_cast; rw [zpow_neg]; norm_num; ring
        rwa [e] at this
      · rw [← pow]; apply hr.mono; norm_num at h1 ⊢; linarith
      · rw [← pow]; apply hr.mono
        have := kle _ hd
        norm_num at this ⊢; linarith
    · refine ⟨1, ?_, ?_, ?_, ?_⟩
      · have := hr.int (x + 1) (by rw [abs_le]; constructor <;> norm_num <;> omega)
        exact_mod_cast this
      · have := hr.int (x - 1) (by rw [abs_le]; constructor <;> norm_num <;> omega)
        exact_mod_cast this
      · have := pow 0
        rw [zpow_zero] at this
        rw [← this]; apply hr.mono; norm_num at hd ⊢; linarith
      · have h1' := pow 0
        rw [zpow_zero] at h1'
        refine le_trans (hr.mono _ 1 ?_) (le_of_eq h1')
        have := kle _ h2
        norm_num at this ⊢; linarith
  rw [exx]
  constructor
  · have a1 : (x : ℚ) + μ ≤ rnd (x + rnd (d / 2)) := by rw [← p1]; apply hr.mono; linarith
    conv_lhs => rw [← exx]
    apply hr.mono; linarith
  · have a1 : rnd (x - rnd (d / 2)) ≤ (x : ℚ) - μ := by rw [← p2]; apply hr.mono; linarith
    conv_rhs => rw [← exx]
    apply hr.mono; linarith

/-- **C39** A rectangle that covers the workspace sets every bit of the bitmap, in `double` arithmetic and however
far it extends beyond (no coordinate difference is formed), for cells of at least 2^-20 units. -/
theorem C39_cover_all (rnd : ℚ → ℚ) (hr : Rounding rnd) (z : Zond) (ws : Workspace) (R C : Nat)
    (hs : SetUp rnd z ws R C (rnd (1 / 10 ^ 13)))
    (hC2 : (C : ℤ) ≤ 2 ^ 20 * wsW ws) (hR2 : (R : ℤ) ≤ 2 ^ 20 * wsH ws)
    (hws : inI32 ws.leftTop.x ∧ inI32 ws.leftTop.y ∧ inI32 ws.rightBot.x ∧ inI32 ws.rightBot.y)
    (g : Geometry) (lt rb : Coord) (hg : RectGeom g lt rb)
    (hrect : inI32 lt.x ∧ inI32 lt.y ∧ inI32 rb.x ∧ inI32 rb.y)
    (hx0 : lt.x ≤ ws.leftTop.x) (hx1 : ws.rightBot.x ≤ rb.x) (hy0 : ws.leftTop.y ≤ lt.y)
    (hy1 : rb.y ≤ ws.rightBot.y)
    (m : BitMatrix) (hm : Built m) (hR : m.isize = R) (hC : m.jsize = C) :
    ∃ m', zondGeometry rnd z (some g) m = .ok () m' ∧ ∀ i j, i < R → j < C → Lit m' i j := by
  subst hR; subst hC
  obtain ⟨w1, w2, w3, w4⟩ := hws
  obtain ⟨r1, r2, r3, r4⟩ := hrect
  have cellb : ∀ (W : Int) (n : Nat), 0 < n → (n : ℤ) ≤ 2 ^ 20 * W → W ≤ 2 ^ 32 →
      1 / 2 ^ 20 ≤ rnd ((W : ℚ) / n) ∧ rnd ((W : ℚ) / n) ≤ 2 ^ 32 := by
    intro W n hn h h'
    have pow : ∀ e : ℤ, rnd ((2 : ℚ) ^ e) = 2 ^ e := by
      intro e; have := hr.exact 1 e (by norm_num); simpa using this
    have nq : (1 : ℚ) ≤ n := by exact_mod_cast hn
    have hq : (n : ℚ) ≤ 2 ^ 20 * W := by exact_mod_cast h
    have hq' : (W : ℚ) ≤ 2 ^ 32 := by exact_mod_cast h'
    constructor
    · have e : (1 : ℚ) / 2 ^ 20 = 2 ^ (-20 : ℤ) := by norm_num
      rw [e, ← pow]; apply hr.mono
      rw [le_div_iff₀ (by linarith), ← e]; linarith
    · have e : (2 : ℚ) ^ 32 = 2 ^ (32 : ℤ) := by norm_num
      rw [e, ← pow]; apply hr.mono
      rw [div_le_iff₀ (by linarith), ← e]; nlinarith
  have hWm : wsW ws ≤ 2 ^ 32 := by unfold wsW inI32 at *; omega
  have hHm : wsH ws ≤ 2 ^ 32 := by unfold wsH inI32 at *; omega
  obtain ⟨dx1, dx2⟩ := cellb _ _ hs.cpos hC2 hWm
  obtain ⟨dy1, dy2⟩ := cellb _ _ hs.rpos hR2 hHm
  have ex : ∀ n : Int, inI32 n → rnd (n : ℚ) = n := by
    intro n hn
    apply hr.int
    rw [abs_le]; unfold inI32 at hn
    constructor <;> omega
  have hc : coversAll rnd z lt rb = true := by
    simp only [coversAll, hs.dx, hs.dy, hs.wks, hs.eps, Fl.ofInt, Fl.div, Fl.mul, Fl.sub, Fl.add, Fl.le,
      Bool.and_eq_true, decide_eq_true_eq, show (2 : ℚ) ≠ 0 by norm_num, if_false]
    refine ⟨⟨?_, ?_⟩, ?_, ?_⟩
    · rw [ex _ r1]
      exact le_trans (by exact_mod_cast hx0) (cover_margin hr w1 dx1 dx2).1
    · rw [ex _ r3]
      exact le_trans (cover_margin hr w3 dx1 dx2).2 (by exact_mod_cast hx1)
    · rw [ex _ r2]
      exact le_trans (cover_margin hr w2 dy1 dy2).2 (by exact_mod_cast hy0)
    · rw [ex _ r4]
      exact le_trans (by exact_mod_cast hy1) (cover_margin hr w4 dy1 dy2).1
  obtain ⟨m', e, l⟩ := built_paints hm (setup_all hs hg hc)
  exact ⟨m', e, fun i j hi hj => (l i j).mpr (Or.inr ⟨hi, hj, hi, hj⟩)⟩

/-- **C39** A rectangle that sticks out at the left or top without covering all centres is never drawn: the call
throws `invalid_argument` and leaves the bitmap unchanged (no undefined behaviour under the stated sizes). -/
theorem C39_left_top_throws (rnd : ℚ → ℚ) (hr : Rounding rnd) (z : Zond) (ws : Workspace) (R C : Nat) (ep : ℚ)
    (hs : SetUp rnd z ws R C ep) (g : Geometry) (lt rb : Coord) (hg : RectGeom g lt rb) (hf : DiffsFit ws lt rb)
    (hout : lt.x < ws.leftTop.x ∨ ws.leftTop.y < lt.y) (hnc : coversAll rnd z lt rb = false)
    (hx2 : colOf ws C rb.x ≤ 1073741824) (hy2 : rowOf ws R rb.y ≤ 1073741824)
    (m : BitMatrix) (hm : Built m) :
    zondGeometry rnd z (some g) m = .throw .invalidArgument m := by
  have hW : (0 : ℚ) < wsW ws := by exact_mod_cast hs.wpos
  have hH : (0 : ℚ) < wsH ws := by exact_mod_cast hs.hpos
  have hRq : (0 : ℚ) < R := by exact_mod_cast hs.rpos
  have hCq : (0 : ℚ) < C := by exact_mod_cast hs.cpos
  have px : 0 < (wsW ws : ℚ) / C := div_pos hW hCq
  have py : 0 < (wsH ws : ℚ) / R := div_pos hH hRq
  have lowr : ∀ w : ℚ, 0 < w → w * (1 - 1 / 2 ^ 53) ≤ rnd w := by
    intro w hw
    have := abs_le.mp (hr.relErr w)
    rw [abs_of_pos hw] at this
    linarith
  have pdx := lowr _ px
  have pdy := lowr _ py
  have pdx0 : 0 < rnd ((wsW ws : ℚ) / C) := lt_of_lt_of_le (mul_pos px (by norm_num)) pdx
  have pdy0 : 0 < rnd ((wsH ws : ℚ) / R) := lt_of_lt_of_le (mul_pos py (by norm_num)) pdy
  unfold colOf rowOf at *
  rw [div_le_iff₀ px] at hx2
  rw [div_le_iff₀ py] at hy2
  have hb : BoundsFit z.bound := by
    have := hs.rmax; have := hs.cmax; have := hs.rpos; have := hs.cpos
    rw [hs.bound]; unfold BoundsFit; dsimp only; omega
  have hrm := hs.rmax
  have hcm := hs.cmax
  rcases rect_defined hr hg hb (by rw [hs.wks]; exact hf) hs.dx hs.dy pdx0 pdy0
    (by rw [hs.wks]; nlinarith) (by rw [hs.wks]; nlinarith) m.isize m.jsize with ht | ⟨P, hp, _⟩
  · exact ht m (built_shape hm)
  · exfalso
    obtain ⟨m', e, _⟩ := hp m (built_shape hm)
    rw [rect_raw hg hnc, raw_eq hr (by rw [hs.wks]; exact hf) hs.dx hs.dy pdx0 pdy0,
      M.run_bind_ok (M.run_lift_ok _ _)] at e
    have negr : ∀ (n : Int) (d : ℚ), 0 < d → n < 0 → rnd ((n : ℚ) / d) < 0 := by
      intro n d hd hn
      have hq : (n : ℚ) / d < 0 := div_neg_of_neg_of_pos (by exact_mod_cast hn) hd
      have := abs_le.mp (hr.relErr ((n : ℚ) / d))
      rw [abs_of_neg hq] at this
      linarith
    have negp : ∀ (b : ℚ) (e dl ep : Fl) (b1 b2 : Nat), b < 0 →
        normPair rnd (.fin b) e dl ep b1 b2 = .throw .invalidArgument := by
      intro b e dl ep b1 b2 hb
      have : (Fl.fin b).lt (.fin 0) = true := by simp [Fl.lt]; exact hb
      unfold normPair; rw [this]; rfl
    cases hn : normIndicies rnd z
      (.fin (rnd (((z.ws.leftTop.y - lt.y : Int) : ℚ) / rnd ((wsH ws : ℚ) / R))))
      (.fin (rnd (((z.ws.leftTop.y - rb.y : Int) : ℚ) / rnd ((wsH ws : ℚ) / R))))
      (.fin (rnd (((lt.x - z.ws.leftTop.x : Int) : ℚ) / rnd ((wsW ws : ℚ) / C))))
      (.fin (rnd (((rb.x - z.ws.leftTop.x : Int) : ℚ) / rnd ((wsW ws : ℚ) / C)))) with
    | throw x => dsimp only at e; rw [hn] at e; cases e
    | ub => dsimp only at e; rw [hn] at e; cases e
    | ok n =>
      obtain ⟨p, q, hp1, hq1, _⟩ := normIndicies_ok hn
      rcases hout with h | h
      · rw [negp _ _ _ _ _ _ (negr _ _ pdx0 (by rw [hs.wks]; omega))] at hq1; cases hq1
      · rw [negp _ _ _ _ _ _ (negr _ _ pdy0 (by rw [hs.wks]; omega))] at hp1; cases hp1

/-- **C39** The overshoot is real: if the right end is in the second half of its column (and not in the last
one, nor in the column of the left end), the whole next column is drawn too, although its centre is outside. -/
theorem C39_overshoot (z : Zond) (ws : Workspace) (R C : Nat) (ep : ℚ) (hs : SetUp id z ws R C ep)
    (hep : 0 ≤ ep) (hex : ep * ((wsW ws : ℚ) / C) < 1 / 2) (hey : ep * ((wsH ws : ℚ) / R) < 1 / 2)
    (g : Geometry) (lt rb : Coord) (hg : RectGeom g lt rb) (hf : DiffsFit ws lt rb)
    (hx0 : ws.leftTop.x ≤ lt.x) (hx1 : lt.x ≤ rb.x) (hy0 : lt.y ≤ ws.leftTop.y) (hy1 : rb.y ≤ lt.y)
    (hx2 : colOf ws C rb.x < (C : ℚ) - 1) (hy2 : rowOf ws R rb.y < 2147483648)
    (hhalf : 1 / 2 ≤ colOf ws C rb.x - ⌊colOf ws C rb.x⌋) (hdiff : ⌊colOf ws C lt.x⌋ ≠ ⌊colOf ws C rb.x⌋)
    (m : BitMatrix) (hm : Built m) (hR : m.isize = R) (hC : m.jsize = C) (i j : Nat) (hi : i < R)
    (hrow : InRect lt rb lt.x (centreY ws R i)) (hj : (j : ℤ) = ⌊colOf ws C rb.x⌋ + 1) :
    ∃ m', zondGeometry id z (some g) m = .ok () m' ∧ Lit m' i j ∧ (rb.x : ℚ) < centreX ws C j := by
  have hW : (0 : ℚ) < wsW ws := by exact_mod_cast hs.wpos
  have hH : (0 : ℚ) < wsH ws := by exact_mod_cast hs.hpos
  have hRq : (0 : ℚ) < R := by exact_mod_cast hs.rpos
  have hCq : (0 : ℚ) < C := by exact_mod_cast hs.cpos
  have px : 0 < (wsW ws : ℚ) / C := div_pos hW hCq
  have py : 0 < (wsH ws : ℚ) / R := div_pos hH hRq
  have hcm : (C : ℚ) ≤ 2147483647 := by exact_mod_cast hs.cmax
  obtain ⟨m', e, l⟩ := C39_exact_cells z ws R C ep hs hep hex hey g lt rb hg hf hx0 hx1 hy0 hy1
    (by linarith) hy2 m hm hR hC
  have hjq : (j : ℚ) = ⌊colOf ws C rb.x⌋ + 1 := by exact_mod_cast hj
  have fle := Int.floor_le (colOf ws C rb.x)
  have flt := Int.lt_floor_add_one (colOf ws C rb.x)
  have tx0 := mul_nonneg hep px.le
  have ty0 := mul_nonneg hep py.le
  have hjC : j < C := by
    have : (j : ℚ) < C := by rw [hjq]; linarith
    exact_mod_cast this
  refine ⟨m', e, (l i j hi hjC).mpr (Or.inr ⟨⟨?_, Or.inl ?_⟩, ?_, Or.inr ⟨hdiff, Or.inl ⟨hx2, hhalf, hj⟩⟩⟩), ?_⟩
  · have := hrow.2.2.2
    unfold rowOf centreY at *
    rw [div_le_iff₀ py]; push_cast; nlinarith
  · have := hrow.2.2.1
    unfold rowOf centreY at *
    have h2 : (i : ℚ) + 1 / 2 ≤ ((ws.leftTop.y - rb.y : Int) : ℚ) / ((wsH ws : ℚ) / R) := by
      rw [le_div_iff₀ py]; push_cast; nlinarith
    linarith
  · have : colOf ws C lt.x ≤ colOf ws C rb.x := by
      unfold colOf
      rw [div_le_div_iff_of_pos_right px]
      push_cast
      have : (lt.x : ℚ) ≤ rb.x := by exact_mod_cast hx1
      linarith
    rw [hjq]; linarith
  · have : colOf ws C rb.x < (j : ℚ) + 1 / 2 := by rw [hjq]; linarith
    unfold colOf at this
    rw [div_lt_iff₀ px] at this
    unfold centreX
    push_cast at this
    linarith

/-! Concrete cases: a 100×100 workspace on a 10×10 bitmap and the rectangle x 20..25+20, y 20..40 from the top. -/

def exWs : Workspace := ⟨⟨0, 100⟩, ⟨100, 0⟩⟩
def exRect (x0 y0 x1 y1 : Int) : Geometry :=
  { type := .rectangle, coords := [⟨x0, y0⟩, ⟨x1, y0⟩, ⟨x1, y1⟩, ⟨x0, y1⟩, ⟨x0, y0⟩] }
def exZond (rnd : ℚ → ℚ) : Zond :=
  { bound := ⟨0, 9, 0, 9⟩, ws := exWs, dx := .fin (rnd 10), dy := .fin (rnd 10), eps := .fin (rnd (1 / 10 ^ 13)) }

theorem exSetUp (rnd : ℚ → ℚ) : SetUp rnd (exZond rnd) exWs 10 10 (rnd (1 / 10 ^ 13)) where
  bound := rfl
  wks := rfl
  dx := by simp only [exZond, wsW, exWs]; norm_num
  dy := by simp only [exZond, wsH, exWs]; norm_num
  eps := rfl
  rpos := by norm_num
  cpos := by norm_num
  rmax := by norm_num
  cmax := by norm_num
  wpos := by decide
  hpos := by decide

/-- hypotheses of `C39_centres_covered`, `C37_no_ub` and `C39_exact_cells` are met -/
example : ∃ m', zondGeometry rne (exZond rne) (some (exRect 20 80 45 60)) (BitMatrix.new Alloc.ok 10 10) = .ok () m' ∧
    ∀ i j, i < 10 → j < 10 → InRect ⟨20, 80⟩ ⟨45, 60⟩ (centreX exWs 10 j) (centreY exWs 10 i) → Lit m' i j :=
  C39_centres_covered rne rne_rounding (exZond rne) exWs 10 10 (exSetUp rne) (by decide) (by decide)
    (exRect 20 80 45 60) ⟨20, 80⟩ ⟨45, 60⟩ ⟨rfl, _, _, rfl⟩ (by unfold DiffsFit inI32; decide) (by decide) (by decide) (by decide)
    (by decide) (by unfold colOf wsW exWs; norm_num) (by unfold rowOf wsH exWs; norm_num) _
    (.new 10 10 (by norm_num) (by norm_num)) rfl rfl

/-- the overshoot: the rectangle ends at x = 45, column 5 (50..60) is drawn -/
example : ∃ m', zondGeometry id (exZond id) (some (exRect 20 80 45 60)) (BitMatrix.new Alloc.ok 10 10) = .ok () m' ∧
    Lit m' 3 5 ∧ (45 : ℚ) < centreX exWs 10 5 := by
  have fl1 : colOf exWs 10 45 = 9 / 2 := by unfold colOf wsW exWs; norm_num
  have fl2 : colOf exWs 10 20 = 2 := by unfold colOf wsW exWs; norm_num
  have f1 : ⌊(9 / 2 : ℚ)⌋ = 4 := by norm_num [Int.floor_eq_iff]
  have f2 : ⌊(2 : ℚ)⌋ = 2 := by norm_num
  exact C39_overshoot (exZond id) exWs 10 10 _ (exSetUp id) (by norm_num) (by unfold wsW exWs; norm_num)
    (by unfold wsH exWs; norm_num) (exRect 20 80 45 60) ⟨20, 80⟩ ⟨45, 60⟩ ⟨rfl, _, _, rfl⟩
    (by unfold DiffsFit inI32; decide) (by decide) (by decide) (by decide) (by decide)
    (by rw [fl1]; norm_num) (by unfold rowOf wsH exWs; norm_num) (by rw [fl1, f1]; norm_num)
    (by rw [fl1, fl2, f1, f2]; norm_num) _ (.new 10 10 (by norm_num) (by norm_num)) rfl rfl 3 5 (by norm_num)
    (by unfold InRect centreY wsH exWs; norm_num) (by rw [fl1, f1]; norm_num)

/-- sticking out on the left throws -/
example : zondGeometry rne (exZond rne) (some (exRect (-20) 80 45 60)) (BitMatrix.new Alloc.ok 10 10) =
    .throw .invalidArgument (BitMatrix.new Alloc.ok 10 10) :=
  C39_left_top_throws rne rne_rounding (exZond rne) exWs 10 10 _ (exSetUp rne) (exRect (-20) 80 45 60) ⟨-20, 80⟩
    ⟨45, 60⟩ ⟨rfl, _, _, rfl⟩ (by unfold DiffsFit inI32; decide) (Or.inl (by decide)) (by decide +kernel)
    (by unfold colOf wsW exWs; norm_num) (by unfold rowOf wsH exWs; norm_num) _
    (.new 10 10 (by norm_num) (by norm_num))

/-- covering everything -/
example : ∃ m', zondGeometry rne (exZond rne) (some (exRect (-20) 180 145 (-60))) (BitMatrix.new Alloc.ok 10 10) =
    .ok () m' ∧ ∀ i j, i < 10 → j < 10 → Lit m' i j :=
  C39_cover_all rne rne_rounding (exZond rne) exWs 10 10 (exSetUp rne) (by decide) (by decide)
    (by unfold inI32; decide) (exRect (-20) 180 145 (-60)) ⟨-20, 180⟩ ⟨145, -60⟩ ⟨rfl, _, _, rfl⟩
    (by unfold inI32; decide) (by decide) (by decide) (by decide) (by decide) _
    (.new 10 10 (by norm_num) (by norm_num)) rfl rfl

/-- drawing twice, and in either order -/
example : zondAll rne (exZond rne) [some (exRect 20 80 45 60), some (exRect 50 50 60 40)] (BitMatrix.new Alloc.ok 10 10) =
    zondAll rne (exZond rne) [some (exRect 50 50 60 40), some (exRect 20 80 45 60)] (BitMatrix.new Alloc.ok 10 10) := by
  decide +kernel

/-! ### C48 -/

/-- a tolerance outside [0, 0.5] (NaN counts as inside, no comparison with it is true) -/
def BadEps (rnd : ℚ → ℚ) (e : Fl) : Prop := e.lt (.fin 0) = true ∨ (Fl.fin (rnd (1 / 2))).lt e = true

/-- a sequence of `SetEps` calls whose exceptions the caller catches -/
def setEpsAll (rnd : ℚ → ℚ) : List Fl → Zond → Zond
  | [], z => z
  | v :: vs, z =>
    match setEps rnd v z with
    | .ok _ z' => setEpsAll rnd vs z'
    | .throw _ z' => setEpsAll rnd vs z'
    | .ub => z

/-- **C48** `SetEps` checks the old tolerance, not the new one: any value, however wrong, is accepted while the
current one is in range … -/
theorem C48_setEps_accepts_anything (rnd : ℚ → ℚ) (z : Zond) (h : ¬ BadEps rnd z.eps) (v : Fl) :
    setEps rnd v z = .ok () { z with eps := v } := by
  unfold BadEps at h
  unfold setEps
  rw [if_neg]
  rw [Bool.or_eq_true]; exact h

/-- **C48** … and once a bad value is in, every later call throws and the bad value stays for ever, whatever
is passed. -/
theorem C48_setEps_stuck (rnd : ℚ → ℚ) (z : Zond) (h : BadEps rnd z.eps) (vs : List Fl) :
    setEpsAll rnd vs z = z ∧ ∀ v, setEps rnd v z = .throw .invalidArgument z := by
  have key : ∀ v, setEps rnd v z = .throw .invalidArgument z := by
    intro v
    unfold setEps
    rw [if_pos]
    rw [Bool.or_eq_true]; exact h
  refine ⟨?_, key⟩
  induction vs with
  | nil => rfl
  | cons v vs ih => simp only [setEpsAll, key]; exact ih

/-- **C48** `SetDeltas` throws exactly when one of the values is negative; otherwise it stores both (zero and NaN
included) and touches nothing else. -/
theorem C48_setDeltas (z : Zond) (dx dy : Fl) :
    ((dy.lt (.fin 0) = true ∨ dx.lt (.fin 0) = true) ∧ setDeltas dx dy z = .throw .invalidArgument z) ∨
    ((dy.lt (.fin 0) = false ∧ dx.lt (.fin 0) = false) ∧ setDeltas dx dy z = .ok () { z with dx := dx, dy := dy }) := by
  unfold setDeltas
  cases h1 : dy.lt (.fin 0) <;> cases h2 : dx.lt (.fin 0) <;> simp

example : BadEps rne (.fin (-3)) ∧ ¬ BadEps rne (.fin 0) := by
  unfold BadEps; constructor
  · left; decide
  · rintro (h | h) <;> revert h <;> decide +kernel

end Verif.Props
