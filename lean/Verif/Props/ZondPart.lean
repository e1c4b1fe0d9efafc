import Verif.Proofs.ZondPart
import Verif.Props.ZondCover
import Verif.Props.Fragment

/-! C73: a rasteriser that draws into a part of the bitmap which does not begin at row 0 or column 0. -/

namespace Verif.Props
open Verif BitMatrix Zond Spec Ieee

theorem coversAll_exact {z : Zond} {ws : Workspace} {i0 R j0 C : Nat} {ep : ℚ} (hs : PartSetUp id z ws i0 R j0 C ep)
    (lt rb : Coord) : coversAll id z lt rb = true ↔ CoversCentres ws R C ep lt rb := by
  have hRq : (0 : ℚ) < R := by exact_mod_cast hs.rpos
  have hCq : (0 : ℚ) < C := by exact_mod_cast hs.cpos
  have eW : (ws.rightBot.x : ℚ) = ws.leftTop.x + C * ((wsW ws : ℚ) / C) := by
    rw [mul_div_cancel₀ _ hCq.ne']; unfold wsW; push_cast; ring
  have eH : (ws.rightBot.y : ℚ) = ws.leftTop.y - R * ((wsH ws : ℚ) / R) := by
    rw [mul_div_cancel₀ _ hRq.ne']; unfold wsH; push_cast; ring
  have cC : ((C - 1 : Nat) : ℚ) = C - 1 := by rw [Nat.cast_sub hs.cpos]; simp
  have cR : ((R - 1 : Nat) : ℚ) = R - 1 := by rw [Nat.cast_sub hs.rpos]; simp
  have zdx := hs.dx
  have zdy := hs.dy
  unfold CoversCentres centreX centreY
  rw [cC, cR]
  simp only [coversAll, zdx, zdy, hs.wks, hs.eps, Fl.ofInt, Fl.div, Fl.mul, Fl.sub, Fl.add, Fl.le, id,
      Bool.and_eq_true, decide_eq_true_eq, show (2 : ℚ) ≠ 0 by norm_num, if_false]
  rw [eW, eH]
  generalize (wsW ws : ℚ) / C = DX
  generalize (wsH ws : ℚ) / R = DY
  constructor
  · rintro ⟨⟨c1, c2⟩, c3, c4⟩
    refine ⟨⟨?_, ?_⟩, ?_, ?_⟩ <;> push_cast <;> linarith
  · rintro ⟨⟨c1, c2⟩, c3, c4⟩
    push_cast at c1 c3
    refine ⟨⟨?_, ?_⟩, ?_, ?_⟩ <;> linarith

/-- **C73** Exact arithmetic: the precise set of cells that a rectangle turns on when the rasteriser draws into the part of
the bitmap that has `R` rows from `i0` on and `C` columns from `j0` on, for every part, workspace and rectangle that does not
stick out at the left or top. -/
theorem C73_exact (z : Zond) (ws : Workspace) (i0 R j0 C : Nat) (ep : ℚ) (hs : PartSetUp id z ws i0 R j0 C ep)
    (hep : 0 ≤ ep) (hex : ep * ((wsW ws : ℚ) / C) < 1 / 2) (hey : ep * ((wsH ws : ℚ) / R) < 1 / 2)
    (g : Geometry) (lt rb : Coord) (hg : RectGeom g lt rb) (hf : DiffsFit ws lt rb)
    (hx0 : ws.leftTop.x ≤ lt.x) (hx1 : lt.x ≤ rb.x) (hy0 : lt.y ≤ ws.leftTop.y) (hy1 : rb.y ≤ lt.y)
    (hx2 : colOf ws C rb.x < 2147483648) (hy2 : rowOf ws R rb.y < 2147483648)
    (m : BitMatrix) (hm : Built m) (hR : i0 + R ≤ m.isize) (hC : j0 + C ≤ m.jsize) :
    ∃ m', zondGeometry id z (some g) m = .ok () m' ∧
      ∀ i j, Lit m' i j ↔ Lit m i j ∨ ∃ r s, i = i0 + r ∧ j = j0 + s ∧ r < R ∧ s < C ∧
        (CoversCentres ws R C ep lt rb ∨
          (PartCell (rowOf ws R lt.y) (rowOf ws R rb.y) (ep * ((wsH ws : ℚ) / R)) i0 R r ∧
           PartCell (colOf ws C lt.x) (colOf ws C rb.x) (ep * ((wsW ws : ℚ) / C)) j0 C s)) := by
  have hcov := coversAll_exact hs lt rb
  have hW : (0 : ℚ) < wsW ws := by exact_mod_cast hs.wpos
  have hH : (0 : ℚ) < wsH ws := by exact_mod_cast hs.hpos
  have hRq : (0 : ℚ) < R := by exact_mod_cast hs.rpos
  have hCq : (0 : ℚ) < C := by exact_mod_cast hs.cpos
  have pdx : 0 < (wsW ws : ℚ) / C := div_pos hW hCq
  have pdy : 0 < (wsH ws : ℚ) / R := div_pos hH hRq
  have zdx : z.dx = .fin ((wsW ws : ℚ) / C) := hs.dx
  have zdy : z.dy = .fin ((wsH ws : ℚ) / R) := hs.dy
  have nn : ∀ a b : Int, a ≤ b → ∀ d : ℚ, 0 < d → (0 : ℚ) ≤ ((b - a : Int) : ℚ) / d := by
    intro a b h d hd
    apply div_nonneg _ hd.le
    have : 0 ≤ b - a := by omega
    exact_mod_cast this
  have mono : ∀ a b : Int, a ≤ b → ∀ d : ℚ, 0 < d → (a : ℚ) / d ≤ (b : ℚ) / d := by
    intro a b h d hd
    rw [div_le_div_iff_of_pos_right hd]
    exact_mod_cast h
  have i0' := nn lt.y ws.leftTop.y hy0 _ pdy
  have j0' := nn ws.leftTop.x lt.x hx0 _ pdx
  have i1 := mono (ws.leftTop.y - lt.y) (ws.leftTop.y - rb.y) (by omega) _ pdy
  have j1 := mono (lt.x - ws.leftTop.x) (rb.x - ws.leftTop.x) (by omega) _ pdx
  obtain ⟨p, hp, sp⟩ := sel_part (f := i0) i0' i1 hy2 pdy hs.rpos (mul_nonneg hep pdy.le) hey
  obtain ⟨q, hq, sq⟩ := sel_part (f := j0) j0' j1 hx2 pdx hs.cpos (mul_nonneg hep pdx.le) hex
  cases hc : coversAll id z lt rb with
  | false =>
    have hnc : ¬ CoversCentres ws R C ep lt rb := fun h => by rw [hcov.2 h] at hc; cases hc
    have hraw := raw_eq (rnd := id) id_rounding (z := z) (lt := lt) (rb := rb) (by rw [hs.wks]; exact hf) zdx zdy pdx pdy
    rw [hs.wks] at hraw
    obtain ⟨m', e, l⟩ := built_paints hm (part_paints hs hg hc hraw i0' i1 hy2 j0' j1 hx2
      (by rw [zdx]; simp [Fl.le]; exact pdx) (by rw [zdy]; simp [Fl.le]; exact pdy)
      (p := p) (q := q) (by rw [zdy, hs.eps]; exact hp) (by rw [zdx, hs.eps]; exact hq) m.isize m.jsize)
    refine ⟨m', e, fun i j => ?_⟩
    rw [l]
    refine or_congr_right ⟨?_, ?_⟩
    · rintro ⟨-, -, -, -, r, s, e1, e2, h1, h2, h3, h4⟩
      exact ⟨r, s, e1, e2, h1, h2, .inr ⟨(sp r h1).1 h3, (sq s h2).1 h4⟩⟩
    · rintro ⟨r, s, e1, e2, h1, h2, h | ⟨h3, h4⟩⟩
      · exact absurd h hnc
      · exact ⟨by omega, by omega, by omega, by omega, r, s, e1, e2, h1, h2, (sp r h1).2 h3, (sq s h2).2 h4⟩
  | true =>
    obtain ⟨m', e, l⟩ := built_paints hm (part_all hs hg hc m.isize m.jsize)
    refine ⟨m', e, fun i j => ?_⟩
    rw [l]
    refine or_congr_right ⟨?_, ?_⟩
    · rintro ⟨-, -, -, -, r, s, e1, e2, h1, h2⟩
      exact ⟨r, s, e1, e2, h1, h2, .inl (hcov.1 hc)⟩
    · rintro ⟨r, s, e1, e2, h1, h2, -⟩
      exact ⟨by omega, by omega, by omega, by omega, r, s, e1, e2, h1, h2⟩

/-- one axis: a rectangle that clearly crosses a grid line and clearly begins before index `f` of the part -/
theorem axis_late {rnd : ℚ → ℚ} (hr : Rounding rnd) {w : ℚ} {a b : Int} {f b2 : Nat} {ep : Fl} (hw : 0 < w) (ha : 0 ≤ a) (hab : a ≤ b)
    (hb : (b : ℚ) / w ≤ 1073741824) (hf : f ≤ 2147483647) (k : Nat) (h1 : (a : ℚ) / w ≤ k - 1 / 1000) (h2 : k + 1 / 1000 ≤ (b : ℚ) / w)
    (h3 : (a : ℚ) / w ≤ f - 1 / 1000) :
    0 < rnd w ∧ 0 ≤ rnd (a / rnd w) ∧ rnd (a / rnd w) ≤ rnd (b / rnd w) ∧ rnd (b / rnd w) < 2147483648 ∧
    ∃ p, normPair rnd (.fin (rnd (a / rnd w))) (.fin (rnd (b / rnd w))) (.fin (rnd w)) ep f b2 = .ok p ∧ f ≤ p.1 := by
  have haq : (0 : ℚ) ≤ a := by exact_mod_cast ha
  have hbq : (0 : ℚ) ≤ b := by exact_mod_cast le_trans ha hab
  have k0 : (0 : ℚ) ≤ k := Nat.cast_nonneg k
  have hfq : (f : ℚ) ≤ 2147483647 := by exact_mod_cast hf
  obtain ⟨pw, hb'⟩ := axis_upper hr (n := 1073741824) hw hbq hb (by norm_num)
  have c0 : 0 ≤ rnd (a / rnd w) := by
    have := hr.mono 0 (a / rnd w) (div_nonneg haq pw.le)
    rwa [hr.zero] at this
  have c1 : rnd (a / rnd w) ≤ rnd (b / rnd w) := by
    apply hr.mono
    rw [div_le_div_iff_of_pos_right pw]
    exact_mod_cast hab
  have c2 : rnd (b / rnd w) < 2147483648 := by
    refine lt_of_le_of_lt hb' ?_
    norm_num
  refine ⟨pw, c0, c1, c2, ?_⟩
  have A1 := (axis_upper hr (n := 1073741824) hw haq h1 (by push_cast; linarith)).2
  have A2 := (axis_upper hr (n := 2147483647) hw haq h3 (by push_cast; linarith)).2
  have A3 := axis_lower hr (n := 1073741824) hw (by linarith) h2 (by push_cast; linarith)
  push_cast at A1 A2 A3
  have l1 : ⌊rnd (a / rnd w)⌋ < (k : ℤ) := by
    rw [Int.floor_lt]; push_cast; linarith
  have l2 : (k : ℤ) ≤ ⌊rnd (b / rnd w)⌋ := by
    rw [Int.le_floor]; push_cast; linarith
  have hd : (Fl.fin (rnd w)).le (.fin 0) = false := by simp [Fl.le]; exact pw
  obtain ⟨q1, q2, hq, -⟩ := normPair_range (rnd := rnd) (eps := ep) (b1 := 0) (b2 := b2) (delta := .fin (rnd w)) c0 c1 c2 hd
  have hfr : rnd (f : ℚ) = f := by
    have := hr.int (f : ℤ) (by rw [abs_le]; constructor <;> omega)
    simpa using this
  refine ⟨_, normPair_begin c0 c1 c2 hd hr.zero hfr hq, ?_⟩
  rw [if_pos ⟨by omega, by linarith⟩]

/-- one axis without assumptions on the length -/
theorem axis_any {rnd : ℚ → ℚ} (hr : Rounding rnd) {w : ℚ} {a b : Int} {f b2 : Nat} {ep : Fl} (hw : 0 < w) (ha : 0 ≤ a) (hab : a ≤ b)
    (hb : (b : ℚ) / w ≤ 1073741824) :
    0 < rnd w ∧ 0 ≤ rnd (a / rnd w) ∧ rnd (a / rnd w) ≤ rnd (b / rnd w) ∧ rnd (b / rnd w) < 2147483648 ∧
    ∃ p, normPair rnd (.fin (rnd (a / rnd w))) (.fin (rnd (b / rnd w))) (.fin (rnd w)) ep f b2 = .ok p := by
  have haq : (0 : ℚ) ≤ a := by exact_mod_cast ha
  have hbq : (0 : ℚ) ≤ b := by exact_mod_cast le_trans ha hab
  obtain ⟨pw, hb'⟩ := axis_upper hr (n := 1073741824) hw hbq hb (by norm_num)
  have c0 : 0 ≤ rnd (a / rnd w) := by
    have := hr.mono 0 (a / rnd w) (div_nonneg haq pw.le)
    rwa [hr.zero] at this
  have c1 : rnd (a / rnd w) ≤ rnd (b / rnd w) := by
    apply hr.mono
    rw [div_le_div_iff_of_pos_right pw]
    exact_mod_cast hab
  have c2 : rnd (b / rnd w) < 2147483648 := by
    refine lt_of_le_of_lt hb' ?_
    norm_num
  refine ⟨pw, c0, c1, c2, ?_⟩
  obtain ⟨q1, q2, hq, -⟩ := normPair_range (rnd := rnd) (eps := ep) (b1 := f) (b2 := b2) (delta := .fin (rnd w)) c0 c1 c2
    (by simp [Fl.le]; exact pw)
  exact ⟨_, hq⟩

/-- the part's rasteriser covers exactly when the same rasteriser for a whole bitmap does -/
theorem part_not_covers {rnd : ℚ → ℚ} (hr : Rounding rnd) {z : Zond} {ws : Workspace} {i0 R j0 C : Nat} {ep : ℚ}
    (hs : PartSetUp rnd z ws i0 R j0 C ep) (he0 : 0 ≤ ep) (he1 : ep ≤ 1 / 10 ^ 12) (hC2 : (C : ℤ) ≤ 256 * wsW ws) (hR2 : (R : ℤ) ≤ 256 * wsH ws)
    (hws : inI32 ws.leftTop.x ∧ inI32 ws.leftTop.y ∧ inI32 ws.rightBot.x ∧ inI32 ws.rightBot.y) {lt rb : Coord}
    (hrect : inI32 lt.x ∧ inI32 lt.y ∧ inI32 rb.x ∧ inI32 rb.y) (hm : MissesACentre ws R C lt rb) :
    coversAll rnd z lt rb = false :=
  misses_not_covers_tol hr (z := { z with bound := ⟨0, R - 1, 0, C - 1⟩ }) (R := R) (C := C)
    ⟨rfl, hs.wks, hs.dx, hs.dy, hs.eps, hs.rpos, hs.cpos, by have := hs.rmax; omega, by have := hs.cmax; omega, hs.wpos, hs.hpos⟩
    he0 he1 hC2 hR2 hws hrect hm

/-- **C73** In `double` arithmetic, with a tolerance of 0 (the fragments') up to 1e-12 (the generator's is 1e-13): a rectangle that begins inside the window, clearly crosses
one of the part's vertical grid lines and misses the centre of one of its cells is not drawn in the first `j0` columns of a
part that begins at column `j0`, if it begins there. -/
theorem C73_columns_lost (rnd : ℚ → ℚ) (hr : Rounding rnd) (z : Zond) (ws : Workspace) (i0 R j0 C : Nat) (ep : ℚ)
    (hs : PartSetUp rnd z ws i0 R j0 C ep) (he0 : 0 ≤ ep) (he1 : ep ≤ 1 / 10 ^ 12) (hC2 : (C : ℤ) ≤ 256 * wsW ws) (hR2 : (R : ℤ) ≤ 256 * wsH ws)
    (hws : inI32 ws.leftTop.x ∧ inI32 ws.leftTop.y ∧ inI32 ws.rightBot.x ∧ inI32 ws.rightBot.y)
    (g : Geometry) (lt rb : Coord) (hg : RectGeom g lt rb) (hrect : inI32 lt.x ∧ inI32 lt.y ∧ inI32 rb.x ∧ inI32 rb.y)
    (hf : DiffsFit ws lt rb) (hmiss : MissesACentre ws R C lt rb)
    (hx0 : ws.leftTop.x ≤ lt.x) (hx1 : lt.x ≤ rb.x) (hy0 : lt.y ≤ ws.leftTop.y) (hy1 : rb.y ≤ lt.y)
    (hx2 : colOf ws C rb.x ≤ 1073741824) (hy2 : rowOf ws R rb.y ≤ 1073741824)
    (k : Nat) (hk1 : colOf ws C lt.x ≤ k - 1 / 1000) (hk2 : k + 1 / 1000 ≤ colOf ws C rb.x)
    (hbeg : colOf ws C lt.x ≤ j0 - 1 / 1000) (m : BitMatrix) (hm : Built m) :
    ∃ m', zondGeometry rnd z (some g) m = .ok () m' ∧ m'.isize = m.isize ∧ m'.jsize = m.jsize ∧
      ∀ i j, Lit m' i j → Lit m i j ∨ 2 * j0 ≤ j := by
  have pdx : 0 < (wsW ws : ℚ) / C := div_pos (by exact_mod_cast hs.wpos) (by exact_mod_cast hs.cpos)
  have pdy : 0 < (wsH ws : ℚ) / R := div_pos (by exact_mod_cast hs.hpos) (by exact_mod_cast hs.rpos)
  have hc := part_not_covers hr hs he0 he1 hC2 hR2 hws hrect hmiss
  have hcm := hs.cmax
  obtain ⟨qw, a1, a2, a3, q, hq, hq1⟩ := axis_late hr (f := j0) (b2 := j0 + C - 1) (ep := z.eps) pdx (by omega) (by omega) hx2
    (by omega) k hk1 hk2 hbeg
  obtain ⟨qh, b1, b2, b3, p, hp⟩ := axis_any hr (a := ws.leftTop.y - lt.y) (b := ws.leftTop.y - rb.y) (f := i0)
    (b2 := i0 + R - 1) (ep := z.eps) pdy (by omega) (by omega) hy2
  have hraw := raw_eq (rnd := rnd) hr (z := z) (lt := lt) (rb := rb) (by rw [hs.wks]; exact hf) hs.dx hs.dy qw qh
  rw [hs.wks] at hraw
  have hP := part_paints hs hg hc hraw b1 b2 b3 a1 a2 a3
      (by rw [hs.dx]; simp [Fl.le]; exact qw) (by rw [hs.dy]; simp [Fl.le]; exact qh)
      (p := p) (q := q) (by rw [hs.dy]; exact hp) (by rw [hs.dx]; exact hq) m.isize m.jsize
  obtain ⟨m', e, o⟩ := hP m (built_shape hm)
  have ho := ones_lit hm o
  refine ⟨m', e, ho.2.1, ho.2.2.1, fun i j hl => ?_⟩
  rcases (ho.2.2.2 i j).1 hl with h | ⟨-, -, -, -, r, s, e1, e2, h1, h2, h3, h4⟩
  · exact .inl h
  · right; omega

/-- **C73** the same for rows -/
theorem C73_rows_lost (rnd : ℚ → ℚ) (hr : Rounding rnd) (z : Zond) (ws : Workspace) (i0 R j0 C : Nat) (ep : ℚ)
    (hs : PartSetUp rnd z ws i0 R j0 C ep) (he0 : 0 ≤ ep) (he1 : ep ≤ 1 / 10 ^ 12) (hC2 : (C : ℤ) ≤ 256 * wsW ws) (hR2 : (R : ℤ) ≤ 256 * wsH ws)
    (hws : inI32 ws.leftTop.x ∧ inI32 ws.leftTop.y ∧ inI32 ws.rightBot.x ∧ inI32 ws.rightBot.y)
    (g : Geometry) (lt rb : Coord) (hg : RectGeom g lt rb) (hrect : inI32 lt.x ∧ inI32 lt.y ∧ inI32 rb.x ∧ inI32 rb.y)
    (hf : DiffsFit ws lt rb) (hmiss : MissesACentre ws R C lt rb)
    (hx0 : ws.leftTop.x ≤ lt.x) (hx1 : lt.x ≤ rb.x) (hy0 : lt.y ≤ ws.leftTop.y) (hy1 : rb.y ≤ lt.y)
    (hx2 : colOf ws C rb.x ≤ 1073741824) (hy2 : rowOf ws R rb.y ≤ 1073741824)
    (k : Nat) (hk1 : rowOf ws R lt.y ≤ k - 1 / 1000) (hk2 : k + 1 / 1000 ≤ rowOf ws R rb.y)
    (hbeg : rowOf ws R lt.y ≤ i0 - 1 / 1000) (m : BitMatrix) (hm : Built m) :
    ∃ m', zondGeometry rnd z (some g) m = .ok () m' ∧ m'.isize = m.isize ∧ m'.jsize = m.jsize ∧
      ∀ i j, Lit m' i j → Lit m i j ∨ 2 * i0 ≤ i := by
  have pdx : 0 < (wsW ws : ℚ) / C := div_pos (by exact_mod_cast hs.wpos) (by exact_mod_cast hs.cpos)
  have pdy : 0 < (wsH ws : ℚ) / R := div_pos (by exact_mod_cast hs.hpos) (by exact_mod_cast hs.rpos)
  have hc := part_not_covers hr hs he0 he1 hC2 hR2 hws hrect hmiss
  have hrm := hs.rmax
  obtain ⟨qh, b1, b2, b3, p, hp, hp1⟩ := axis_late hr (f := i0) (b2 := i0 + R - 1) (ep := z.eps) pdy (by omega) (by omega) hy2
    (by omega) k hk1 hk2 hbeg
  obtain ⟨qw, a1, a2, a3, q, hq⟩ := axis_any hr (a := lt.x - ws.leftTop.x) (b := rb.x - ws.leftTop.x) (f := j0)
    (b2 := j0 + C - 1) (ep := z.eps) pdx (by omega) (by omega) hx2
  have hraw := raw_eq (rnd := rnd) hr (z := z) (lt := lt) (rb := rb) (by rw [hs.wks]; exact hf) hs.dx hs.dy qw qh
  rw [hs.wks] at hraw
  have hP := part_paints hs hg hc hraw b1 b2 b3 a1 a2 a3
      (by rw [hs.dx]; simp [Fl.le]; exact qw) (by rw [hs.dy]; simp [Fl.le]; exact qh)
      (p := p) (q := q) (by rw [hs.dy]; exact hp) (by rw [hs.dx]; exact hq) m.isize m.jsize
  obtain ⟨m', e, o⟩ := hP m (built_shape hm)
  have ho := ones_lit hm o
  refine ⟨m', e, ho.2.1, ho.2.2.1, fun i j hl => ?_⟩
  rcases (ho.2.2.2 i j).1 hl with h | ⟨-, -, -, -, r, s, e1, e2, h1, h2, h3, h4⟩
  · exact .inl h
  · right; omega

/-- **C73** So a part at least as far from the left border as it is wide loses the rectangle completely: the call returns
normally and no bit changes. -/
theorem C73_nothing_drawn (rnd : ℚ → ℚ) (hr : Rounding rnd) (z : Zond) (ws : Workspace) (i0 R j0 C : Nat) (ep : ℚ)
    (hs : PartSetUp rnd z ws i0 R j0 C ep) (he0 : 0 ≤ ep) (he1 : ep ≤ 1 / 10 ^ 12) (hC2 : (C : ℤ) ≤ 256 * wsW ws) (hR2 : (R : ℤ) ≤ 256 * wsH ws)
    (hws : inI32 ws.leftTop.x ∧ inI32 ws.leftTop.y ∧ inI32 ws.rightBot.x ∧ inI32 ws.rightBot.y)
    (g : Geometry) (lt rb : Coord) (hg : RectGeom g lt rb) (hrect : inI32 lt.x ∧ inI32 lt.y ∧ inI32 rb.x ∧ inI32 rb.y)
    (hf : DiffsFit ws lt rb) (hmiss : MissesACentre ws R C lt rb)
    (hx0 : ws.leftTop.x ≤ lt.x) (hx1 : lt.x ≤ rb.x) (hy0 : lt.y ≤ ws.leftTop.y) (hy1 : rb.y ≤ lt.y)
    (hx2 : colOf ws C rb.x ≤ 1073741824) (hy2 : rowOf ws R rb.y ≤ 1073741824)
    (k : Nat) (hk1 : colOf ws C lt.x ≤ k - 1 / 1000) (hk2 : k + 1 / 1000 ≤ colOf ws C rb.x)
    (hin : colOf ws C lt.x ≤ C - 1 / 1000) (hfar : C ≤ j0) (m : BitMatrix) (hm : Built m) :
    ∃ m', zondGeometry rnd z (some g) m = .ok () m' ∧ m'.isize = m.isize ∧ m'.jsize = m.jsize ∧
      ∀ i j, Lit m' i j ↔ Lit m i j := by
  have hq : (C : ℚ) ≤ j0 := by exact_mod_cast hfar
  obtain ⟨m', e, h1, h2, h3⟩ := C73_columns_lost rnd hr z ws i0 R j0 C ep hs he0 he1 hC2 hR2 hws g lt rb hg hrect hf hmiss hx0 hx1 hy0 hy1
    hx2 hy2 k hk1 hk2 (by linarith) m hm
  have fr := C37_frame rnd z (some g) m hm
  rw [e, hs.bound] at fr
  refine ⟨m', e, h1, h2, fun i j => ⟨fun hl => ?_, fr.2.2.2.1 i j⟩⟩
  by_contra hn
  have a := fr.2.2.2.2 i j hl hn
  have b := (h3 i j hl).resolve_left hn
  have := hs.cpos
  dsimp only at a
  omega

/-- **C73** the same for a part at least as far from the top as it is high -/
theorem C73_nothing_drawn_rows (rnd : ℚ → ℚ) (hr : Rounding rnd) (z : Zond) (ws : Workspace) (i0 R j0 C : Nat) (ep : ℚ)
    (hs : PartSetUp rnd z ws i0 R j0 C ep) (he0 : 0 ≤ ep) (he1 : ep ≤ 1 / 10 ^ 12) (hC2 : (C : ℤ) ≤ 256 * wsW ws) (hR2 : (R : ℤ) ≤ 256 * wsH ws)
    (hws : inI32 ws.leftTop.x ∧ inI32 ws.leftTop.y ∧ inI32 ws.rightBot.x ∧ inI32 ws.rightBot.y)
    (g : Geometry) (lt rb : Coord) (hg : RectGeom g lt rb) (hrect : inI32 lt.x ∧ inI32 lt.y ∧ inI32 rb.x ∧ inI32 rb.y)
    (hf : DiffsFit ws lt rb) (hmiss : MissesACentre ws R C lt rb)
    (hx0 : ws.leftTop.x ≤ lt.x) (hx1 : lt.x ≤ rb.x) (hy0 : lt.y ≤ ws.leftTop.y) (hy1 : rb.y ≤ lt.y)
    (hx2 : colOf ws C rb.x ≤ 1073741824) (hy2 : rowOf ws R rb.y ≤ 1073741824)
    (k : Nat) (hk1 : rowOf ws R lt.y ≤ k - 1 / 1000) (hk2 : k + 1 / 1000 ≤ rowOf ws R rb.y)
    (hin : rowOf ws R lt.y ≤ R - 1 / 1000) (hfar : R ≤ i0) (m : BitMatrix) (hm : Built m) :
    ∃ m', zondGeometry rnd z (some g) m = .ok () m' ∧ m'.isize = m.isize ∧ m'.jsize = m.jsize ∧
      ∀ i j, Lit m' i j ↔ Lit m i j := by
  have hq : (R : ℚ) ≤ i0 := by exact_mod_cast hfar
  obtain ⟨m', e, h1, h2, h3⟩ := C73_rows_lost rnd hr z ws i0 R j0 C ep hs he0 he1 hC2 hR2 hws g lt rb hg hrect hf hmiss hx0 hx1 hy0 hy1
    hx2 hy2 k hk1 hk2 (by linarith) m hm
  have fr := C37_frame rnd z (some g) m hm
  rw [e, hs.bound] at fr
  refine ⟨m', e, h1, h2, fun i j => ⟨fun hl => ?_, fr.2.2.2.1 i j⟩⟩
  by_contra hn
  have a := fr.2.2.2.2 i j hl hn
  have b := (h3 i j hl).resolve_left hn
  have := hs.rpos
  dsimp only at a
  omega

/-- **C73** This is the set-up a `Fragment` makes: after `SetMatrix`, `SetWorkspaceCoords`, `SetIndicies` and `Process` on a new
fragment its rasteriser is set up for the part, with tolerance 0. -/
theorem C73_fragment (rnd : ℚ → ℚ) (hr : Rounding rnd) (a : Nat) (ws : Workspace) (i0 R j0 C : Nat) (hR : 0 < R) (hC : 0 < C)
    (hRm : i0 + R ≤ 2147483647) (hCm : j0 + C ≤ 2147483647) (hw : 0 < wsW ws) (hh : 0 < wsH ws)
    (hw' : wsW ws ≤ 2147483647) (hh' : wsH ws ≤ 2147483647) :
    ∃ f f', Fragment.setMatrix (some a) {} = .ok () f ∧
      Fragment.process rnd ((f.setWorkspaceCoords ws).setIndicies i0 j0 (i0 + R - 1) (j0 + C - 1)) = .ok () f' ∧
      PartSetUp rnd f'.zond ws i0 R j0 C 0 := by
  refine ⟨_, _, rfl, (C54_process hr _ ?_).2.1 (by simp [Fragment.setWorkspaceCoords, Fragment.setIndicies]) ?_ ?_, ?_⟩
  · dsimp only [Fragment.setWorkspaceCoords, Fragment.setIndicies]; omega
  · dsimp only [Fragment.setWorkspaceCoords, Fragment.setIndicies]
    unfold wsW at hw hw'; unfold inI32; omega
  · dsimp only [Fragment.setWorkspaceCoords, Fragment.setIndicies]
    unfold wsH at hh hh'; unfold inI32; omega
  · have hs : ∀ b n : Nat, 0 < n → b + n ≤ 2147483647 → span b (b + n - 1) = n := by
      intro b n h1 h2; unfold span; omega
    have hcell : ∀ (d : Int) (n : Nat), 0 < n → n ≤ 2147483647 → cellSize rnd d n = .fin (rnd (|(d : ℚ)| / n)) := by
      intro d n h1 h2
      have : n % 2 ^ 32 = n := by omega
      unfold cellSize
      rw [this, if_neg (by omega)]
    refine ⟨rfl, rfl, ?_, ?_, rfl, hR, hC, hRm, hCm, hw, hh⟩
    · dsimp only [Fragment.setWorkspaceCoords, Fragment.setIndicies]
      rw [hs j0 C hC hCm, hcell _ _ hC (by omega)]
      have : |((ws.rightBot.x - ws.leftTop.x : Int) : ℚ)| = wsW ws := by
        rw [abs_of_nonneg]
        · rfl
        · unfold wsW at hw; exact_mod_cast hw.le
      rw [this]
    · dsimp only [Fragment.setWorkspaceCoords, Fragment.setIndicies]
      rw [hs i0 R hR hRm, hcell _ _ hR (by omega)]
      have : |((ws.rightBot.y - ws.leftTop.y : Int) : ℚ)| = wsH ws := by
        have e : ((ws.rightBot.y - ws.leftTop.y : Int) : ℚ) = -((wsH ws : Int) : ℚ) := by unfold wsH; push_cast; ring
        rw [e, abs_neg, abs_of_nonneg]
        exact_mod_cast hh.le
      rw [this]

/-! The hypotheses are met: a bitmap of 10×20 cells of which the columns 10..19 are to show the window (0,100)–(100,0). -/

def partZond (rnd : ℚ → ℚ) : Zond :=
  { bound := ⟨0, 9, 10, 19⟩, ws := exWs, dx := .fin (rnd 10), dy := .fin (rnd 10), eps := .fin (rnd (1 / 10 ^ 13)) }

theorem partSetUp (rnd : ℚ → ℚ) : PartSetUp rnd (partZond rnd) exWs 0 10 10 10 (rnd (1 / 10 ^ 13)) where
  bound := rfl
  wks := rfl
  dx := by simp only [partZond, wsW, exWs]; norm_num
  dy := by simp only [partZond, wsH, exWs]; norm_num
  eps := rfl
  rpos := by norm_num
  cpos := by norm_num
  rmax := by norm_num
  cmax := by norm_num
  wpos := by decide
  hpos := by decide

/-- the rectangle (20,80)–(45,60), which `exZond` draws in the same window of a 10×10 bitmap, is not drawn here -/
example : ∃ m', zondGeometry rne (partZond rne) (some (exRect 20 80 45 60)) (BitMatrix.new Alloc.ok 10 20) = .ok () m' ∧
    m'.isize = 10 ∧ m'.jsize = 20 ∧ ∀ i j, Lit m' i j ↔ Lit (BitMatrix.new Alloc.ok 10 20) i j :=
  C73_nothing_drawn rne rne_rounding (partZond rne) exWs 0 10 10 10 _ (partSetUp rne)
    (Moved.tol_range rne_rounding).1 (Moved.tol_range rne_rounding).2 (by decide) (by decide)
    (by unfold inI32; decide) (exRect 20 80 45 60) ⟨20, 80⟩ ⟨45, 60⟩ ⟨rfl, _, _, rfl⟩ (by unfold inI32; decide)
    (by unfold DiffsFit inI32; decide)
    ⟨0, 9, by norm_num, by norm_num, .inr (.inl (by unfold centreX wsW exWs; norm_num))⟩ (by decide) (by decide) (by decide)
    (by decide) (by unfold colOf wsW exWs; norm_num) (by unfold rowOf wsH exWs; norm_num) 3
    (by unfold colOf wsW exWs; norm_num) (by unfold colOf wsW exWs; norm_num) (by unfold colOf wsW exWs; norm_num)
    (by norm_num) _ (.new 10 20 (by norm_num) (by norm_num))

/-- and the program says the same when it is run -/
example : zondGeometry rne (partZond rne) (some (exRect 20 80 45 60)) (BitMatrix.new Alloc.ok 10 20) =
    .ok () (BitMatrix.new Alloc.ok 10 20) := by decide +kernel

/-- a rectangle inside one cell is drawn at its place -/
example : (match zondGeometry rne (partZond rne) (some (exRect 22 78 28 72)) (BitMatrix.new Alloc.ok 10 20) with
    | .ok _ m' => decide (m'.get 2 12 = .ok true)
    | _ => false) = true := by decide +kernel

end Verif.Props
