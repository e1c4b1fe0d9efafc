import Verif.Props.Transposed
import Verif.Props.ZondClear
import Verif.Spec.Scaled

/-!
C80: a layout and its window stretched by integer factors give the same bitmap.
-/

namespace Verif.Props
open Verif BitMatrix Zond Spec Ieee Generator

namespace Scaled
open Transp Moved

/-- two lists of shapes that draw alike, one by one, draw alike -/
theorem zondAll_same {rnd : ℚ → ℚ} {z z' : Zond} {F : Geometry → Geometry} {R C : Nat} : ∀ (gs : List Geometry),
    (∀ g ∈ gs, ∀ m, Built m → m.isize = R → m.jsize = C →
      zondGeometry rnd z' (some (F g)) m = zondGeometry rnd z (some g) m) →
    ∀ m, Built m → m.isize = R → m.jsize = C → zondAll rnd z' ((gs.map F).map some) m = zondAll rnd z (gs.map some) m
  | [], _, _, _, _, _ => rfl
  | g :: gs, h, m, hm, h1, h2 => by
    have e := h g List.mem_cons_self m hm h1 h2
    have fr := C37_frame rnd z (some g) m hm
    simp only [List.map_cons, zondAll]
    cases hz : zondGeometry rnd z (some g) m with
    | ub => rw [hz] at e; rw [M.run_bind_ub hz, M.run_bind_ub e]
    | throw x s => rw [hz] at e; rw [M.run_bind_throw hz, M.run_bind_throw e]
    | ok u s =>
      rw [hz] at e fr
      rw [M.run_bind_ok hz, M.run_bind_ok e]
      exact zondAll_same gs (fun x hx => h x (List.mem_cons_of_mem _ hx)) s fr.1 (fr.2.1.trans h1) (fr.2.2.1.trans h2)

/-- … and then so do whole layouts -/
theorem drawOut_same {rnd : ℚ → ℚ} {z z' : Zond} {F : Geometry → Geometry} (hF : Keeps F z.ws z'.ws) {R C : Nat}
    (hR : R < 4294967296) (hC : C < 4294967296) (H H' : Elements) (d : Nat) (req : List Int)
    (L : LayoutData) (hs : ShapesOnly L)
    (hc : ∀ a, gatherLibs H d z.ws req L.libraries = some (.ok ([], a)) → ∀ g ∈ a, ∀ m, Built m → m.isize = R → m.jsize = C →
      zondGeometry rnd z' (some (F g)) m = zondGeometry rnd z (some g) m) :
    drawOut rnd z' H' d req (L.libraries.map (Option.map (mapLib F))) R C = drawOut rnd z H d req L.libraries R C := by
  unfold drawOut
  rcases gatherLibs_map hF H H' d req L.libraries (fun lib l g a b c => hs lib l g a b c) with ⟨b1, b2⟩ | ⟨a, a1, a2⟩
  · rw [b1, b2]
  · rw [a1, a2]
    simp only [List.nil_append]
    rw [zondAll_same a (hc a a1) (blank R C) (built_blank hR hC) rfl rfl]

theorem keeps_scale {k l : Int} (hk : 0 < k) (hl : 0 < l) (ws : Workspace) : Keeps (scaleGeom k l) ws (scaleWs k l ws) := by
  refine ⟨fun _ => rfl, fun g => ?_⟩
  unfold boxMeets scaleWs scaleGeom scalePt
  dsimp only
  have ek : ∀ a b : Int, k * a < k * b ↔ a < b := fun a b => mul_lt_mul_iff_right₀ hk
  have el : ∀ a b : Int, l * a < l * b ↔ a < b := fun a b => mul_lt_mul_iff_right₀ hl
  simp only [gt_iff_lt, ek, el]

theorem wsOf_scale (k l : Int) (mn mx : Coord) : wsOf (scalePt k l mn) (scalePt k l mx) = scaleWs k l (wsOf mn mx) := rfl

theorem wsW_scale (k l : Int) (ws : Workspace) : wsW (scaleWs k l ws) = k * wsW ws := by
  unfold wsW scaleWs scalePt; dsimp only; ring

theorem wsH_scale (k l : Int) (ws : Workspace) : wsH (scaleWs k l ws) = l * wsH ws := by
  unfold wsH scaleWs scalePt; dsimp only; ring

theorem colOf_scale {k l : Int} (hk : 0 < k) (ws : Workspace) (C : Nat) (x : Int) :
    colOf (scaleWs k l ws) C (k * x) = colOf ws C x := by
  unfold colOf
  rw [wsW_scale]
  have hq : (k : ℚ) ≠ 0 := by exact_mod_cast hk.ne'
  show ((k * x - k * ws.leftTop.x : Int) : ℚ) / _ = _
  push_cast
  rw [← mul_sub, show (k : ℚ) * wsW ws / C = k * (wsW ws / C) from mul_div_assoc _ _ _, mul_div_mul_left _ _ hq]

theorem rowOf_scale {k l : Int} (hl : 0 < l) (ws : Workspace) (R : Nat) (y : Int) :
    rowOf (scaleWs k l ws) R (l * y) = rowOf ws R y := by
  unfold rowOf
  rw [wsH_scale]
  have hq : (l : ℚ) ≠ 0 := by exact_mod_cast hl.ne'
  show ((l * ws.leftTop.y - l * y : Int) : ℚ) / _ = _
  push_cast
  rw [← mul_sub, show (l : ℚ) * wsH ws / R = l * (wsH ws / R) from mul_div_assoc _ _ _, mul_div_mul_left _ _ hq]

theorem rect_scale {g : Geometry} {lt rb : Coord} (k l : Int) (h : RectGeom g lt rb) :
    RectGeom (scaleGeom k l g) (scalePt k l lt) (scalePt k l rb) := by
  obtain ⟨h1, q, rest, h2⟩ := h
  exact ⟨h1, scalePt k l q, rest.map (scalePt k l), by simp [scaleGeom, h2]⟩

/-! ### exact arithmetic -/

/-- a tolerance below half a unit is the same as none for the sides, which lie at whole units -/
theorem half_tol {W : ℤ} {t : ℚ} (hW : 0 < W) (ht : 0 ≤ t) (ht2 : t < 1 / (2 * W)) (N : ℤ) :
    (1 / 2 - t ≤ (N : ℚ) / W ↔ 1 / 2 ≤ (N : ℚ) / W) ∧ ((N : ℚ) / W ≤ 1 / 2 + t ↔ (N : ℚ) / W ≤ 1 / 2) := by
  have hWq : (0 : ℚ) < W := by exact_mod_cast hW
  have e : (N : ℚ) / W = 1 / 2 + ((2 * N - W : ℤ) : ℚ) * (1 / (2 * W)) := by
    push_cast; field_simp; ring
  have hu : (0 : ℚ) < 1 / (2 * W) := by positivity
  rw [e]
  generalize (1 : ℚ) / (2 * W) = u at *
  constructor
  · constructor
    · intro h
      by_contra hn
      rw [not_le] at hn
      have h1 : ((2 * N - W : ℤ) : ℚ) < 0 := by
        by_contra h0
        rw [not_lt] at h0
        linarith [mul_nonneg h0 hu.le]
      have h2 : 2 * N - W ≤ -1 := by
        have : 2 * N - W < 0 := by exact_mod_cast h1
        omega
      have h3 : ((2 * N - W : ℤ) : ℚ) ≤ -1 := by exact_mod_cast h2
      linarith [mul_le_mul_of_nonneg_right h3 hu.le]
    · intro h; linarith
  · constructor
    · intro h
      by_contra hn
      rw [not_le] at hn
      have h1 : 0 < ((2 * N - W : ℤ) : ℚ) := by
        by_contra h0
        rw [not_lt] at h0
        linarith [mul_nonpos_of_nonpos_of_nonneg h0 hu.le]
      have h2 : 1 ≤ 2 * N - W := by
        have : 0 < 2 * N - W := by exact_mod_cast h1
        omega
      have h3 : (1 : ℚ) ≤ ((2 * N - W : ℤ) : ℚ) := by exact_mod_cast h2
      linarith [mul_le_mul_of_nonneg_right h3 hu.le]
    · intro h; linarith

/-- one axis in exact arithmetic: the cell size matters only through the tolerance -/
theorem normPair_tol {W : ℤ} (hW : 0 < W) {d d' ep : ℚ} (hd : 0 < d) (hd' : 0 < d') (he : 0 ≤ ep) (h1 : ep * d < 1 / (2 * W))
    (h2 : ep * d' < 1 / (2 * W)) (NB NE : ℤ) (b1 b2 : Nat) :
    normPair id (.fin (NB / W)) (.fin (NE / W)) (.fin d') (.fin ep) b1 b2 =
      normPair id (.fin (NB / W)) (.fin (NE / W)) (.fin d) (.fin ep) b1 b2 := by
  have hWq : (W : ℚ) ≠ 0 := by exact_mod_cast hW.ne'
  have fr : ∀ N : ℤ, ∃ K : ℤ, (N : ℚ) / W - Fl.truncQ (N / W) = K / W := by
    intro N
    refine ⟨N - Fl.truncQ (N / W) * W, ?_⟩
    push_cast
    rw [sub_div, mul_div_cancel_right₀ _ hWq]
  have key : ∀ N : ℤ, (decide (1 / 2 - ep * d' ≤ (N : ℚ) / W - Fl.truncQ (N / W)) = decide (1 / 2 - ep * d ≤ (N : ℚ) / W - Fl.truncQ (N / W))) ∧
      (decide ((N : ℚ) / W - Fl.truncQ (N / W) ≤ 1 / 2 + ep * d') = decide ((N : ℚ) / W - Fl.truncQ (N / W) ≤ 1 / 2 + ep * d)) := by
    intro N
    obtain ⟨K, hK⟩ := fr N
    rw [hK, decide_eq_decide, decide_eq_decide]
    obtain ⟨a, b⟩ := half_tol hW (mul_nonneg he hd.le) h1 K
    obtain ⟨a', b'⟩ := half_tol hW (mul_nonneg he hd'.le) h2 K
    exact ⟨a'.trans a.symm, b'.trans b.symm⟩
  have g1 : (Fl.fin d').le (.fin 0) = false := by simp [Fl.le]; linarith
  have g2 : (Fl.fin d).le (.fin 0) = false := by simp [Fl.le]; linarith
  unfold normPair
  simp only [g1, g2, Fl.mul, Fl.sub, Fl.add, Fl.trunc, id]
  have l1 : ∀ N : ℤ, (Fl.fin (1 / 2 - ep * d')).le (.fin ((N : ℚ) / W - Fl.truncQ (N / W))) =
      (Fl.fin (1 / 2 - ep * d)).le (.fin ((N : ℚ) / W - Fl.truncQ (N / W))) := fun N => (key N).1
  have l2 : ∀ N : ℤ, (Fl.fin ((N : ℚ) / W - Fl.truncQ (N / W))).le (.fin (1 / 2 + ep * d')) =
      (Fl.fin ((N : ℚ) / W - Fl.truncQ (N / W))).le (.fin (1 / 2 + ep * d)) := fun N => (key N).2
  simp only [l1, l2]
  rfl

/-- drawing one shape in exact arithmetic -/
theorem zondGeometry_scale {k l : Int} (hk : 0 < k) (hl : 0 < l) {z z' : Zond} {ws : Workspace} {R C : Nat} {ep : ℚ}
    (hs : SetUp id z ws R C ep) (hs' : SetUp id z' (scaleWs k l ws) R C ep) (he : 0 ≤ ep)
    (hx : 2 * ep * k * wsW ws * wsW ws < C) (hy : 2 * ep * l * wsH ws * wsH ws < R) (g : Geometry)
    (hf : g.type = .rectangle → ∀ lt rb, g.coords[0]? = some lt → g.coords[2]? = some rb →
      DiffsFit (scaleWs k l ws) (scalePt k l lt) (scalePt k l rb)) :
    zondGeometry id z' (some (scaleGeom k l g)) = zondGeometry id z (some g) := by
  have ht : (scaleGeom k l g).type = g.type := rfl
  have hcs : (scaleGeom k l g).coords = g.coords.map (scalePt k l) := rfl
  have hi : ∀ n, Res.idx (scaleGeom k l g).coords n = (match g.coords[n]? with | some c => .ok (scalePt k l c) | none => .ub) := by
    intro n
    unfold Res.idx
    rw [hcs, List.getElem?_map]
    cases g.coords[n]? <;> rfl
  have hi' : ∀ n, Res.idx g.coords n = (match g.coords[n]? with | some c => .ok c | none => .ub) := fun n => by
    unfold Res.idx
    cases g.coords[n]? <;> rfl
  have hW := hs.wpos
  have hH := hs.hpos
  have hWq : (0 : ℚ) < wsW ws := by exact_mod_cast hW
  have hHq : (0 : ℚ) < wsH ws := by exact_mod_cast hH
  have hRq : (0 : ℚ) < R := by exact_mod_cast hs.rpos
  have hCq : (0 : ℚ) < C := by exact_mod_cast hs.cpos
  have hkq : (1 : ℚ) ≤ k := by exact_mod_cast hk
  have hlq : (1 : ℚ) ≤ l := by exact_mod_cast hl
  have dx : z.dx = .fin ((wsW ws : ℚ) / C) := hs.dx
  have dy : z.dy = .fin ((wsH ws : ℚ) / R) := hs.dy
  have dx' : z'.dx = .fin (k * ((wsW ws : ℚ) / C)) := by
    rw [hs'.dx, wsW_scale]; push_cast; rw [mul_div_assoc]; rfl
  have dy' : z'.dy = .fin (l * ((wsH ws : ℚ) / R)) := by
    rw [hs'.dy, wsH_scale]; push_cast; rw [mul_div_assoc]; rfl
  have px : 0 < (wsW ws : ℚ) / C := div_pos hWq hCq
  have py : 0 < (wsH ws : ℚ) / R := div_pos hHq hRq
  simp only [zondGeometry, ht]
  cases h : g.type with
  | rectangle =>
    dsimp only
    funext m
    unfold zondRectangle
    rw [hi, hi', hi, hi']
    cases h0 : g.coords[0]? with
    | none => rw [M.run_bind_ub (M.run_lift_ub _), M.run_bind_ub (M.run_lift_ub _)]
    | some lt =>
      dsimp only
      rw [M.run_bind_ok (M.run_lift_ok _ _), M.run_bind_ok (M.run_lift_ok _ _)]
      cases h2 : g.coords[2]? with
      | none => rw [M.run_bind_ub (M.run_lift_ub _), M.run_bind_ub (M.run_lift_ub _)]
      | some rb =>
        dsimp only
        have hf' := hf h lt rb h0 h2
        have small : ∀ (k a : Int), 0 < k → inI32 (k * a) → inI32 a := by
          intro k a hk h
          unfold inI32 at *
          constructor <;> nlinarith [h.1, h.2]
        have hfo : DiffsFit ws lt rb := by
          obtain ⟨f1, f2, f3, f4⟩ := hf'
          refine ⟨small k _ hk ?_, small k _ hk ?_, small l _ hl ?_, small l _ hl ?_⟩ <;> rw [mul_sub] <;> assumption
        have hcov : coversAll id z' (scalePt k l lt) (scalePt k l rb) = coversAll id z lt rb := by
          simp only [coversAll, dx, dy, dx', dy', hs.eps, hs'.eps, hs.wks, hs'.wks, Fl.ofInt, Fl.div, Fl.mul, Fl.sub, Fl.add,
            Fl.le, id, show (2 : ℚ) ≠ 0 by norm_num, if_false, scaleWs, scalePt]
          have up : ∀ (k : Int) (a b w t : ℚ), 0 < k → ((k : ℚ) * a ≤ k * b + k * w / 2 - k * w * t ↔ a ≤ b + w / 2 - w * t) := by
            intro k a b w t hk
            have : (0 : ℚ) < k := by exact_mod_cast hk
            rw [show (k : ℚ) * b + k * w / 2 - k * w * t = k * (b + w / 2 - w * t) by ring, mul_le_mul_iff_right₀ this]
          have dn : ∀ (k : Int) (a b w t : ℚ), 0 < k → ((k : ℚ) * b - k * w / 2 + k * w * t ≤ k * a ↔ b - w / 2 + w * t ≤ a) := by
            intro k a b w t hk
            have : (0 : ℚ) < k := by exact_mod_cast hk
            rw [show (k : ℚ) * b - k * w / 2 + k * w * t = k * (b - w / 2 + w * t) by ring, mul_le_mul_iff_right₀ this]
          push_cast
          congr 1 <;> congr 1 <;> rw [decide_eq_decide]
          · exact up k _ _ _ _ hk
          · exact dn k _ _ _ _ hk
          · exact dn l _ _ _ _ hl
          · exact up l _ _ _ _ hl
        rw [M.run_bind_ok (M.run_lift_ok _ _), M.run_bind_ok (M.run_lift_ok _ _), hcov, hs.bound, hs'.bound]
        have r1 := raw_eq (rnd := id) id_rounding (z := z) (lt := lt) (rb := rb) (by rw [hs.wks]; exact hfo) dx dy px py
        have r2 := raw_eq (rnd := id) id_rounding (z := z') (lt := scalePt k l lt) (rb := scalePt k l rb) (by rw [hs'.wks]; exact hf') dx' dy'
          (mul_pos (by linarith) px) (mul_pos (by linarith) py)
        have q : ∀ (k : Int) (a b : Int) (w : ℚ), 0 < k → ((k * a - k * b : Int) : ℚ) / (k * w) = ((a - b : Int) : ℚ) / w := by
          intro k a b w hk
          have : (k : ℚ) ≠ 0 := by exact_mod_cast hk.ne'
          push_cast
          rw [← mul_sub, mul_div_mul_left _ _ this]
        rw [hs.wks] at r1
        rw [hs'.wks] at r2
        simp only [scaleWs, scalePt, q k _ _ _ hk, q l _ _ _ hl, id] at r2
        simp only [id] at r1
        rw [show scalePt k l lt = ⟨k * lt.x, l * lt.y⟩ from rfl, show scalePt k l rb = ⟨k * rb.x, l * rb.y⟩ from rfl, r2, r1]
        have hn : ∀ a b c e : Int, normIndicies id z' (.fin ((a : ℚ) / ((wsH ws : ℚ) / R))) (.fin ((b : ℚ) / ((wsH ws : ℚ) / R)))
            (.fin ((c : ℚ) / ((wsW ws : ℚ) / C))) (.fin ((e : ℚ) / ((wsW ws : ℚ) / C))) =
            normIndicies id z (.fin ((a : ℚ) / ((wsH ws : ℚ) / R))) (.fin ((b : ℚ) / ((wsH ws : ℚ) / R)))
            (.fin ((c : ℚ) / ((wsW ws : ℚ) / C))) (.fin ((e : ℚ) / ((wsW ws : ℚ) / C))) := by
          intro a b c e
          have nd : ∀ (a W : Int) (n : Nat), (a : ℚ) / ((W : ℚ) / n) = ((a * n : ℤ) : ℚ) / W := by
            intro a W n
            rw [div_div_eq_mul_div]; push_cast; rfl
          have tol : ∀ (k W : Int) (n : Nat), 0 < W → 1 ≤ (k : ℚ) → (0 : ℚ) < n → 2 * ep * k * W * W < n →
              ep * ((W : ℚ) / n) < 1 / (2 * W) ∧ ep * (k * ((W : ℚ) / n)) < 1 / (2 * W) := by
            intro k W n hW hk hn h
            have hWq : (0 : ℚ) < W := by exact_mod_cast hW
            have b : ep * (k * ((W : ℚ) / n)) < 1 / (2 * W) := by
              rw [lt_div_iff₀ (by positivity), show ep * (k * ((W : ℚ) / n)) * (2 * W) = 2 * ep * k * W * W / n by ring, div_lt_one hn]
              exact h
            refine ⟨lt_of_le_of_lt ?_ b, b⟩
            apply mul_le_mul_of_nonneg_left _ he
            exact le_mul_of_one_le_left (by positivity) hk
          unfold normIndicies
          rw [hs.bound, hs'.bound, hs.eps, hs'.eps, dx, dy, dx', dy', nd, nd, nd, nd,
            normPair_tol hH py (mul_pos (by linarith) py) he (tol l _ _ hH hlq hRq hy).1 (tol l _ _ hH hlq hRq hy).2,
            normPair_tol hW px (mul_pos (by linarith) px) he (tol k _ _ hW hkq hCq hx).1 (tol k _ _ hW hkq hCq hx).2]
        by_cases hc : coversAll id z lt rb = true
        · rw [if_pos hc, if_pos hc]
        · rw [if_neg hc, if_neg hc, M.run_bind_ok (M.run_lift_ok _ _), M.run_bind_ok (M.run_lift_ok _ _)]
          simp only [hn]
  | polygon => rfl
  | path => rfl
  | reference => rfl
  | text => rfl
  | undefined => rfl

/-! ### `double` arithmetic -/

/-- two drawings on the same bitmap that turn on the same cells are equal -/
theorem same_of_lit {rnd rnd' : ℚ → ℚ} {z z' : Zond} {g g' : Option Geometry} {m m1 m2 : BitMatrix} (hm : Built m)
    (h1 : zondGeometry rnd z g m = .ok () m1) (h2 : zondGeometry rnd' z' g' m = .ok () m2)
    (h : ∀ i j, i < m.isize → j < m.jsize → (Lit m1 i j ↔ Lit m2 i j)) : m1 = m2 := by
  have go : ∀ {rnd : ℚ → ℚ} {z : Zond} {g : Option Geometry} {m1 : BitMatrix}, zondGeometry rnd z g m = .ok () m1 →
      ∃ P : Nat → Nat → Prop, Ones m m1 P ∧ ∀ i j, P i j → i < m.isize ∧ j < m.jsize := by
    intro rnd z g m1 h1
    rcases zondGeometry_outcome m.isize m.jsize rnd z g with (⟨P, hp, hin⟩ | hu) | ht
    · obtain ⟨m', e, o⟩ := hp m (built_shape hm)
      rw [h1] at e; cases e
      exact ⟨P, o, fun i j hij => ⟨(hin i j hij).1, (hin i j hij).2.1⟩⟩
    · rw [hu m (built_shape hm)] at h1; cases h1
    · rw [ht m (built_shape hm)] at h1; cases h1
  obtain ⟨P, o1, i1⟩ := go h1
  obtain ⟨Q, o2, i2⟩ := go h2
  apply eq_of_cells o1.wf o2.wf (o1.rows.trans o2.rows.symm) (o1.cols.trans o2.cols.symm)
  intro i j
  by_cases hb : i < m.isize ∧ j < m.jsize
  · have := h i j hb.1 hb.2
    rw [lit_iff o1.wf, lit_iff o2.wf, o1.rows, o1.cols, o2.rows, o2.cols] at this
    rw [Bool.eq_iff_iff]
    tauto
  · have e1 := o1.bits i j
    have e2 := o2.bits i j
    have n1 : ¬ P i j := fun hp => hb (i1 i j hp)
    have n2 : ¬ Q i j := fun hp => hb (i2 i j hp)
    rw [Bool.eq_iff_iff]
    tauto

theorem centreX_scale (k l : Int) (ws : Workspace) (C j : Nat) : centreX (scaleWs k l ws) C j = k * centreX ws C j := by
  unfold centreX
  rw [wsW_scale]
  show ((k * ws.leftTop.x : Int) : ℚ) + _ = _
  push_cast
  ring

theorem centreY_scale (k l : Int) (ws : Workspace) (R i : Nat) : centreY (scaleWs k l ws) R i = l * centreY ws R i := by
  unfold centreY
  rw [wsH_scale]
  show ((l * ws.leftTop.y : Int) : ℚ) - _ = _
  push_cast
  ring

theorem clear_scale {k l : Int} (hk : 0 < k) (hl : 0 < l) {ws : Workspace} {R C : Nat} {lt rb : Coord}
    (h : ClearOfCentres ws R C lt rb) : ClearOfCentres (scaleWs k l ws) R C (scalePt k l lt) (scalePt k l rb) := by
  obtain ⟨h1, h2, h3, h4⟩ := h
  have key : ∀ (k : Int) (W : Int) (n : Nat) (a : Int) (c : ℚ), 0 < k → 1 / 1000 * ((W : ℚ) / n) ≤ |(a : ℚ) - c| →
      1 / 1000 * (((k * W : Int) : ℚ) / n) ≤ |((k * a : Int) : ℚ) - k * c| := by
    intro k W n a c hk h
    have hq : (0 : ℚ) < k := by exact_mod_cast hk
    push_cast
    rw [← mul_sub, abs_mul, abs_of_pos hq, show 1 / 1000 * ((k : ℚ) * W / n) = k * (1 / 1000 * (W / n)) by ring]
    exact mul_le_mul_of_nonneg_left h hq.le
  unfold ClearOfCentres
  rw [wsW_scale, wsH_scale, centreX_scale, centreX_scale, centreY_scale, centreY_scale]
  exact ⟨key k _ _ _ _ hk h1, key k _ _ _ _ hk h2, key l _ _ _ _ hl h3, key l _ _ _ _ hl h4⟩

theorem sides_scale {k l : Int} (hk : 0 < k) (hl : 0 < l) {ws : Workspace} {R C : Nat} {lt rb : Coord}
    (h : SidesClear ws R C lt rb) : SidesClear (scaleWs k l ws) R C (scalePt k l lt) (scalePt k l rb) := by
  obtain ⟨h1, h2, h3, h4⟩ := h
  have a1 : colOf (scaleWs k l ws) C (scalePt k l lt).x = colOf ws C lt.x := colOf_scale hk ws C lt.x
  have a2 : rowOf (scaleWs k l ws) R (scalePt k l lt).y = rowOf ws R lt.y := rowOf_scale hl ws R lt.y
  have a3 : colOf (scaleWs k l ws) C (scalePt k l rb).x = colOf ws C rb.x := colOf_scale hk ws C rb.x
  have a4 : rowOf (scaleWs k l ws) R (scalePt k l rb).y = rowOf ws R rb.y := rowOf_scale hl ws R rb.y
  unfold SidesClear
  rw [a1, a2, a3, a4]
  refine ⟨h1.imp (fun h => ?_) id, h2.imp (fun h => ?_) id, h3.imp (fun h => ?_) id, h4.imp (fun h => ?_) id⟩
  · show k * lt.x = k * ws.leftTop.x
    rw [h]
  · show l * lt.y = l * ws.leftTop.y
    rw [h]
  · exact mul_le_mul_of_nonneg_left h hk.le
  · exact mul_le_mul_of_nonneg_left h hl.le

theorem genRaster_setup {rnd : ℚ → ℚ} {mn mx : Coord} {R C : Nat} (hR : 0 < R) (hC : 0 < C) (hR2 : R ≤ 2147483647) (hC2 : C ≤ 2147483647)
    (hx : mn.x < mx.x) (hy : mn.y < mx.y) : SetUp rnd (genRaster rnd mn mx R C) (wsOf mn mx) R C (rnd (1 / 10 ^ 13)) :=
  ⟨rfl, rfl, rfl, rfl, rfl, hR, hC, hR2, hC2, by unfold wsW wsOf; dsimp only; omega, by unfold wsH wsOf; dsimp only; omega⟩

theorem tol_range2 {rnd : ℚ → ℚ} (hr : Rounding rnd) : rnd (1 / 10 ^ 13) ≤ 2 / 10 ^ 13 := by
  have ee := abs_le.mp (hr.relErr (1 / 10 ^ 13))
  rw [abs_of_pos (by norm_num : (0 : ℚ) < 1 / 10 ^ 13)] at ee
  norm_num at ee ⊢; linarith

/-- one rectangle in `double` arithmetic -/
theorem rect_double {rnd : ℚ → ℚ} (hr : Rounding rnd) {k l : Int} (hk : 0 < k) (hl : 0 < l) {mn mx : Coord} {R C : Nat}
    (hR : 0 < R) (hC : 0 < C) (hR2 : R ≤ 2147483647) (hC2 : C ≤ 2147483647)
    (hx : mn.x < mx.x) (hy : mn.y < mx.y) (hcx : (C : ℤ) ≤ 256 * (mx.x - mn.x)) (hcy : (R : ℤ) ≤ 256 * (mx.y - mn.y))
    (hin : In32 mn ∧ In32 mx ∧ In32 (scalePt k l mn) ∧ In32 (scalePt k l mx))
    {s : Geometry} {lt rb : Coord} (hg : RectGeom s lt rb)
    (hp : In32 lt ∧ In32 rb ∧ In32 (scalePt k l lt) ∧ In32 (scalePt k l rb))
    (hf : DiffsFit (wsOf mn mx) lt rb) (hf' : DiffsFit (scaleWs k l (wsOf mn mx)) (scalePt k l lt) (scalePt k l rb))
    (hc : PlainRect (wsOf mn mx) R C lt rb) (m : BitMatrix) (hm : Built m) (h1 : m.isize = R) (h2 : m.jsize = C) :
    zondGeometry rnd (genRaster rnd (scalePt k l mn) (scalePt k l mx) R C) (some (scaleGeom k l s)) m =
      zondGeometry rnd (genRaster rnd mn mx R C) (some s) m := by
  have hs := genRaster_setup (rnd := rnd) hR hC hR2 hC2 hx hy
  have kx : k * mn.x < k * mx.x := mul_lt_mul_of_pos_left hx hk
  have ly : l * mn.y < l * mx.y := mul_lt_mul_of_pos_left hy hl
  have hs' := genRaster_setup (rnd := rnd) (mn := scalePt k l mn) (mx := scalePt k l mx) hR hC hR2 hC2 kx ly
  have hW : wsW (wsOf mn mx) = mx.x - mn.x := rfl
  have hH : wsH (wsOf mn mx) = mx.y - mn.y := rfl
  have hW' : wsW (wsOf (scalePt k l mn) (scalePt k l mx)) = k * (mx.x - mn.x) := by rw [wsOf_scale, wsW_scale, hW]
  have hH' : wsH (wsOf (scalePt k l mn) (scalePt k l mx)) = l * (mx.y - mn.y) := by rw [wsOf_scale, wsH_scale, hH]
  have gW : (C : ℤ) ≤ 256 * (k * (mx.x - mn.x)) := le_trans hcx (by nlinarith)
  have gH : (R : ℤ) ≤ 256 * (l * (mx.y - mn.y)) := le_trans hcy (by nlinarith)
  have a3 : colOf (wsOf (scalePt k l mn) (scalePt k l mx)) C (scalePt k l rb).x = colOf (wsOf mn mx) C rb.x :=
    colOf_scale (l := l) hk (wsOf mn mx) C rb.x
  have a4 : rowOf (wsOf (scalePt k l mn) (scalePt k l mx)) R (scalePt k l rb).y = rowOf (wsOf mn mx) R rb.y :=
    rowOf_scale (k := k) hl (wsOf mn mx) R rb.y
  have a1 : colOf (wsOf (scalePt k l mn) (scalePt k l mx)) C (scalePt k l lt).x = colOf (wsOf mn mx) C lt.x :=
    colOf_scale (l := l) hk (wsOf mn mx) C lt.x
  have a2 : rowOf (wsOf (scalePt k l mn) (scalePt k l mx)) R (scalePt k l lt).y = rowOf (wsOf mn mx) R lt.y :=
    rowOf_scale (k := k) hl (wsOf mn mx) R lt.y
  have wl : (wsOf mn mx).leftTop = ⟨mn.x, mx.y⟩ := rfl
  have wl' : (wsOf (scalePt k l mn) (scalePt k l mx)).leftTop = ⟨k * mn.x, l * mx.y⟩ := rfl
  rcases hc.clear with ⟨c1, c2, c3⟩ | ⟨c1, c2⟩
  · obtain ⟨m1, e1, l1⟩ := C39_exact_cells_double rnd hr _ (wsOf mn mx) R C _ hs (tol_range hr).1 (tol_range2 hr) (by rw [hW]; exact hcx)
      (by rw [hH]; exact hcy) ⟨hin.1.1, hin.2.1.2, hin.2.1.1, hin.1.2⟩ s lt rb hg ⟨hp.1.1, hp.1.2, hp.2.1.1, hp.2.1.2⟩ hf c1 hc.width c2 hc.height
      hc.far_x hc.far_y c3 m hm h1 h2
    obtain ⟨m2, e2, l2⟩ := C39_exact_cells_double rnd hr _ (wsOf (scalePt k l mn) (scalePt k l mx)) R C _ hs' (tol_range hr).1 (tol_range2 hr)
      (by rw [hW']; exact gW) (by rw [hH']; exact gH) ⟨hin.2.2.1.1, hin.2.2.2.2, hin.2.2.2.1, hin.2.2.1.2⟩ (scaleGeom k l s) (scalePt k l lt)
      (scalePt k l rb) (rect_scale k l hg) ⟨hp.2.2.1.1, hp.2.2.1.2, hp.2.2.2.1, hp.2.2.2.2⟩ hf' (mul_le_mul_of_nonneg_left c1 hk.le)
      (mul_le_mul_of_nonneg_left hc.width hk.le) (mul_le_mul_of_nonneg_left c2 hl.le) (mul_le_mul_of_nonneg_left hc.height hl.le)
      (by rw [a3]; exact hc.far_x) (by rw [a4]; exact hc.far_y) (sides_scale hk hl c3) m hm h1 h2
    rw [a1, a2, a3, a4] at l2
    rw [e1, e2, same_of_lit hm e2 e1 (fun i j hi hj => (l2 i j (h1 ▸ hi) (h2 ▸ hj)).trans (l1 i j (h1 ▸ hi) (h2 ▸ hj)).symm)]
  · have hRq : (0 : ℚ) < R := by exact_mod_cast hR
    have hCq : (0 : ℚ) < C := by exact_mod_cast hC
    have cellb : ∀ (n : Nat) (W : Int), (0 : ℚ) < n → (n : ℤ) ≤ 256 * W → (1 : ℚ) / 2 ^ 8 ≤ (W : ℚ) / n := by
      intro n W hn h
      rw [le_div_iff₀ hn]
      have : (n : ℚ) ≤ 256 * W := by exact_mod_cast h
      norm_num; linarith
    have gW2 : (C : ℤ) ≤ 256 * ((scalePt k l mx).x - (scalePt k l mn).x) := by
      unfold scalePt; dsimp only; rw [← mul_sub]; exact gW
    have gH2 : (R : ℤ) ≤ 256 * ((scalePt k l mx).y - (scalePt k l mn).y) := by
      unfold scalePt; dsimp only; rw [← mul_sub]; exact gH
    have c2' : ClearOfCentres (wsOf (scalePt k l mn) (scalePt k l mx)) R C (scalePt k l lt) (scalePt k l rb) := by
      rw [wsOf_scale]; exact clear_scale hk hl c2
    have v1 := covers_clear hr mn mx R C hR hC hin.1 hin.2.1 (cellb _ _ hCq hcx) (cellb _ _ hRq hcy) lt rb hp.1 hp.2.1 c2
    have v2 := covers_clear hr (scalePt k l mn) (scalePt k l mx) R C hR hC hin.2.2.1 hin.2.2.2
      (cellb C ((scalePt k l mx).x - (scalePt k l mn).x) hCq gW2) (cellb R ((scalePt k l mx).y - (scalePt k l mn).y) hRq gH2)
      (scalePt k l lt) (scalePt k l rb)
      hp.2.2.1 hp.2.2.2 c2'
    have hcov : coversAll rnd (genRaster rnd (scalePt k l mn) (scalePt k l mx) R C) (scalePt k l lt) (scalePt k l rb) =
        coversAll rnd (genRaster rnd mn mx R C) lt rb := by
      rw [Bool.eq_iff_iff, v1, v2]
      have up : ∀ (k a b c d : Int) (n : ℚ), 0 < k → (((k * a : Int) : ℚ) ≤ ((k * b : Int) : ℚ) + ((k * c - k * d : Int) : ℚ) / n / 2 ↔
          (a : ℚ) ≤ b + ((c - d : Int) : ℚ) / n / 2) := by
        intro k a b c d n hk
        have hq : (0 : ℚ) < k := by exact_mod_cast hk
        push_cast
        rw [show (k : ℚ) * b + (k * c - k * d) / n / 2 = k * (b + (c - d) / n / 2) by ring, mul_le_mul_iff_right₀ hq]
      have dn : ∀ (k a b c d : Int) (n : ℚ), 0 < k → (((k * b : Int) : ℚ) - ((k * c - k * d : Int) : ℚ) / n / 2 ≤ ((k * a : Int) : ℚ) ↔
          (b : ℚ) - ((c - d : Int) : ℚ) / n / 2 ≤ a) := by
        intro k a b c d n hk
        have hq : (0 : ℚ) < k := by exact_mod_cast hk
        push_cast
        rw [show (k : ℚ) * b - (k * c - k * d) / n / 2 = k * (b - (c - d) / n / 2) by ring, mul_le_mul_iff_right₀ hq]
      exact and_congr (and_congr (up k _ _ _ _ _ hk) (dn k _ _ _ _ _ hk)) (and_congr (dn l _ _ _ _ _ hl) (up l _ _ _ _ _ hl))
    cases hcv : coversAll rnd (genRaster rnd mn mx R C) lt rb with
    | true =>
      rw [hcv] at hcov
      subst h1 h2
      obtain ⟨m1, e1, l1⟩ := built_paints hm (setup_all hs hg hcv)
      obtain ⟨m2, e2, l2⟩ := built_paints hm (setup_all hs' (rect_scale k l hg) hcov)
      rw [e1, e2, same_of_lit hm e2 e1 (fun i j _ _ => (l2 i j).trans (l1 i j).symm)]
    | false =>
      rw [hcv] at hcov
      rw [C39_left_top_throws rnd hr _ _ R C _ hs s lt rb hg hf c1 hcv hc.far_x hc.far_y m hm,
        C39_left_top_throws rnd hr _ _ R C _ hs' (scaleGeom k l s) _ _ (rect_scale k l hg) hf'
          (c1.imp (fun h => mul_lt_mul_of_pos_left h hk) (fun h => mul_lt_mul_of_pos_left h hl)) hcov (by rw [a3]; exact hc.far_x)
          (by rw [a4]; exact hc.far_y) m hm]

end Scaled

open Scaled Moved Transp

/-- **C80** In exact arithmetic: if all shapes of a layout (rectangles, polygons, texts; no paths or references) and the
window are stretched by whole factors, `k` in x and `l` in y, `Process` with the same numbers of rows and columns does the same
— it returns, throws or is undefined alike, with the same bitmap and the same printed text — as long as the fixed tolerance of
10⁻¹³ stays below half a unit of the original layout: 2·k·W² < 10¹³·columns and 2·l·H² < 10¹³·rows. -/
theorem C80_exact (g g' : Generator) (a a' : Nat) (mn mx : Coord) (k l : Int) (hk : 0 < k) (hl : 0 < l) (req : List Int)
    (al al' : Alloc) (R C : Nat) (hr : Ready id g a mn mx req al R C)
    (hr' : Ready id g' a' (scalePt k l mn) (scalePt k l mx) req al' R C) (hR : R ≤ 2147483647) (hC : C ≤ 2147483647)
    (hx : mn.x < mx.x) (hy : mn.y < mx.y) (htx : 2 * k * (mx.x - mn.x) ^ 2 < 10 ^ 13 * (C : ℤ))
    (hty : 2 * l * (mx.y - mn.y) ^ 2 < 10 ^ 13 * (R : ℤ))
    (n n' : Nat) (mem mem' : Memory) (depth : Nat) (hs : ShapesOnly (mem.layouts a))
    (hmv : (mem'.layouts a').libraries = (mem.layouts a).libraries.map (Option.map (scaleLib k l)))
    (hfit : LayoutFits (mem.layouts a) mem.elements)
    (hf : ∀ s lt rb, Selected (mem.layouts a) mem.elements (wsOf mn mx) req s → s.type = .rectangle → s.coords[0]? = some lt →
      s.coords[2]? = some rb → DiffsFit (scaleWs k l (wsOf mn mx)) (scalePt k l lt) (scalePt k l rb)) :
    (Generator.process id al' (.ok n') mem' depth R C g').map (Out.mapS getMatrix) =
      (Generator.process id al (.ok n) mem depth R C g).map (Out.mapS getMatrix) := by
  have e1 := ready_obs hr n mem depth
  have e2 := ready_obs hr' n' mem' depth
  show Option.map (Out.mapS Generator.bitmap) _ = Option.map (Out.mapS Generator.bitmap) _
  rw [e1, e2, hmv]
  have q1 := genRaster_setup (rnd := id) hr.rpos hr.cpos hR hC hx hy
  have q2 := genRaster_setup (rnd := id) (mn := scalePt k l mn) (mx := scalePt k l mx) hr.rpos hr.cpos hR hC
    (mul_lt_mul_of_pos_left hx hk) (mul_lt_mul_of_pos_left hy hl)
  have tol : ∀ (k W : Int) (n : Nat), 2 * k * W ^ 2 < 10 ^ 13 * (n : ℤ) → 2 * (id (1 / 10 ^ 13) : ℚ) * k * W * W < n := by
    intro k W n h
    have : (2 * k * W ^ 2 : ℚ) < 10 ^ 13 * n := by exact_mod_cast h
    simp only [id]
    rw [show 2 * (1 / 10 ^ 13 : ℚ) * k * W * W = 2 * k * W ^ 2 / 10 ^ 13 by ring, div_lt_iff₀ (by norm_num)]
    linarith
  refine drawOut_same (keeps_scale hk hl (wsOf mn mx)) hr.rmax hr.cmax mem.elements mem'.elements depth req (mem.layouts a) hs
    (fun ls hls s hmem m _ _ _ => ?_)
  have hsel := (gatherLibs_mem hfit.2 hfit.1 hls s).mp (.inr hmem)
  exact congrFun (zondGeometry_scale hk hl q1 q2 (by norm_num) (tol k _ C htx) (tol l _ R hty) s
    (fun ht lt rb h0 h2 => hf s lt rb hsel ht h0 h2)) m

/-- **C80** In `double` arithmetic, for any factors: the same if every rectangle to draw keeps its sides a thousandth of a
cell off the lines through borders and centres of cells (`PlainRect`), cells are at least 1/256 wide and high, and all
coordinates fit 32 bits before and after. -/
theorem C80_double (rnd : ℚ → ℚ) (g g' : Generator) (a a' : Nat) (mn mx : Coord) (k l : Int) (hk : 0 < k) (hl : 0 < l) (req : List Int)
    (al al' : Alloc) (R C : Nat) (hr : Ready rnd g a mn mx req al R C)
    (hr' : Ready rnd g' a' (scalePt k l mn) (scalePt k l mx) req al' R C) (hR : R ≤ 2147483647) (hC : C ≤ 2147483647)
    (hx : mn.x < mx.x) (hy : mn.y < mx.y) (hcx : (C : ℤ) ≤ 256 * (mx.x - mn.x)) (hcy : (R : ℤ) ≤ 256 * (mx.y - mn.y))
    (hin : In32 mn ∧ In32 mx ∧ In32 (scalePt k l mn) ∧ In32 (scalePt k l mx))
    (n n' : Nat) (mem mem' : Memory) (depth : Nat) (hs : ShapesOnly (mem.layouts a))
    (hmv : (mem'.layouts a').libraries = (mem.layouts a).libraries.map (Option.map (scaleLib k l)))
    (hfit : LayoutFits (mem.layouts a) mem.elements)
    (hf : ∀ s, Selected (mem.layouts a) mem.elements (wsOf mn mx) req s → s.type = .rectangle → ∃ lt rb, RectGeom s lt rb ∧
      (In32 lt ∧ In32 rb ∧ In32 (scalePt k l lt) ∧ In32 (scalePt k l rb)) ∧ DiffsFit (wsOf mn mx) lt rb ∧
      DiffsFit (scaleWs k l (wsOf mn mx)) (scalePt k l lt) (scalePt k l rb) ∧ PlainRect (wsOf mn mx) R C lt rb) :
    (Generator.process rnd al' (.ok n') mem' depth R C g').map (Out.mapS getMatrix) =
      (Generator.process rnd al (.ok n) mem depth R C g).map (Out.mapS getMatrix) := by
  have e1 := ready_obs hr n mem depth
  have e2 := ready_obs hr' n' mem' depth
  show Option.map (Out.mapS Generator.bitmap) _ = Option.map (Out.mapS Generator.bitmap) _
  rw [e1, e2, hmv]
  refine drawOut_same (keeps_scale hk hl (wsOf mn mx)) hr.rmax hr.cmax mem.elements mem'.elements depth req (mem.layouts a) hs
    (fun ls hls s hmem m hm m1 m2 => ?_)
  have hsel := (gatherLibs_mem hfit.2 hfit.1 hls s).mp (.inr hmem)
  by_cases ht : s.type = .rectangle
  · obtain ⟨lt, rb, hg, h32, hd, hd', hpl⟩ := hf s hsel ht
    exact rect_double hr.round hk hl hr.rpos hr.cpos hR hC hx hy hcx hcy hin hg h32 hd hd' hpl m hm m1 m2
  · by_cases hp : s.type = .polygon
    · rw [C37_polygon_noop rnd _ s hp, C37_polygon_noop rnd _ (scaleGeom k l s) hp]
    · rw [C37_unsupported rnd _ s hp ht, C37_unsupported rnd _ (scaleGeom k l s) hp ht]

/-- **C80** That condition is needed: in a window 6 wide and 7 high with 7 columns and one row, the rectangle from 0 to 3, the
centre of column 3, turns on columns 0 to 4; with everything three times as large it turns on columns 0 to 3. -/
theorem C80_double_not_invariant :
    ∃ s m m', RectGeom s ⟨0, 7⟩ ⟨3, 0⟩ ∧
      zondGeometry Ieee.rne (genRaster Ieee.rne ⟨0, 0⟩ ⟨6, 7⟩ 1 7) (some s) (blank 1 7) = .ok () m ∧
      zondGeometry Ieee.rne (genRaster Ieee.rne (scalePt 3 3 ⟨0, 0⟩) (scalePt 3 3 ⟨6, 7⟩) 1 7) (some (scaleGeom 3 3 s)) (blank 1 7) =
        .ok () m' ∧
      Lit m 0 4 ∧ ¬ Lit m' 0 4 := by
  refine ⟨{ type := .rectangle, coords := [⟨0, 7⟩, ⟨3, 7⟩, ⟨3, 0⟩, ⟨0, 0⟩, ⟨0, 7⟩] }, ⟨[[248]], 1, 7⟩, ⟨[[240]], 1, 7⟩,
    ⟨rfl, _, _, rfl⟩, ?_, ?_, ?_, ?_⟩
  · decide +kernel
  · decide +kernel
  · unfold Lit; decide +kernel
  · unfold Lit; decide +kernel

/-- a layout with one rectangle and one polygon on layer 13 -/
def exScaleLayout : LayoutData :=
  { libraries := [some { layers := [{ layer := 13, geometries := [some { exRect 22 100 47 62 with min := ⟨22, 62⟩, max := ⟨47, 100⟩ },
      some { type := .polygon, coords := [⟨0, 0⟩, ⟨9, 0⟩, ⟨0, 9⟩, ⟨0, 0⟩], min := ⟨0, 0⟩, max := ⟨9, 9⟩ }] }] }] }

theorem exScale_all (lib : Library) (y : Layer) (p : Geometry) (h1 : some lib ∈ exScaleLayout.libraries) (h2 : y ∈ lib.layers)
    (h3 : some p ∈ y.geometries) : p.coords.length < 2 ^ 64 ∧ p.type ≠ .path ∧ p.type ≠ .reference ∧
      (p.type = .rectangle → p.coords = (exRect 22 100 47 62).coords) := by
  simp only [exScaleLayout, List.mem_cons, Option.some.injEq, List.not_mem_nil, or_false] at h1
  subst h1
  simp only [List.mem_cons, List.not_mem_nil, or_false] at h2
  subst h2
  simp only [List.mem_cons, Option.some.injEq, List.not_mem_nil, or_false] at h3
  rcases h3 with rfl | rfl
  · refine ⟨by simp [exRect], by simp [exRect], by simp [exRect], fun _ => rfl⟩
  · refine ⟨by simp, by simp, by simp, by simp⟩

theorem exScale_sel (s : Geometry) (h : Selected exScaleLayout (fun _ => {}) (wsOf ⟨0, 0⟩ ⟨100, 100⟩) [13] s) (hty : s.type = .rectangle) :
    s.coords = (exRect 22 100 47 62).coords := by
  obtain ⟨p, ⟨lib, l, a, b, c⟩, ht, hcn⟩ := h
  obtain ⟨before, after, e, _, _⟩ := b
  have hp := exScale_all lib l p a (by rw [e]; simp) c
  cases hcn with
  | direct _ => exact hp.2.2.2 hty
  | segment h => exact absurd h hp.2.1
  | placed h => exact absurd h hp.2.2.1

theorem exScale_plain : PlainRect (wsOf ⟨0, 0⟩ ⟨100, 100⟩) 10 10 ⟨22, 100⟩ ⟨47, 62⟩ :=
  ⟨by decide, by decide, by unfold colOf wsW wsOf; norm_num, by unfold rowOf wsH wsOf; norm_num, .inl ⟨by decide, by decide,
    .inr (off_mk 4 (by unfold colOf wsW wsOf; norm_num) (by unfold colOf wsW wsOf; norm_num)), .inl rfl,
    .inr (off_mk 9 (by unfold colOf wsW wsOf; norm_num) (by unfold colOf wsW wsOf; norm_num)),
    .inr (off_mk 7 (by unfold rowOf wsH wsOf; norm_num) (by unfold rowOf wsH wsOf; norm_num))⟩⟩

/-- the rectangle is to be drawn -/
example : Selected exScaleLayout (fun _ => {}) (wsOf ⟨0, 0⟩ ⟨100, 100⟩) [13]
    { exRect 22 100 47 62 with min := ⟨22, 62⟩, max := ⟨47, 100⟩ } :=
  ⟨_, ⟨_, _, List.mem_cons_self, ⟨[], [], rfl, by simp, by simp⟩, List.mem_cons_self⟩,
    by unfold Touches; decide, .direct (by simp [exRect])⟩

/-- C80 at work, in exact and in `double` arithmetic: three times as wide and twice as high -/
example : (∃ g g', Ready id g 7 ⟨0, 0⟩ ⟨100, 100⟩ [13] Alloc.ok 10 10 ∧ Ready id g' 9 ⟨0, 0⟩ ⟨300, 200⟩ [13] Alloc.ok 10 10 ∧
      (Generator.process id Alloc.ok (.ok 1)
        ⟨fun _ => { libraries := exScaleLayout.libraries.map (Option.map (scaleLib 3 2)) }, fun _ => {}⟩ 3 10 10 g').map (Out.mapS getMatrix) =
      (Generator.process id Alloc.ok (.ok 1) ⟨fun _ => exScaleLayout, fun _ => {}⟩ 3 10 10 g).map (Out.mapS getMatrix)) ∧
    (∃ g g', Ready rne g 7 ⟨0, 0⟩ ⟨100, 100⟩ [13] Alloc.ok 10 10 ∧ Ready rne g' 9 ⟨0, 0⟩ ⟨300, 200⟩ [13] Alloc.ok 10 10 ∧
      (Generator.process rne Alloc.ok (.ok 1)
        ⟨fun _ => { libraries := exScaleLayout.libraries.map (Option.map (scaleLib 3 2)) }, fun _ => {}⟩ 3 10 10 g').map (Out.mapS getMatrix) =
      (Generator.process rne Alloc.ok (.ok 1) ⟨fun _ => exScaleLayout, fun _ => {}⟩ 3 10 10 g).map (Out.mapS getMatrix)) := by
  have go : ∀ rnd : ℚ → ℚ, Rounding rnd → ∃ g g', Ready rnd g 7 ⟨0, 0⟩ ⟨100, 100⟩ [13] Alloc.ok 10 10 ∧
      Ready rnd g' 9 ⟨0, 0⟩ ⟨300, 200⟩ [13] Alloc.ok 10 10 := by
    intro rnd h
    obtain ⟨g, hr⟩ := ready_first 7 ⟨0, 0⟩ ⟨100, 100⟩ [13] (by simp) 10 10 (by decide) (by decide) (by decide) (by decide)
      (by unfold inI32; decide) (by unfold inI32; decide) (by decide) (by decide) h
    obtain ⟨g', hr'⟩ := ready_first 9 ⟨0, 0⟩ ⟨300, 200⟩ [13] (by simp) 10 10 (by decide) (by decide) (by decide) (by decide)
      (by unfold inI32; decide) (by unfold inI32; decide) (by decide) (by decide) h
    exact ⟨g, g', hr, hr'⟩
  have fits : LayoutFits exScaleLayout (fun _ => {}) :=
    ⟨fun lib l p a b c => (exScale_all lib l p a b c).1, fun e p h => by simp at h⟩
  have only : ShapesOnly exScaleLayout := fun lib l p a b c => ⟨(exScale_all lib l p a b c).2.1, (exScale_all lib l p a b c).2.2.1⟩
  have m1 : scalePt 3 2 ⟨0, 0⟩ = ⟨0, 0⟩ := by decide
  have m2 : scalePt 3 2 ⟨100, 100⟩ = ⟨300, 200⟩ := by decide
  constructor
  · obtain ⟨g, g', hr, hr'⟩ := go id id_rounding
    refine ⟨g, g', hr, hr', ?_⟩
    rw [← m1, ← m2] at hr'
    refine C80_exact g g' 7 9 ⟨0, 0⟩ ⟨100, 100⟩ 3 2 (by decide) (by decide) [13] Alloc.ok Alloc.ok 10 10 hr hr' (by decide) (by decide)
      (by decide) (by decide) (by norm_num) (by norm_num) 1 1 _ _ 3 only rfl fits ?_
    intro s lt rb hsel hty h0 h2
    rw [exScale_sel s hsel hty] at h0 h2
    cases h0; cases h2
    unfold DiffsFit inI32; decide
  · obtain ⟨g, g', hr, hr'⟩ := go rne rne_rounding
    refine ⟨g, g', hr, hr', ?_⟩
    rw [← m1, ← m2] at hr'
    refine C80_double rne g g' 7 9 ⟨0, 0⟩ ⟨100, 100⟩ 3 2 (by decide) (by decide) [13] Alloc.ok Alloc.ok 10 10 hr hr' (by decide) (by decide)
      (by decide) (by decide) (by decide) (by decide) (by unfold In32 inI32 scalePt; decide) 1 1 _ _ 3 only rfl fits ?_
    intro s hsel hty
    exact ⟨⟨22, 100⟩, ⟨47, 62⟩, ⟨hty, _, _, exScale_sel s hsel hty⟩, by unfold In32 inI32 scalePt; decide,
      by unfold DiffsFit inI32; decide, by unfold DiffsFit inI32; decide, exScale_plain⟩

end Verif.Props
