import Verif.Props.Generator
import Verif.Spec.Moved

/-! Property C65: a layout and its window moved together give the same bitmap. -/

namespace Verif.Props
open Verif BitMatrix Zond Generator Converter
open Verif.Spec
open Verif.Ieee (Rounding)

namespace Moved

theorem boxMeets_move (v : Coord) (ws : Workspace) (g : Geometry) : boxMeets (moveWs v ws) (moveGeom v g) = boxMeets ws g := by
  unfold boxMeets moveWs moveGeom movePt
  dsimp only
  congr 1
  rw [eq_iff_iff]
  omega

theorem gatherOne_move (H H' : Elements) (d : Nat) (v : Coord) (ws : Workspace) (p : Option Geometry)
    (hp : ∀ g, p = some g → g.type ≠ .path ∧ g.type ≠ .reference) :
    ∃ a, gatherOne H d ws p = some (.ok ([], a)) ∧
      gatherOne H' d (moveWs v ws) (p.map (moveGeom v)) = some (.ok ([], a.map (moveGeom v))) := by
  cases p with
  | none => exact ⟨[], rfl, rfl⟩
  | some g =>
    obtain ⟨h1, h2⟩ := hp g rfl
    have ht : (moveGeom v g).type = g.type := rfl
    simp only [gatherOne, Option.map_some, boxMeets_move, ht]
    by_cases hb : boxMeets ws g = true
    · simp only [hb, if_true]
      cases h : g.type with
      | path => exact absurd h h1
      | reference => exact absurd h h2
      | rectangle => exact ⟨[g], rfl, rfl⟩
      | polygon => exact ⟨[g], rfl, rfl⟩
      | text => exact ⟨[], rfl, rfl⟩
      | undefined => exact ⟨[], rfl, rfl⟩
    · simp only [hb, Bool.false_eq_true, if_false]
      exact ⟨[], rfl, rfl⟩

theorem gatherList_move (H H' : Elements) (d : Nat) (v : Coord) (ws : Workspace) : ∀ (ps : List (Option Geometry)),
    (∀ g, some g ∈ ps → g.type ≠ .path ∧ g.type ≠ .reference) →
    ∃ a, gatherList H d ws ps = some (.ok ([], a)) ∧
      gatherList H' d (moveWs v ws) (ps.map (Option.map (moveGeom v))) = some (.ok ([], a.map (moveGeom v)))
  | [], _ => ⟨[], rfl, rfl⟩
  | p :: ps, h => by
    obtain ⟨a, a1, a2⟩ := gatherOne_move H H' d v ws p (fun g hg => h g (by rw [hg]; exact List.mem_cons_self))
    obtain ⟨b, b1, b2⟩ := gatherList_move H H' d v ws ps (fun g hg => h g (List.mem_cons_of_mem _ hg))
    refine ⟨a ++ b, ?_, ?_⟩
    · simp only [gatherList, a1, b1]; rfl
    · simp only [gatherList, List.map_cons, a2, b2, List.map_append]; rfl

theorem gatherLayers_move (H H' : Elements) (d : Nat) (v : Coord) (ws : Workspace) (req : List Int) : ∀ (ls : List Layer),
    (∀ l g, l ∈ ls → some g ∈ l.geometries → g.type ≠ .path ∧ g.type ≠ .reference) →
    ∃ a, gatherLayers H d ws req ls = some (.ok ([], a)) ∧
      gatherLayers H' d (moveWs v ws) req (ls.map (moveLayer v)) = some (.ok ([], a.map (moveGeom v)))
  | [], _ => ⟨[], rfl, rfl⟩
  | l :: ls, h => by
    have hl : (moveLayer v l).layer = l.layer := rfl
    simp only [gatherLayers, List.map_cons, hl]
    by_cases hr : l.layer ∈ req
    · simp only [hr, if_true]
      exact gatherList_move H H' d v ws l.geometries (fun g hg => h l g List.mem_cons_self hg)
    · simp only [hr, if_false]
      exact gatherLayers_move H H' d v ws req ls (fun l' g hl' hg => h l' g (List.mem_cons_of_mem _ hl') hg)

theorem gatherLibs_move (H H' : Elements) (d : Nat) (v : Coord) (ws : Workspace) (req : List Int) :
    ∀ (libs : List (Option Library)),
    (∀ lib l g, some lib ∈ libs → l ∈ lib.layers → some g ∈ l.geometries → g.type ≠ .path ∧ g.type ≠ .reference) →
    (gatherLibs H d ws req libs = some .ub ∧ gatherLibs H' d (moveWs v ws) req (libs.map (Option.map (moveLib v))) = some .ub) ∨
    ∃ a, gatherLibs H d ws req libs = some (.ok ([], a)) ∧
      gatherLibs H' d (moveWs v ws) req (libs.map (Option.map (moveLib v))) = some (.ok ([], a.map (moveGeom v)))
  | [], _ => .inr ⟨[], rfl, rfl⟩
  | none :: _, _ => .inl ⟨rfl, rfl⟩
  | some lib :: libs, h => by
    obtain ⟨a, a1, a2⟩ := gatherLayers_move H H' d v ws req lib.layers (fun l g hl hg => h lib l g List.mem_cons_self hl hg)
    have ih := gatherLibs_move H H' d v ws req libs (fun lib' l g hb hl hg => h lib' l g (List.mem_cons_of_mem _ hb) hl hg)
    have hml : (moveLib v lib).layers = lib.layers.map (moveLayer v) := rfl
    simp only [gatherLibs, List.map_cons, Option.map_some, hml, a1, a2]
    rcases ih with ⟨b1, b2⟩ | ⟨b, b1, b2⟩
    · left
      simp only [b1, b2]
      exact ⟨rfl, rfl⟩
    · right
      refine ⟨a ++ b, ?_, ?_⟩
      · simp only [b1]; rfl
      · simp only [b2, List.map_append]; rfl

theorem sub32_move (a b c : Int) : sub32 (a + c) (b + c) = sub32 a b := by
  unfold sub32
  rw [show a + c - (b + c) = a - b by ring]

theorem zondGeometry_move (rnd : ℚ → ℚ) (v : Coord) (z z' : Zond) (hb : z'.bound = z.bound) (hw : z'.ws = moveWs v z.ws)
    (hx : z'.dx = z.dx) (hy : z'.dy = z.dy) (he : z'.eps = z.eps) (g : Geometry)
    (hc : g.type = .rectangle → ∀ lt rb, g.coords[0]? = some lt → g.coords[2]? = some rb →
      coversAll rnd z' (movePt v lt) (movePt v rb) = coversAll rnd z lt rb) :
    zondGeometry rnd z' (some (moveGeom v g)) = zondGeometry rnd z (some g) := by
  have ht : (moveGeom v g).type = g.type := rfl
  have hcs : (moveGeom v g).coords = g.coords.map (movePt v) := rfl
  have hi : ∀ n, Res.idx (moveGeom v g).coords n = (match g.coords[n]? with | some c => .ok (movePt v c) | none => .ub) := by
    intro n
    unfold Res.idx
    rw [hcs, List.getElem?_map]
    cases g.coords[n]? <;> rfl
  have hi' : ∀ n, Res.idx g.coords n = (match g.coords[n]? with | some c => .ok c | none => .ub) := fun n => by
    unfold Res.idx
    cases g.coords[n]? <;> rfl
  simp only [zondGeometry, ht]
  cases h : g.type with
  | rectangle =>
    dsimp only
    funext m
    unfold zondRectangle
    rw [hi, hi', hi, hi']
    cases h0 : g.coords[0]? with
    | none => rw [M.run_bind_ub (M.run_lift_ub _), M.run_bind_ub (M.run_lift_ub _)]
    | some lt =>
      dsimp only
      rw [M.run_bind_ok (M.run_lift_ok _ _), M.run_bind_ok (M.run_lift_ok _ _)]
      cases h2 : g.coords[2]? with
      | none => rw [M.run_bind_ub (M.run_lift_ub _), M.run_bind_ub (M.run_lift_ub _)]
      | some rb =>
        dsimp only
        have hraw : rawIndicies rnd z' (movePt v lt) (movePt v rb) = rawIndicies rnd z lt rb := by
          unfold rawIndicies
          rw [hw, hx, hy]
          simp only [moveWs, movePt, sub32_move]
        have hn : ∀ a b c d, normIndicies rnd z' a b c d = normIndicies rnd z a b c d := by
          intro a b c d
          unfold normIndicies
          rw [hb, hx, hy, he]
        rw [M.run_bind_ok (M.run_lift_ok _ _), M.run_bind_ok (M.run_lift_ok _ _), hc h lt rb h0 h2, hraw, hb]
        simp only [hn]
  | polygon => rfl
  | path => rfl
  | reference => rfl
  | text => rfl
  | undefined => rfl

theorem zondAll_move (rnd : ℚ → ℚ) (v : Coord) (z z' : Zond) : ∀ (gs : List Geometry),
    (∀ g ∈ gs, zondGeometry rnd z' (some (moveGeom v g)) = zondGeometry rnd z (some g)) →
    zondAll rnd z' ((gs.map (moveGeom v)).map some) = zondAll rnd z (gs.map some)
  | [], _ => rfl
  | g :: gs, h => by
    simp only [List.map_cons, zondAll]
    rw [h g List.mem_cons_self, zondAll_move rnd v z z' gs (fun x hx => h x (List.mem_cons_of_mem _ hx))]

theorem wsW_move (v : Coord) (ws : Workspace) : wsW (moveWs v ws) = wsW ws := by
  unfold wsW moveWs movePt; dsimp only; ring

theorem wsH_move (v : Coord) (ws : Workspace) : wsH (moveWs v ws) = wsH ws := by
  unfold wsH moveWs movePt; dsimp only; ring

theorem wsOf_move (v mn mx : Coord) : wsOf (movePt v mn) (movePt v mx) = moveWs v (wsOf mn mx) := rfl

theorem drawOut_move (rnd : ℚ → ℚ) (v mn mx : Coord) (R C : Nat) (H H' : Elements) (d : Nat) (req : List Int)
    (L : LayoutData) (hs : ShapesOnly L)
    (hc : ∀ a, gatherLibs H d (wsOf mn mx) req L.libraries = some (.ok ([], a)) → ∀ g ∈ a, g.type = .rectangle →
      ∀ lt rb, g.coords[0]? = some lt → g.coords[2]? = some rb →
        coversAll rnd (genRaster rnd (movePt v mn) (movePt v mx) R C) (movePt v lt) (movePt v rb) =
          coversAll rnd (genRaster rnd mn mx R C) lt rb) :
    drawOut rnd (genRaster rnd (movePt v mn) (movePt v mx) R C) H' d req (L.libraries.map (Option.map (moveLib v))) R C =
      drawOut rnd (genRaster rnd mn mx R C) H d req L.libraries R C := by
  have w1 : (genRaster rnd mn mx R C).ws = wsOf mn mx := rfl
  have w2 : (genRaster rnd (movePt v mn) (movePt v mx) R C).ws = moveWs v (wsOf mn mx) := rfl
  unfold drawOut
  rw [w1, w2]
  rcases gatherLibs_move H H' d v (wsOf mn mx) req L.libraries (fun lib l g a b c => hs lib l g a b c) with ⟨b1, b2⟩ | ⟨a, a1, a2⟩
  · rw [b1, b2]
  · rw [a1, a2]
    simp only [List.nil_append]
    rw [zondAll_move rnd v (genRaster rnd mn mx R C) (genRaster rnd (movePt v mn) (movePt v mx) R C) a]
    intro g hg
    refine zondGeometry_move rnd v (genRaster rnd mn mx R C) (genRaster rnd (movePt v mn) (movePt v mx) R C) rfl rfl ?_ ?_ rfl g (fun ht lt rb h0 h2 => hc a a1 g hg ht lt rb h0 h2)
    · show Fl.fin _ = Fl.fin _
      rw [wsOf_move, wsW_move]
    · show Fl.fin _ = Fl.fin _
      rw [wsOf_move, wsH_move]

theorem covers_exact (v mn mx : Coord) (R C : Nat) (lt rb : Coord) :
    coversAll id (genRaster id (movePt v mn) (movePt v mx) R C) (movePt v lt) (movePt v rb) =
      coversAll id (genRaster id mn mx R C) lt rb := by
  have hW : wsW (wsOf (movePt v mn) (movePt v mx)) = wsW (wsOf mn mx) := by rw [wsOf_move, wsW_move]
  have hH : wsH (wsOf (movePt v mn) (movePt v mx)) = wsH (wsOf mn mx) := by rw [wsOf_move, wsH_move]
  unfold coversAll genRaster rasteriser
  dsimp only
  rw [hW, hH]
  generalize wsW (wsOf mn mx) = W
  generalize wsH (wsOf mn mx) = K
  simp only [Fl.ofInt, Fl.div, Fl.mul, Fl.sub, Fl.add, Fl.le, id, show (2 : ℚ) ≠ 0 by norm_num, if_false, wsOf, movePt]
  congr 1 <;> congr 1 <;> rw [decide_eq_decide] <;> push_cast <;> constructor <;> intro h <;> linarith

/-- with rounding, the computed position of the first (last) centre is off by less than a thousandth of a cell -/
theorem centre_err_tol {rnd : ℚ → ℚ} (hr : Rounding rnd) {w : Int} (hw : inI32 w) {D e : ℚ} (h1 : 1 / 2 ^ 8 ≤ D)
    (he0 : 0 ≤ e) (he1 : e ≤ 1 / 10 ^ 12) :
    |rnd (rnd (w + rnd (rnd D / 2)) - rnd (rnd D * e)) - (w + D / 2)| < D / 1000 ∧
    |rnd (rnd (w - rnd (rnd D / 2)) + rnd (rnd D * e)) - (w - D / 2)| < D / 1000 := by
  have hD0 : 0 < D := lt_of_lt_of_le (by norm_num) h1
  have er : ∀ x, |rnd x - x| ≤ |x| / 2 ^ 53 := hr.relErr
  have ew := abs_le.mp (show |(w : ℚ)| ≤ 2 ^ 31 by
    unfold inI32 at hw
    rw [abs_le]
    constructor
    · have : (-2147483648 : ℤ) ≤ w := by omega
      have : ((-2147483648 : ℤ) : ℚ) ≤ w := by exact_mod_cast this
      norm_num at this ⊢; linarith
    · have : w ≤ (2147483647 : ℤ) := by omega
      have : (w : ℚ) ≤ ((2147483647 : ℤ) : ℚ) := by exact_mod_cast this
      norm_num at this ⊢; linarith)
  have ed := abs_le.mp (er D)
  rw [abs_of_pos hD0] at ed
  generalize hd : rnd D = d at *
  have hd0 : 0 < d := by norm_num at ed ⊢; linarith
  have hdD : d ≤ 2 * D := by norm_num at ed ⊢; linarith
  have eh := abs_le.mp (er (d / 2))
  rw [abs_of_pos (by linarith : 0 < d / 2)] at eh
  generalize hh : rnd (d / 2) = h at *
  have hde0 : 0 ≤ d * e := mul_nonneg hd0.le he0
  have hde : d * e ≤ 2 * D * (1 / 10 ^ 12) := mul_le_mul hdD he1 he0 (by linarith)
  have ek := abs_le.mp (er (d * e))
  rw [abs_of_nonneg hde0] at ek
  generalize hk : rnd (d * e) = k at *
  have hkb : |k| ≤ D / 10 ^ 11 := by
    rw [abs_le]; norm_num at ek hde ⊢
    constructor <;> linarith
  have hkb := abs_le.mp hkb
  have hhb : |h - D / 2| ≤ D / 10 ^ 11 := by
    rw [abs_le]; norm_num at eh ed ⊢
    constructor <;> linarith
  have hhb := abs_le.mp hhb
  have half : ∀ (c s t : ℚ), |c| ≤ 2 ^ 31 + 2 * D → |s - c| ≤ |c| / 2 ^ 53 → ∀ k', |k'| ≤ D / 10 ^ 11 →
      |t - (s + k')| ≤ |s + k'| / 2 ^ 53 → |t - c| ≤ D / 10 ^ 10 + 2 ^ (-20 : ℤ) := by
    intro c s t hc hs k' hk' ht
    have a1 : |c| / 2 ^ 53 ≤ (2 ^ 31 + 2 * D) / 2 ^ 53 := div_le_div_of_nonneg_right hc (by positivity)
    have hs' := abs_le.mp (hs.trans a1)
    have hc' := abs_le.mp hc
    have hk'' := abs_le.mp hk'
    have hsk : |s + k'| ≤ 2 ^ 32 + 4 * D := by
      rw [abs_le]; norm_num at hs' hc' hk'' ⊢
      constructor <;> linarith
    have a2 : |s + k'| / 2 ^ 53 ≤ (2 ^ 32 + 4 * D) / 2 ^ 53 := div_le_div_of_nonneg_right hsk (by positivity)
    have ht' := abs_le.mp (ht.trans a2)
    rw [abs_le]; norm_num at hs' hk'' ht' ⊢
    constructor <;> linarith
  have fin : ∀ (x c : ℚ), |x - c| ≤ D / 10 ^ 10 + 2 ^ (-20 : ℤ) → ∀ c', |c - c'| ≤ D / 10 ^ 11 → |x - c'| < D / 1000 := by
    intro x c hx c' hc
    have hx := abs_le.mp hx
    have hc := abs_le.mp hc
    rw [abs_lt]; norm_num at hx hc h1 ⊢
    constructor <;> linarith
  constructor
  · refine fin _ (w + h) (half (w + h) (rnd (w + h)) _ ?_ (er _) (-k) ?_ ?_) _ ?_
    · rw [abs_le]; norm_num at ew hhb ⊢
      constructor <;> linarith
    · rw [abs_neg, abs_le]; exact hkb
    · rw [← sub_eq_add_neg]; exact er _
    · rw [abs_le]; constructor <;> linarith
  · refine fin _ (w - h) (half (w - h) (rnd (w - h)) _ ?_ (er _) k ?_ (er _)) _ ?_
    · rw [abs_le]; norm_num at ew hhb ⊢
      constructor <;> linarith
    · rw [abs_le]; exact hkb
    · rw [abs_le]; constructor <;> linarith

/-- the generator's tolerance is in that range -/
theorem tol_range {rnd : ℚ → ℚ} (hr : Rounding rnd) : 0 ≤ rnd (1 / 10 ^ 13) ∧ rnd (1 / 10 ^ 13) ≤ 1 / 10 ^ 12 := by
  have ee := abs_le.mp (hr.relErr (1 / 10 ^ 13))
  rw [abs_of_pos (by norm_num : (0 : ℚ) < 1 / 10 ^ 13)] at ee
  constructor
  · norm_num at ee ⊢; linarith
  · norm_num at ee ⊢; linarith

theorem centre_err {rnd : ℚ → ℚ} (hr : Rounding rnd) {w : Int} (hw : inI32 w) {D : ℚ} (h1 : 1 / 2 ^ 8 ≤ D) :
    |rnd (rnd (w + rnd (rnd D / 2)) - rnd (rnd D * rnd (1 / 10 ^ 13))) - (w + D / 2)| < D / 1000 ∧
    |rnd (rnd (w - rnd (rnd D / 2)) + rnd (rnd D * rnd (1 / 10 ^ 13))) - (w - D / 2)| < D / 1000 :=
  centre_err_tol hr hw h1 (tol_range hr).1 (tol_range hr).2

theorem clear_iff {x c c' m : ℚ} (hm : m ≤ |x - c|) (he : |c' - c| < m) : (x ≤ c' ↔ x ≤ c) ∧ (c' ≤ x ↔ c ≤ x) := by
  have he := abs_lt.mp he
  rcases le_abs.mp hm with h | h
  · constructor <;> constructor <;> intro hh <;> linarith
  · constructor <;> constructor <;> intro hh <;> linarith

/-- coordinates that are `int32_t` values -/
def In32 (c : Coord) : Prop := inI32 c.x ∧ inI32 c.y

/-- clear of the centres, the decision is the exact one -/
theorem covers_clear {rnd : ℚ → ℚ} (hr : Rounding rnd) (mn mx : Coord) (R C : Nat) (hR : 0 < R) (hC : 0 < C)
    (h1 : In32 mn) (h2 : In32 mx) (hcx : 1 / 2 ^ 8 ≤ ((mx.x - mn.x : Int) : ℚ) / C) (hcy : 1 / 2 ^ 8 ≤ ((mx.y - mn.y : Int) : ℚ) / R)
    (lt rb : Coord) (h3 : In32 lt) (h4 : In32 rb) (hcl : ClearOfCentres (wsOf mn mx) R C lt rb) :
    coversAll rnd (genRaster rnd mn mx R C) lt rb = true ↔
      ((lt.x : ℚ) ≤ mn.x + ((mx.x - mn.x : Int) : ℚ) / C / 2 ∧ (mx.x : ℚ) - ((mx.x - mn.x : Int) : ℚ) / C / 2 ≤ rb.x) ∧
      ((mx.y : ℚ) - ((mx.y - mn.y : Int) : ℚ) / R / 2 ≤ lt.y ∧ (rb.y : ℚ) ≤ mn.y + ((mx.y - mn.y : Int) : ℚ) / R / 2) := by
  have hRq : (0 : ℚ) < R := by exact_mod_cast hR
  have hCq : (0 : ℚ) < C := by exact_mod_cast hC
  have hW : wsW (wsOf mn mx) = mx.x - mn.x := rfl
  have hH : wsH (wsOf mn mx) = mx.y - mn.y := rfl
  have ex : ∀ n : Int, inI32 n → rnd (n : ℚ) = n := by
    intro n hn
    apply hr.int
    rw [abs_le]; unfold inI32 at hn
    constructor <;> omega
  obtain ⟨c1, c2, c3, c4⟩ := hcl
  unfold centreX at c1 c2
  unfold centreY at c3 c4
  rw [hW] at c1 c2
  rw [hH] at c3 c4
  have eC : ((C - 1 : ℕ) : ℚ) = C - 1 := by
    rw [Nat.cast_sub hC]; norm_num
  have eR : ((R - 1 : ℕ) : ℚ) = R - 1 := by
    rw [Nat.cast_sub hR]; norm_num
  rw [eC] at c2
  rw [eR] at c4
  have k1 : ((wsOf mn mx).leftTop.x : ℚ) = mn.x := rfl
  have k2 : ((wsOf mn mx).leftTop.y : ℚ) = mx.y := rfl
  rw [k1] at c1 c2
  rw [k2] at c3 c4
  have q1 : (mn.x : ℚ) + (C - 1 + 1 / 2) * (((mx.x - mn.x : Int) : ℚ) / C) = mx.x - ((mx.x - mn.x : Int) : ℚ) / C / 2 := by
    push_cast; field_simp; ring
  have q2 : (mx.y : ℚ) - (R - 1 + 1 / 2) * (((mx.y - mn.y : Int) : ℚ) / R) = mn.y + ((mx.y - mn.y : Int) : ℚ) / R / 2 := by
    push_cast; field_simp; ring
  rw [q1] at c2
  rw [q2] at c4
  generalize hDx : ((mx.x - mn.x : Int) : ℚ) / C = DX at *
  generalize hDy : ((mx.y - mn.y : Int) : ℚ) / R = DY at *
  have q3 : (mn.x : ℚ) + ((0 : ℕ) + 1 / 2) * DX = mn.x + DX / 2 := by push_cast; ring
  have q4 : (mx.y : ℚ) - ((0 : ℕ) + 1 / 2) * DY = mx.y - DY / 2 := by push_cast; ring
  rw [q3] at c1
  rw [q4] at c3
  have m1 : ∀ D : ℚ, 1 / 1000 * D = D / 1000 := fun D => by ring
  rw [m1] at c1 c2 c3 c4
  simp only [coversAll, genRaster, rasteriser, hW, hH, hDx, hDy, Fl.ofInt, Fl.div, Fl.mul, Fl.sub, Fl.add, Fl.le,
    Bool.and_eq_true, decide_eq_true_eq, show (2 : ℚ) ≠ 0 by norm_num, if_false]
  show (rnd lt.x ≤ rnd (rnd (rnd mn.x + _) - _) ∧ rnd (rnd (rnd mx.x - _) + _) ≤ rnd rb.x) ∧
    (rnd (rnd (rnd mx.y - _) + _) ≤ rnd lt.y ∧ rnd rb.y ≤ rnd (rnd (rnd mn.y + _) - _)) ↔ _
  rw [ex _ h3.1, ex _ h3.2, ex _ h4.1, ex _ h4.2, ex _ h1.1, ex _ h1.2, ex _ h2.1, ex _ h2.2]
  rw [(clear_iff c1 (centre_err hr h1.1 hcx).1).1, (clear_iff c2 (centre_err hr h2.1 hcx).2).2,
    (clear_iff c3 (centre_err hr h2.2 hcy).2).2, (clear_iff c4 (centre_err hr h1.2 hcy).1).1]

end Moved

open Moved

/-- **C65** In exact arithmetic: if all shapes of a layout (rectangles, polygons, texts; no paths or references) and the
window are moved by the same vector, `Process` does the same — it returns, throws or is undefined alike, with the same bitmap
and the same printed text. -/
theorem C65_moved_together (g g' : Generator) (a a' : Nat) (mn mx v : Coord) (req : List Int) (al al' : Alloc) (R C : Nat)
    (hr : Ready id g a mn mx req al R C) (hr' : Ready id g' a' (movePt v mn) (movePt v mx) req al' R C)
    (k k' : Nat) (mem mem' : Memory) (depth : Nat) (hs : ShapesOnly (mem.layouts a))
    (hmv : (mem'.layouts a').libraries = (mem.layouts a).libraries.map (Option.map (moveLib v))) :
    (Generator.process id al' (.ok k') mem' depth R C g').map (Out.mapS getMatrix) =
      (Generator.process id al (.ok k) mem depth R C g).map (Out.mapS getMatrix) := by
  have e1 := ready_obs hr k mem depth
  have e2 := ready_obs hr' k' mem' depth
  show Option.map (Out.mapS Generator.bitmap) _ = Option.map (Out.mapS Generator.bitmap) _
  rw [e1, e2, hmv]
  exact drawOut_move id v mn mx R C _ _ depth req _ hs (fun _ _ _ _ _ lt rb _ _ => covers_exact v mn mx R C lt rb)

/-- **C65** In `double` arithmetic the same holds if cells are at least 1/256 wide and high and no side of a rectangle to draw
comes within a thousandth of a cell of the centres of the first or last column or row. -/
theorem C65_moved_together_double (rnd : ℚ → ℚ) (g g' : Generator) (a a' : Nat) (mn mx v : Coord) (req : List Int)
    (al al' : Alloc) (R C : Nat)
    (hr : Ready rnd g a mn mx req al R C) (hr' : Ready rnd g' a' (movePt v mn) (movePt v mx) req al' R C)
    (k k' : Nat) (mem mem' : Memory) (depth : Nat) (hs : ShapesOnly (mem.layouts a))
    (hmv : (mem'.layouts a').libraries = (mem.layouts a).libraries.map (Option.map (moveLib v)))
    (hfit : LayoutFits (mem.layouts a) mem.elements)
    (hcx : 1 / 2 ^ 8 ≤ ((mx.x - mn.x : Int) : ℚ) / C) (hcy : 1 / 2 ^ 8 ≤ ((mx.y - mn.y : Int) : ℚ) / R)
    (hin : In32 mn ∧ In32 mx ∧ In32 (movePt v mn) ∧ In32 (movePt v mx))
    (hcl : ∀ s lt rb, Selected (mem.layouts a) mem.elements (wsOf mn mx) req s → s.type = .rectangle → s.coords[0]? = some lt →
      s.coords[2]? = some rb → In32 lt ∧ In32 rb ∧ In32 (movePt v lt) ∧ In32 (movePt v rb) ∧
        ClearOfCentres (wsOf mn mx) R C lt rb) :
    (Generator.process rnd al' (.ok k') mem' depth R C g').map (Out.mapS getMatrix) =
      (Generator.process rnd al (.ok k) mem depth R C g).map (Out.mapS getMatrix) := by
  have e1 := ready_obs hr k mem depth
  have e2 := ready_obs hr' k' mem' depth
  show Option.map (Out.mapS Generator.bitmap) _ = Option.map (Out.mapS Generator.bitmap) _
  rw [e1, e2, hmv]
  refine drawOut_move rnd v mn mx R C _ _ depth req _ hs (fun l hl s hmem ht lt rb h0 h2 => ?_)
  have hsel := (gatherLibs_mem hfit.2 hfit.1 hl s).mp (.inr hmem)
  obtain ⟨i1, i2, i3, i4, c⟩ := hcl s lt rb hsel ht h0 h2
  have c' : ClearOfCentres (wsOf (movePt v mn) (movePt v mx)) R C (movePt v lt) (movePt v rb) := by
    obtain ⟨c1, c2, c3, c4⟩ := c
    rw [wsOf_move]
    unfold ClearOfCentres centreX centreY at *
    rw [wsW_move, wsH_move]
    have sh : ∀ p q r s : ℚ, p + q - (r + q + s) = p - (r + s) := fun p q r s => by ring
    have sh' : ∀ p q r s : ℚ, p + q - (r + q - s) = p - (r - s) := fun p q r s => by ring
    simp only [moveWs, movePt, Int.cast_add, sh, sh']
    exact ⟨c1, c2, c3, c4⟩
  have dx : (movePt v mx).x - (movePt v mn).x = mx.x - mn.x := by simp only [movePt]; ring
  have dy : (movePt v mx).y - (movePt v mn).y = mx.y - mn.y := by simp only [movePt]; ring
  rw [Bool.eq_iff_iff, covers_clear hr.round mn mx R C hr.rpos hr.cpos hin.1 hin.2.1 hcx hcy lt rb i1 i2 c,
    covers_clear hr.round (movePt v mn) (movePt v mx) R C hr.rpos hr.cpos hin.2.2.1 hin.2.2.2 (by rw [dx]; exact hcx)
      (by rw [dy]; exact hcy) (movePt v lt) (movePt v rb) i3 i4 c', dx, dy]
  simp only [movePt, Int.cast_add]
  constructor
  · rintro ⟨⟨a1, a2⟩, a3, a4⟩
    refine ⟨⟨?_, ?_⟩, ?_, ?_⟩ <;> linarith
  · rintro ⟨⟨a1, a2⟩, a3, a4⟩
    refine ⟨⟨?_, ?_⟩, ?_, ?_⟩ <;> linarith

/-- **C65** That condition is needed: a rectangle from the centre of the first column that sticks out at the top of a 4×4
window cannot be drawn into 2×2 cells, but 2³⁰ units further to the right it fills the bitmap. -/
theorem C65_double_not_invariant :
    ∃ (mn mx v : Coord) (s : Geometry), RectGeom s ⟨1, 5⟩ ⟨4, 0⟩ ∧ In32 (movePt v mx) ∧
      zondGeometry Ieee.rne (genRaster Ieee.rne mn mx 2 2) (some s) (blank 2 2) = .throw .invalidArgument (blank 2 2) ∧
      ∃ m, zondGeometry Ieee.rne (genRaster Ieee.rne (movePt v mn) (movePt v mx) 2 2) (some (moveGeom v s)) (blank 2 2) = .ok () m ∧
        ∀ i j, i < 2 → j < 2 → Lit m i j := by
  refine ⟨⟨0, 0⟩, ⟨4, 4⟩, ⟨1073741824, 0⟩, { type := .rectangle, coords := [⟨1, 5⟩, ⟨4, 5⟩, ⟨4, 0⟩, ⟨1, 0⟩, ⟨1, 5⟩] },
    ⟨rfl, _, _, rfl⟩, by unfold In32 inI32 movePt; decide, ?_, ?_⟩
  · decide +kernel
  · have hc : coversAll Ieee.rne (genRaster Ieee.rne (movePt ⟨1073741824, 0⟩ ⟨0, 0⟩) (movePt ⟨1073741824, 0⟩ ⟨4, 4⟩) 2 2)
        (movePt ⟨1073741824, 0⟩ ⟨1, 5⟩) (movePt ⟨1073741824, 0⟩ ⟨4, 0⟩) = true := by decide +kernel
    have hs : SetUp Ieee.rne (genRaster Ieee.rne (movePt ⟨1073741824, 0⟩ ⟨0, 0⟩) (movePt ⟨1073741824, 0⟩ ⟨4, 4⟩) 2 2)
        (wsOf (movePt ⟨1073741824, 0⟩ ⟨0, 0⟩) (movePt ⟨1073741824, 0⟩ ⟨4, 4⟩)) 2 2 (Ieee.rne (1 / 10 ^ 13)) :=
      ⟨rfl, rfl, rfl, rfl, rfl, by decide, by decide, by decide, by decide, by decide, by decide⟩
    obtain ⟨m', e, l⟩ := built_paints (built_blank (R := 2) (C := 2) (by decide) (by decide)) (setup_all hs (g := moveGeom ⟨1073741824, 0⟩ { type := .rectangle, coords := [⟨1, 5⟩, ⟨4, 5⟩, ⟨4, 0⟩, ⟨1, 0⟩, ⟨1, 5⟩] })
      ⟨rfl, _, _, rfl⟩ hc)
    exact ⟨m', e, fun i j hi hj => (l i j).mpr (Or.inr ⟨hi, hj, hi, hj⟩)⟩

/-- a generator after its first `Init` is ready -/
theorem ready_first (a : Nat) (mn mx : Coord) (req : List Int) (hq : req ≠ []) (R C : Nat) (hR : 0 < R) (hC : 0 < C)
    (hR2 : R < 4294967296) (hC2 : C < 4294967296) (hw : inI32 (mx.x - mn.x)) (hh : inI32 (mn.y - mx.y)) (h1 : mn.x ≤ mx.x)
    (h2 : mn.y ≤ mx.y) {rnd : ℚ → ℚ} (hr : Rounding rnd) : ∃ g, Ready rnd g a mn mx req Alloc.ok R C := by
  have h0 : History rnd [] (Generator.new rnd) := .start
  have hi : ∃ g, Generator.init (some a) req mn mx (Generator.new rnd) = .ok () g := by
    have hc : ¬ (mn.x > mx.x ∨ mx.y < mn.y) := by omega
    have ho : V2.opNot (Generator.new rnd).frags = false := rfl
    simp only [Generator.init, ho, hq, reduceCtorEq, or_self, Bool.false_eq_true, if_false, Workspace.setAngleCoords, hc]
    exact ⟨_, rfl⟩
  obtain ⟨g, hi⟩ := hi
  exact ⟨g, hr, ⟨_, req, h0.call (.initRet hi), by simp, rfl⟩, hR, hC, hR2, hC2, rfl, hw, hh⟩

/-- C65 at work: the layout of C41's example and its window, moved 1000 to the right and 50 down -/
example : ∃ g g', Ready Ieee.rne g 7 ⟨0, 0⟩ ⟨100, 100⟩ [13, 23] Alloc.ok 10 10 ∧
    Ready Ieee.rne g' 9 ⟨1000, -50⟩ ⟨1100, 50⟩ [13, 23] Alloc.ok 10 10 ∧
    (Generator.process Ieee.rne Alloc.ok (.ok 1)
        ⟨fun _ => { libraries := exLayout.libraries.map (Option.map (moveLib ⟨1000, -50⟩)) }, fun _ => {}⟩ 3 10 10 g').map (Out.mapS getMatrix) =
      (Generator.process Ieee.rne Alloc.ok (.ok 1) exMem 3 10 10 g).map (Out.mapS getMatrix) := by
  obtain ⟨g, hr, _⟩ := exReady
  obtain ⟨g', hr'⟩ := ready_first 9 ⟨1000, -50⟩ ⟨1100, 50⟩ [13, 23] (by simp) 10 10 (by decide) (by decide) (by decide) (by decide)
    (by unfold inI32; decide) (by unfold inI32; decide) (by decide) (by decide) Ieee.rne_rounding
  have hall : ∀ lib l p, some lib ∈ exLayout.libraries → l ∈ lib.layers → some p ∈ l.geometries →
      p.coords.length < 2 ^ 64 ∧ p.type ≠ .path ∧ p.type ≠ .reference ∧ (p.type = .rectangle →
        ∃ lt rb, p.coords[0]? = some lt ∧ p.coords[2]? = some rb ∧ In32 lt ∧ In32 rb ∧ In32 (movePt ⟨1000, -50⟩ lt) ∧
          In32 (movePt ⟨1000, -50⟩ rb) ∧ ClearOfCentres (wsOf ⟨0, 0⟩ ⟨100, 100⟩) 10 10 lt rb) := by
    have key : ∀ (x1 y1 x2 y2 : Int) (lo hi : Coord),
        (let lt : Coord := ⟨x1, y1⟩; let rb : Coord := ⟨x2, y2⟩
          In32 lt ∧ In32 rb ∧ In32 (movePt ⟨1000, -50⟩ lt) ∧ In32 (movePt ⟨1000, -50⟩ rb) ∧
          ClearOfCentres (wsOf ⟨0, 0⟩ ⟨100, 100⟩) 10 10 lt rb) →
        let p : Geometry := { exRect x1 y1 x2 y2 with min := lo, max := hi }
        p.coords.length < 2 ^ 64 ∧ p.type ≠ .path ∧ p.type ≠ .reference ∧ (p.type = .rectangle →
        ∃ lt rb, p.coords[0]? = some lt ∧ p.coords[2]? = some rb ∧ In32 lt ∧ In32 rb ∧ In32 (movePt ⟨1000, -50⟩ lt) ∧
          In32 (movePt ⟨1000, -50⟩ rb) ∧ ClearOfCentres (wsOf ⟨0, 0⟩ ⟨100, 100⟩) 10 10 lt rb) := by
      intro x1 y1 x2 y2 lo hi h
      refine ⟨by simp [exRect], by simp [exRect], by simp [exRect], fun _ => ⟨⟨x1, y1⟩, ⟨x2, y2⟩, rfl, rfl, h⟩⟩
    have cl : ∀ (x1 y1 x2 y2 : Int), inI32 x1 → inI32 y1 → inI32 x2 → inI32 y2 → inI32 (x1 + 1000) → inI32 (y1 + -50) → inI32 (x2 + 1000) →
        inI32 (y2 + -50) → x1 ≠ 5 → x2 ≠ 95 → y1 ≠ 95 → y2 ≠ 5 →
        (let lt : Coord := ⟨x1, y1⟩; let rb : Coord := ⟨x2, y2⟩
          In32 lt ∧ In32 rb ∧ In32 (movePt ⟨1000, -50⟩ lt) ∧ In32 (movePt ⟨1000, -50⟩ rb) ∧
          ClearOfCentres (wsOf ⟨0, 0⟩ ⟨100, 100⟩) 10 10 lt rb) := by
      intro x1 y1 x2 y2 a1 a2 a3 a4 a5 a6 a7 a8 n1 n2 n3 n4
      refine ⟨⟨a1, a2⟩, ⟨a3, a4⟩, ⟨a5, a6⟩, ⟨a7, a8⟩, ?_⟩
      have far : ∀ n c : Int, n ≠ c → (1 : ℚ) / 100 ≤ |(n : ℚ) - c| := by
        intro n c h
        have : (1 : ℤ) ≤ |n - c| := Int.one_le_abs (by omega)
        have h' : (1 : ℚ) ≤ |(n : ℚ) - c| := by exact_mod_cast this
        linarith
      have W : wsW (wsOf ⟨0, 0⟩ ⟨100, 100⟩) = 100 := rfl
      have K : wsH (wsOf ⟨0, 0⟩ ⟨100, 100⟩) = 100 := rfl
      have f1 := far x1 5 n1
      have f2 := far x2 95 n2
      have f3 := far y1 95 n3
      have f4 := far y2 5 n4
      unfold ClearOfCentres centreX centreY
      rw [W, K]
      simp only [wsOf]
      norm_num at f1 f2 f3 f4 ⊢
      exact ⟨f1, f2, f3, f4⟩
    have i32 : ∀ n : Int, -2000 ≤ n → n ≤ 2000 → inI32 n := fun n _ _ => by unfold inI32; omega
    intro lib l p h1 h2 h3
    simp only [exLayout, List.mem_cons, Option.some.injEq, List.not_mem_nil, or_false] at h1
    rcases h1 with rfl | rfl
    · simp only [List.mem_cons, List.not_mem_nil, or_false] at h2
      rcases h2 with rfl | rfl | rfl <;> simp at h3
      · subst h3
        exact key 0 100 100 0 _ _ (cl _ _ _ _ (i32 _ (by decide) (by decide)) (i32 _ (by decide) (by decide)) (i32 _ (by decide) (by decide)) (i32 _ (by decide) (by decide)) (i32 _ (by decide) (by decide)) (i32 _ (by decide) (by decide)) (i32 _ (by decide) (by decide)) (i32 _ (by decide) (by decide)) (by decide) (by decide) (by decide) (by decide))
      · rcases h3 with rfl | rfl
        · exact key 20 80 45 60 _ _ (cl _ _ _ _ (i32 _ (by decide) (by decide)) (i32 _ (by decide) (by decide)) (i32 _ (by decide) (by decide)) (i32 _ (by decide) (by decide)) (i32 _ (by decide) (by decide)) (i32 _ (by decide) (by decide)) (i32 _ (by decide) (by decide)) (i32 _ (by decide) (by decide)) (by decide) (by decide) (by decide) (by decide))
        · simp
      · subst h3
        exact key 50 50 60 40 _ _ (cl _ _ _ _ (i32 _ (by decide) (by decide)) (i32 _ (by decide) (by decide)) (i32 _ (by decide) (by decide)) (i32 _ (by decide) (by decide)) (i32 _ (by decide) (by decide)) (i32 _ (by decide) (by decide)) (i32 _ (by decide) (by decide)) (i32 _ (by decide) (by decide)) (by decide) (by decide) (by decide) (by decide))
    · simp only [List.mem_cons, List.not_mem_nil, or_false] at h2
      subst h2
      simp at h3
      rcases h3 with rfl | rfl
      · exact key 0 10 10 0 _ _ (cl _ _ _ _ (i32 _ (by decide) (by decide)) (i32 _ (by decide) (by decide)) (i32 _ (by decide) (by decide)) (i32 _ (by decide) (by decide)) (i32 _ (by decide) (by decide)) (i32 _ (by decide) (by decide)) (i32 _ (by decide) (by decide)) (i32 _ (by decide) (by decide)) (by decide) (by decide) (by decide) (by decide))
      · exact key 300 10 310 0 _ _ (cl _ _ _ _ (i32 _ (by decide) (by decide)) (i32 _ (by decide) (by decide)) (i32 _ (by decide) (by decide)) (i32 _ (by decide) (by decide)) (i32 _ (by decide) (by decide)) (i32 _ (by decide) (by decide)) (i32 _ (by decide) (by decide)) (i32 _ (by decide) (by decide)) (by decide) (by decide) (by decide) (by decide))
  refine ⟨g, g', hr, hr', ?_⟩
  have m1 : movePt ⟨1000, -50⟩ ⟨0, 0⟩ = ⟨1000, -50⟩ := by decide
  have m2 : movePt ⟨1000, -50⟩ ⟨100, 100⟩ = ⟨1100, 50⟩ := by decide
  rw [← m1, ← m2] at hr'
  refine C65_moved_together_double Ieee.rne g g' 7 9 ⟨0, 0⟩ ⟨100, 100⟩ ⟨1000, -50⟩ [13, 23] Alloc.ok Alloc.ok 10 10 hr hr' 1 1 exMem _ 3
    (fun lib l p a b c => ⟨(hall lib l p a b c).2.1, (hall lib l p a b c).2.2.1⟩) rfl
    ⟨fun lib l p a b c => (hall lib l p a b c).1, fun e p h => by simp [exMem] at h⟩ (by norm_num) (by norm_num)
    (by unfold In32 inI32 movePt; decide) ?_
  rintro s lt rb ⟨p, ⟨lib, l, a, b, c⟩, ht, hcn⟩ hty h0 h2
  obtain ⟨before, after, e, _, _⟩ := b
  have hp := hall lib l p a (by rw [e]; simp) c
  cases hcn with
  | direct _ =>
    obtain ⟨lt', rb', e1, e2, r⟩ := hp.2.2.2 hty
    rw [h0] at e1
    rw [h2] at e2
    cases e1; cases e2
    exact r
  | segment h => exact absurd h hp.2.1
  | placed h => exact absurd h hp.2.2.1

end Verif.Props
