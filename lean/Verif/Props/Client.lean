import Verif.Props.ZondNear
import Verif.Props.Generator
import Verif.Props.Msk
import Verif.Props.LayoutMatrix
import Verif.Model.Client
import Verif.Spec.Client

/-!
C62: from an MSK file to the bitmaps of its layers and to a saved matrix, end to end.
-/

namespace Verif.Props
open Verif BitMatrix Zond Spec Ieee Generator Client

/-- the box the reader makes of a rectangle of the file -/
def boxR (p : Msk.Rect × Int) : Geometry := Msk.boxOf p.1.x p.1.y (p.1.x + p.1.w) (p.1.y + p.1.h) p.2

theorem boxR_rect (p : Msk.Rect × Int) : RectGeom (boxR p) (Client.lt p.1) (Client.rb p.1) :=
  ⟨rfl, _, _, rfl⟩

theorem boxR_touches {mn mx : Coord} {p : Msk.Rect × Int} (hw : 0 ≤ p.1.w) (hh : 0 ≤ p.1.h) :
    Touches (wsOf mn mx) (boxR p) ↔ Client.Meets mn mx p.1 := by
  unfold Touches Client.Meets boxR Msk.boxOf wsOf
  dsimp only
  rw [min_eq_left (by omega), max_eq_right (by omega), min_eq_left (by omega), max_eq_right (by omega)]

theorem first_exists {n : Int} : ∀ {ls : List Layer}, (∃ l ∈ ls, l.layer = n) →
    ∃ before l after, ls = before ++ l :: after ∧ l.layer = n ∧ ∀ l' ∈ before, l'.layer ≠ n
  | [], h => by obtain ⟨_, h, _⟩ := h; cases h
  | l :: ls, h => by
    by_cases hl : l.layer = n
    · exact ⟨[], l, ls, rfl, hl, by simp⟩
    · obtain ⟨l', h1, h2⟩ := h
      rcases List.mem_cons.mp h1 with rfl | h1
      · exact absurd h2 hl
      · obtain ⟨b, x, a, e, e1, e2⟩ := first_exists ⟨l', h1, h2⟩
        refine ⟨l :: b, x, a, by rw [e]; rfl, e1, ?_⟩
        intro y hy
        rcases List.mem_cons.mp hy with rfl | hy
        · exact hl
        · exact e2 y hy

/-- a layout holding exactly the rectangles `rs`, one layer per number -/
structure Holds (L : LayoutData) (rs : List (Msk.Rect × Int)) : Prop where
  one : ∃ lib, L.libraries = [some lib] ∧ ∀ n, (lib.layers.filter fun l => l.layer = n).map Layer.geometries =
    if n ∈ rs.map Prod.snd then [(rs.filter fun p => p.2 = n).map fun p => some (boxR p)] else []

theorem holds_candidate {L : LayoutData} {rs : List (Msk.Rect × Int)} (h : Holds L rs) (n : Int) (p : Geometry) :
    Candidate L [n] p ↔ ∃ q ∈ rs, q.2 = n ∧ p = boxR q := by
  obtain ⟨lib, hlib, hl⟩ := h.one
  have hn := hl n
  constructor
  · rintro ⟨lib', l, h1, ⟨b, a, e, h2, h3⟩, h4⟩
    rw [hlib] at h1
    simp only [List.mem_singleton, Option.some.injEq] at h1
    subst h1
    simp only [List.mem_singleton] at h2
    have hm : l.geometries ∈ (lib'.layers.filter fun l => l.layer = n).map Layer.geometries := by
      refine List.mem_map.mpr ⟨l, List.mem_filter.mpr ⟨by rw [e]; simp, by simpa using h2⟩, rfl⟩
    rw [hn] at hm
    split at hm
    · simp only [List.mem_singleton] at hm
      rw [hm] at h4
      obtain ⟨q, hq, e⟩ := List.mem_map.mp h4
      obtain ⟨hq1, hq2⟩ := List.mem_filter.mp hq
      exact ⟨q, hq1, by simpa using hq2, (Option.some.inj e).symm⟩
    · cases hm
  · rintro ⟨q, hq, rfl, rfl⟩
    have hmem : q.2 ∈ rs.map Prod.snd := List.mem_map.mpr ⟨q, hq, rfl⟩
    rw [if_pos hmem] at hn
    have hex : ∃ l ∈ lib.layers, l.layer = q.2 := by
      have : (lib.layers.filter fun l => l.layer = q.2) ≠ [] := by
        intro h0; rw [h0] at hn; cases hn
      obtain ⟨l, hl⟩ := List.exists_mem_of_ne_nil _ this
      obtain ⟨a, b⟩ := List.mem_filter.mp hl
      exact ⟨l, a, by simpa using b⟩
    obtain ⟨b, l, a, e, e1, e2⟩ := first_exists hex
    refine ⟨lib, l, by rw [hlib]; simp, ⟨b, a, e, by simpa using e1, fun l' h' => by simpa using e2 l' h'⟩, ?_⟩
    have hm : l.geometries ∈ (lib.layers.filter fun l => l.layer = q.2).map Layer.geometries :=
      List.mem_map.mpr ⟨l, List.mem_filter.mpr ⟨by rw [e]; simp, by simpa using e1⟩, rfl⟩
    rw [hn] at hm
    simp only [List.mem_singleton] at hm
    rw [hm]
    exact List.mem_map.mpr ⟨q, List.mem_filter.mpr ⟨hq, by simp⟩, rfl⟩

theorem holds_selected {L : LayoutData} {rs : List (Msk.Rect × Int)} (h : Holds L rs) (H : Elements)
    (hpos : ∀ q ∈ rs, 0 ≤ q.1.w ∧ 0 ≤ q.1.h) (mn mx : Coord) (n : Int) (s : Geometry) :
    Selected L H (wsOf mn mx) [n] s ↔ ∃ q ∈ rs, q.2 = n ∧ Client.Meets mn mx q.1 ∧ s = boxR q := by
  constructor
  · rintro ⟨p, hc, ht, hk⟩
    obtain ⟨q, hq, hn, rfl⟩ := (holds_candidate h n p).mp hc
    rw [boxR_touches (hpos q hq).1 (hpos q hq).2] at ht
    cases hk with
    | direct _ => exact ⟨q, hq, hn, ht, rfl⟩
    | segment h => cases h
    | placed h => cases h
  · rintro ⟨q, hq, hn, ht, rfl⟩
    exact ⟨boxR q, (holds_candidate h n _).mpr ⟨q, hq, hn, rfl⟩, (boxR_touches (hpos q hq).1 (hpos q hq).2).mpr ht, .direct (.inl rfl)⟩

theorem holds_fits {L : LayoutData} {rs : List (Msk.Rect × Int)} (h : Holds L rs) {H : Elements}
    (hH : ∀ e g, some g ∈ (H e).geometries → g.coords.length < 2 ^ 64) : LayoutFits L H := by
  refine ⟨fun lib l p h1 h2 h3 => ?_, hH⟩
  obtain ⟨lib', hlib, hl⟩ := h.one
  rw [hlib] at h1
  simp only [List.mem_singleton, Option.some.injEq] at h1
  subst h1
  have hm : l.geometries ∈ (lib.layers.filter fun x => x.layer = l.layer).map Layer.geometries :=
    List.mem_map.mpr ⟨l, List.mem_filter.mpr ⟨h2, by simp⟩, rfl⟩
  rw [hl] at hm
  split at hm
  · simp only [List.mem_singleton] at hm
    rw [hm] at h3
    obtain ⟨q, _, e⟩ := List.mem_map.mp h3
    rw [← Option.some.inj e]
    show (5 : Nat) < 2 ^ 64
    norm_num
  · cases hm

/-- the window and the grid: corners are 32-bit integers in the right order, cells are not tiny -/
structure Grid (mn mx : Coord) (R C : Nat) : Prop where
  fits : inI32 mn.x ∧ inI32 mn.y ∧ inI32 mx.x ∧ inI32 mx.y
  width : inI32 (mx.x - mn.x)
  height : inI32 (mx.y - mn.y)
  wpos : mn.x < mx.x
  hpos : mn.y < mx.y
  rpos : 0 < R
  cpos : 0 < C
  cells_x : (C : ℤ) * C ≤ 100 * (mx.x - mn.x)
  cells_y : (R : ℤ) * R ≤ 100 * (mx.y - mn.y)

theorem Grid.max {mn mx : Coord} {R C : Nat} (h : Grid mn mx R C) : R ≤ 1073741824 ∧ C ≤ 1073741824 := by
  have h1 := h.cells_x
  have h2 := h.cells_y
  obtain ⟨_, w⟩ := h.width
  obtain ⟨_, w'⟩ := h.height
  constructor
  · by_contra hc
    have : (1073741824 : ℤ) < R := by omega
    nlinarith
  · by_contra hc
    have : (1073741824 : ℤ) < C := by omega
    nlinarith

theorem grid_setUp {rnd : ℚ → ℚ} {mn mx : Coord} {R C : Nat} (h : Grid mn mx R C) :
    SetUp rnd (genRaster rnd mn mx R C) (wsOf mn mx) R C (rnd (1 / 10 ^ 13)) := by
  obtain ⟨m1, m2⟩ := h.max
  have := h.wpos
  have := h.hpos
  exact ⟨rfl, rfl, rfl, rfl, rfl, h.rpos, h.cpos, by omega, by omega, by simp [wsW, wsOf]; omega, by simp [wsH, wsOf]; omega⟩

/-- a rectangle of the file, drawn alone -/
theorem draw_one {rnd : ℚ → ℚ} (hr : Rounding rnd) {mn mx : Coord} {R C : Nat} (hg : Grid mn mx R C)
    {q : Msk.Rect × Int} (hw : 0 ≤ q.1.w) (hh : 0 ≤ q.1.h) (hf : RectFits q.1)
    (hd : Client.StartsInside mn mx R C q.1 ∨ Client.Covers mn mx q.1) :
    ∃ m, zondGeometry rnd (genRaster rnd mn mx R C) (some (boxR q)) (blank R C) = .ok () m ∧
      ∀ i j, i < R → j < C → InRect (Client.lt q.1) (Client.rb q.1) (centreX (wsOf mn mx) C j) (centreY (wsOf mn mx) R i) →
        Lit m i j := by
  obtain ⟨m1, m2⟩ := hg.max
  have rp := hg.rpos
  have cp := hg.cpos
  have wp := hg.wpos
  have hp := hg.hpos
  have hb : Built (blank R C) := built_blank (by omega) (by omega)
  have wq : (0 : ℚ) < (wsW (wsOf mn mx) : ℤ) := by
    have : 0 < wsW (wsOf mn mx) := by simp only [wsW, wsOf]; omega
    exact_mod_cast this
  have hq : (0 : ℚ) < (wsH (wsOf mn mx) : ℤ) := by
    have : 0 < wsH (wsOf mn mx) := by simp only [wsH, wsOf]; omega
    exact_mod_cast this
  have cq : (0 : ℚ) < C := by exact_mod_cast cp
  have rq : (0 : ℚ) < R := by exact_mod_cast rp
  obtain ⟨f1, f2, f3, f4, f5, f6⟩ := hf
  rcases hd with hd | hd
  · refine C39_centres_covered rnd hr _ (wsOf mn mx) R C (grid_setUp hg) hg.cells_x hg.cells_y (boxR q) _ _ (boxR_rect q)
      ?_ hd.left ?_ hd.top ?_ ?_ ?_ _ hb rfl rfl
    · have a := hd.xfit
      have b := hd.yfit
      have c := hd.left
      have d := hd.top
      simp only [DiffsFit, wsOf, Client.lt, Client.rb, inI32] at *
      omega
    · simp only [Client.lt, Client.rb]; omega
    · simp only [Client.lt, Client.rb]; omega
    · unfold colOf
      rw [div_le_iff₀ (div_pos wq cq), ← mul_div_assoc, le_div_iff₀ cq]
      have := hd.cols
      have e : (((Client.rb q.1).x - (wsOf mn mx).leftTop.x : ℤ)) * (C : ℤ) ≤ 1073741824 * wsW (wsOf mn mx) := this
      exact_mod_cast e
    · unfold rowOf
      rw [div_le_iff₀ (div_pos hq rq), ← mul_div_assoc, le_div_iff₀ rq]
      have := hd.rows
      have e : (((wsOf mn mx).leftTop.y - (Client.rb q.1).y : ℤ)) * (R : ℤ) ≤ 1073741824 * wsH (wsOf mn mx) := this
      exact_mod_cast e
  · obtain ⟨d1, d2, d3, d4⟩ := hd
    have cx := hg.cells_x
    have cy := hg.cells_y
    have kc : (C : ℤ) ≤ C * C := by
      have : (1 : ℤ) ≤ C := by omega
      nlinarith
    have kr : (R : ℤ) ≤ R * R := by
      have : (1 : ℤ) ≤ R := by omega
      nlinarith
    obtain ⟨g1, g2, g3, g4⟩ := hg.fits
    obtain ⟨m, e, l⟩ := C39_cover_all rnd hr _ (wsOf mn mx) R C (grid_setUp hg)
      (by simp only [wsW, wsOf]; omega) (by simp only [wsH, wsOf]; omega)
      ⟨g1, g4, g3, g2⟩ (boxR q) _ _ (boxR_rect q) ⟨f1, f6, f5, f2⟩ d1 d2 d4 d3 _ hb rfl rfl
    exact ⟨m, e, fun i j hi hj _ => l i j hi hj⟩

/-- one layer of a layout that holds the rectangles -/
theorem draw_layer {rnd : ℚ → ℚ} {g : Generator} {a : Nat} {mn mx : Coord} {n : Int} {al : Alloc} {R C : Nat}
    (hr : Ready rnd g a mn mx [n] al R C) (hg : Grid mn mx R C) {rs : List (Msk.Rect × Int)} {mem : Memory}
    (hL : Holds (mem.layouts a) rs) (hH : ∀ e g, some g ∈ (mem.elements e).geometries → g.coords.length < 2 ^ 64)
    (hpos : ∀ q ∈ rs, 0 ≤ q.1.w ∧ 0 ≤ q.1.h) (hf : ∀ q ∈ rs, RectFits q.1)
    (hd : ∀ q ∈ rs, q.2 = n → Client.Meets mn mx q.1 → Client.StartsInside mn mx R C q.1 ∨ Client.Covers mn mx q.1)
    (k depth : Nat) :
    ∃ txt g', Generator.process rnd al (.ok k) mem depth R C g = some (.ok (true, txt) g') ∧ Built (getMatrix g') ∧
      Client.Shows mn mx R C ((rs.filter fun q => q.2 = n).map Prod.fst) (getMatrix g') := by
  have hfit := holds_fits hL hH
  have hsel := holds_selected hL mem.elements hpos mn mx n
  have hb : Built (blank R C) := built_blank hr.rmax hr.cmax
  have none_ : ∀ (p : Geometry), Candidate (mem.layouts a) [n] p → p.type = .rectangle := by
    intro p hp
    obtain ⟨q, _, _, rfl⟩ := (holds_candidate hL n p).mp hp
    rfl
  obtain ⟨⟨b, txt⟩, g', hp⟩ := (C41_returns_or_throws rnd g a mn mx [n] al R C hr k mem depth hfit).2
    (by obtain ⟨lib, hlib, _⟩ := hL.one; rw [hlib]; simp)
    (fun p hc _ ht => by rw [none_ p hc] at ht; cases ht)
    (fun p hc _ ht => by rw [none_ p hc] at ht; cases ht)
    (fun s hs => by
      obtain ⟨q, hq, hn, hm, rfl⟩ := (hsel s).mp hs
      obtain ⟨m, e, _⟩ := draw_one hr.round hg (hpos q hq).1 (hpos q hq).2 (hf q hq) (hd q hq hn hm)
      exact ⟨m, e⟩)
  obtain ⟨rfl, hbu, h1, h2, _, hl⟩ := C41_bitmap rnd g a mn mx [n] al R C hr k mem depth hfit b txt g' hp
  refine ⟨txt, g', hp, hbu, h1, h2, ?_, ?_⟩
  · rintro i j hi hj ⟨r, hr', hin⟩
    obtain ⟨q, hq, rfl⟩ := List.mem_map.mp hr'
    obtain ⟨hq, hn⟩ := List.mem_filter.mp hq
    have hn : q.2 = n := by simpa using hn
    -- the centre is in the window, so the rectangle meets it
    have hm : Client.Meets mn mx q.1 := by
      have wp := hg.wpos
      have hp' := hg.hpos
      have wq : (0 : ℚ) < (wsW (wsOf mn mx) : ℤ) := by
        have : 0 < wsW (wsOf mn mx) := by simp only [wsW, wsOf]; omega
        exact_mod_cast this
      have hhq : (0 : ℚ) < (wsH (wsOf mn mx) : ℤ) := by
        have : 0 < wsH (wsOf mn mx) := by simp only [wsH, wsOf]; omega
        exact_mod_cast this
      have cq : (0 : ℚ) < C := by exact_mod_cast hg.cpos
      have rq : (0 : ℚ) < R := by exact_mod_cast hg.rpos
      have px := div_pos wq cq
      have py := div_pos hhq rq
      have fullx : (mx.x : ℚ) = mn.x + C * ((wsW (wsOf mn mx) : ℚ) / C) := by
        rw [mul_div_cancel₀ _ (ne_of_gt cq)]; simp [wsW, wsOf]
      have fully : (mn.y : ℚ) = mx.y - R * ((wsH (wsOf mn mx) : ℚ) / R) := by
        rw [mul_div_cancel₀ _ (ne_of_gt rq)]; simp [wsH, wsOf]
      obtain ⟨c1, c2, c3, c4⟩ := hin
      change ((Client.lt q.1).x : ℚ) ≤ (mn.x : ℚ) + (j + 1 / 2) * ((wsW (wsOf mn mx) : ℚ) / C) at c1
      change (mn.x : ℚ) + (j + 1 / 2) * ((wsW (wsOf mn mx) : ℚ) / C) ≤ (Client.rb q.1).x at c2
      change ((Client.rb q.1).y : ℚ) ≤ (mx.y : ℚ) - (i + 1 / 2) * ((wsH (wsOf mn mx) : ℚ) / R) at c3
      change (mx.y : ℚ) - (i + 1 / 2) * ((wsH (wsOf mn mx) : ℚ) / R) ≤ (Client.lt q.1).y at c4
      obtain ⟨dx, hdx⟩ : ∃ d, d = (wsW (wsOf mn mx) : ℚ) / C := ⟨_, rfl⟩
      obtain ⟨dy, hdy⟩ : ∃ d, d = (wsH (wsOf mn mx) : ℚ) / R := ⟨_, rfl⟩
      rw [← hdx] at fullx c1 c2 px
      rw [← hdy] at fully c3 c4 py
      have jn : (j : ℚ) + 1 ≤ C := by exact_mod_cast hj
      have in' : (i : ℚ) + 1 ≤ R := by exact_mod_cast hi
      have jz : (0 : ℚ) ≤ j * dx := mul_nonneg (Nat.cast_nonneg j) px.le
      have iz : (0 : ℚ) ≤ i * dy := mul_nonneg (Nat.cast_nonneg i) py.le
      have jn' := mul_le_mul_of_nonneg_right jn px.le
      have in'' := mul_le_mul_of_nonneg_right in' py.le
      refine ⟨?_, ?_, ?_, ?_⟩
      · have : ((Client.lt q.1).x : ℚ) ≤ mx.x := by linarith
        exact_mod_cast this
      · have : (mn.x : ℚ) ≤ (Client.rb q.1).x := by linarith
        exact_mod_cast this
      · have : ((Client.rb q.1).y : ℚ) ≤ mx.y := by linarith
        exact_mod_cast this
      · have : (mn.y : ℚ) ≤ (Client.lt q.1).y := by linarith
        exact_mod_cast this
    obtain ⟨m, e, l⟩ := draw_one hr.round hg (hpos q hq).1 (hpos q hq).2 (hf q hq) (hd q hq hn hm)
    exact (hl i j).mpr ⟨boxR q, (hsel _).mpr ⟨q, hq, hn, hm, rfl⟩, m, e, l i j hi hj hin⟩
  · intro i j hlit
    obtain ⟨s, hs, m, e, l⟩ := (hl i j).mp hlit
    obtain ⟨q, hq, hn, hm, rfl⟩ := (hsel s).mp hs
    obtain ⟨f1, f2, f3, f4, f5, f6⟩ := hf q hq
    obtain ⟨g1, g2, g3, g4⟩ := hg.fits
    refine ⟨q.1, List.mem_map.mpr ⟨q, List.mem_filter.mpr ⟨hq, by simpa using hn⟩, rfl⟩, ?_⟩
    rcases C39_nothing_far rnd hr.round _ (wsOf mn mx) R C _ (grid_setUp hg)
      (by have := hr.round.mono 0 (1 / 10 ^ 13) (by norm_num); rwa [hr.round.zero] at this)
      hg.cells_x hg.cells_y ⟨g1, g4, g3, g2⟩ (boxR q) _ _ (boxR_rect q) ⟨f1, f6, f5, f2⟩ _ m hb rfl rfl e i j l with h | ⟨_, _, h⟩
    · exact absurd h blank_dark
    · exact h

/-- a generator that was initialised with `mn`, `mx`, and asked for `n`, is ready -/
theorem ready_after {rnd : ℚ → ℚ} (hr : Rounding rnd) {h : List (GenCall × Bool)} {g : Generator} (hh : History rnd h g)
    {a : Nat} {ls : List Int} {mn mx : Coord} (hm : (GenCall.init (some a) ls mn mx, true) ∈ h) {R C : Nat}
    (hg : Grid mn mx R C) {al : Alloc} (hal : al R (bytesPerRow C) = none) (n : Int) :
    Ready rnd (setLayerArray [n] g) a mn mx [n] al R C := by
  obtain ⟨m1, m2⟩ := hg.max
  have w := hg.height
  have w' := hg.hpos
  refine ⟨hr, ⟨_, ls, hh.call (.layers (ls := [n])), List.mem_append_left _ hm, by rw [lastLayers_append]; rfl⟩, hg.rpos, hg.cpos,
    by omega, by omega, hal, hg.width, ?_⟩
  unfold inI32 at *
  omega

/-- the loop over the layers -/
theorem render_all {rnd : ℚ → ℚ} (hr : Rounding rnd) {a : Nat} {ls : List Int} {mn mx : Coord} {R C : Nat}
    (hg : Grid mn mx R C) {al : Alloc} (hal : al R (bytesPerRow C) = none) {rs : List (Msk.Rect × Int)} {mem : Memory}
    (hL : Holds (mem.layouts a) rs) (hH : ∀ e g, some g ∈ (mem.elements e).geometries → g.coords.length < 2 ^ 64)
    (hpos : ∀ q ∈ rs, 0 ≤ q.1.w ∧ 0 ≤ q.1.h) (hf : ∀ q ∈ rs, RectFits q.1) (k depth : Nat) :
    ∀ (ns : List Int) (h : List (GenCall × Bool)) (g : Generator), History rnd h g →
      (GenCall.init (some a) ls mn mx, true) ∈ h →
      (∀ q ∈ rs, q.2 ∈ ns → Client.Meets mn mx q.1 → Client.StartsInside mn mx R C q.1 ∨ Client.Covers mn mx q.1) →
      ∃ ms g', Verif.Client.renderLayers rnd al (.ok k) mem depth R C ns g = some (.ok ms g') ∧
        List.Forall₂ (fun n m => Built m ∧ Client.Shows mn mx R C ((rs.filter fun q => q.2 = n).map Prod.fst) m) ns ms
  | [], h, g, _, _, _ => ⟨[], g, rfl, .nil⟩
  | n :: ns, h, g, hh, hm, hd => by
    have hrd := ready_after hr hh hm hg hal n
    obtain ⟨txt, g1, e, hb, hs⟩ := draw_layer hrd hg hL hH hpos hf
      (fun q hq hn => hd q hq (by rw [hn]; exact List.mem_cons_self)) k depth
    have hh' := (hh.call (.layers (ls := [n]))).call (.procRet e)
    obtain ⟨ms, g', e', hms⟩ := render_all hr hg hal hL hH hpos hf k depth ns _ g1 hh'
      (List.mem_append_left _ (List.mem_append_left _ hm)) (fun q hq hn => hd q hq (List.mem_cons_of_mem _ hn))
    refine ⟨getMatrix g1 :: ms, g', ?_, .cons ⟨hb, hs⟩ hms⟩
    simp only [Verif.Client.renderLayers, e, e']

/-- The MSK file of C62: a header line without the keywords of the format, followed by one line per rectangle,
with LF or CR LF line ends; numbers are 32-bit integers, layer names those of the table, sizes not negative; the
reader was obtained for that file and names can be converted. -/
structure PlainFile (env : Msk.Env) (name : List Nat) (r : Msk.Reader) (cr : Bool) (header : List UInt8)
    (rs : List (Msk.Rect × Int)) : Prop where
  reader : Msk.getReader env name = some r
  content : env.fs (Msk.narrow name) = some (Msk.fileText (if cr then [13, 10] else [10]) header (rs.map Prod.fst))
  names : (∃ s, env.utf8 (Msk.elemName name) = some s) ∧ ∃ s, env.utf8 name = some s
  line : ∀ c ∈ header, c ≠ 10
  noBB : ¬ Msk.bytes "BB" <:+: Msk.strip header
  noREC : ¬ Msk.bytes "REC" <:+: Msk.strip header
  noTITLE : ¬ Msk.bytes "TITLE" <:+: Msk.strip header
  layers : ∀ q ∈ rs, Msk.LayerOf q.1.layer q.2
  fits : ∀ q ∈ rs, RectFits q.1
  sizes : ∀ q ∈ rs, 0 ≤ q.1.w ∧ 0 ≤ q.1.h
  some_rect : rs ≠ []

/-- reading the file of C62 -/
theorem read_plain {env : Msk.Env} {name : List Nat} {r : Msk.Reader} {cr : Bool} {header : List UInt8}
    {rs : List (Msk.Rect × Int)} (hp : PlainFile env name r cr header rs) (addr : Nat) (heap : Elements) :
    ∃ w', Msk.read env addr false ⟨r, {}, heap⟩ = .ok true w' ∧ Holds w'.data rs ∧
      (w'.heap addr).geometries = rs.map (fun q => some (boxR q)) ∧
      Msk.Encloses (w'.heap addr).min (w'.heap addr).max (rs.map boxR) ∧ ∀ b, b ≠ addr → w'.heap b = heap b := by
  obtain ⟨⟨en, h1⟩, ln, h2⟩ := hp.names
  obtain ⟨content, hc, hrd⟩ := C50_reader_ready env name r hp.reader en ln h1 h2
  rw [hp.content] at hc
  have hc := Option.some.inj hc
  subst hc
  obtain ⟨w', lib, e, e1, _, e3, _, e5, e6, e7⟩ := C42_written_file env addr ⟨r, {}, heap⟩ cr header rs en ln (hrd {} heap) hp.line hp.noBB
    hp.noREC hp.noTITLE hp.layers hp.fits hp.some_rect rfl
  exact ⟨w', e, ⟨lib, e1, e5⟩, e3, e6, e7⟩

theorem heap_fits {heap heap' : Elements} {addr : Nat} {rs : List (Msk.Rect × Int)}
    (hh : ∀ e g, some g ∈ (heap e).geometries → g.coords.length < 2 ^ 64)
    (h1 : (heap' addr).geometries = rs.map fun q => some (boxR q)) (h2 : ∀ b, b ≠ addr → heap' b = heap b) :
    ∀ e g, some g ∈ (heap' e).geometries → g.coords.length < 2 ^ 64 := by
  intro e g hg
  by_cases he : e = addr
  · subst he
    rw [h1] at hg
    obtain ⟨q, _, e⟩ := List.mem_map.mp hg
    rw [← Option.some.inj e]
    show (5 : Nat) < 2 ^ 64
    norm_num
  · rw [h2 e he] at hg
    exact hh e g hg

/-- **C62** From file to bitmaps: read an MSK file of rectangles into an empty layout, initialise a generator with
any window, and ask for one bitmap per layer, for any list of layers (also absent or repeated ones).  Everything
returns, and the bitmap of each layer shows exactly the rectangles of that layer — provided each rectangle of
the requested layers that meets the window starts inside it or covers it. -/
theorem C62_file_to_bitmaps (env : Msk.Env) (name : List Nat) (r : Msk.Reader) (cr : Bool) (header : List UInt8)
    (rs : List (Msk.Rect × Int)) (hp : PlainFile env name r cr header rs) (addr : Nat) (heap : Elements)
    (hheap : ∀ e g, some g ∈ (heap e).geometries → g.coords.length < 2 ^ 64) :
    ∃ w', Msk.read env addr false ⟨r, {}, heap⟩ = .ok true w' ∧
      ∀ (rnd : ℚ → ℚ) (_ : Rounding rnd) (mn mx : Coord) (R C : Nat) (_ : Grid mn mx R C) (al : Alloc)
        (_ : al R (bytesPerRow C) = none) (mem : Memory) (a : Nat) (_ : mem.layouts a = w'.data) (_ : mem.elements = w'.heap)
        (k depth : Nat) (ns : List Int)
        (_ : ∀ q ∈ rs, q.2 ∈ ns → Client.Meets mn mx q.1 → Client.StartsInside mn mx R C q.1 ∨ Client.Covers mn mx q.1),
        ∃ g ms g', Generator.init (some a) [0] mn mx (Generator.new rnd) = .ok () g ∧
          Verif.Client.renderLayers rnd al (.ok k) mem depth R C ns g = some (.ok ms g') ∧
          List.Forall₂ (fun n m => Built m ∧ Client.Shows mn mx R C ((rs.filter fun q => q.2 = n).map Prod.fst) m) ns ms := by
  obtain ⟨w', e, hL, hg, _, hoth⟩ := read_plain hp addr heap
  refine ⟨w', e, fun rnd hr mn mx R C hgr al hal mem a ha he k depth ns hd => ?_⟩
  have wp := hgr.wpos
  have hp' := hgr.hpos
  obtain ⟨g, hi⟩ := (C40_first_init rnd [] (Generator.new rnd) .start (by simp) a [0] (by simp) mn mx).1 ⟨by omega, by omega⟩
  have hh := (History.start (rnd := rnd)).call (.initRet hi)
  obtain ⟨ms, g', e1, e2⟩ := render_all (ls := [0]) hr hgr hal (by rw [ha]; exact hL) (by rw [he]; exact heap_fits hheap hg hoth) hp.sizes hp.fits
    k depth ns _ g hh (by simp) hd
  exact ⟨g, ms, g', hi, e1, e2⟩

/-- **C62** The whole layout: with the window that `Read` stored as the element's bounding box there is no
further condition on the rectangles. -/
theorem C62_whole_layout (env : Msk.Env) (name : List Nat) (r : Msk.Reader) (cr : Bool) (header : List UInt8)
    (rs : List (Msk.Rect × Int)) (hp : PlainFile env name r cr header rs) (addr : Nat) (heap : Elements)
    (hheap : ∀ e g, some g ∈ (heap e).geometries → g.coords.length < 2 ^ 64) :
    ∃ w', Msk.read env addr false ⟨r, {}, heap⟩ = .ok true w' ∧
      ∀ (rnd : ℚ → ℚ) (_ : Rounding rnd) (R C : Nat) (_ : Grid (w'.heap addr).min (w'.heap addr).max R C) (al : Alloc)
        (_ : al R (bytesPerRow C) = none) (mem : Memory) (a : Nat) (_ : mem.layouts a = w'.data) (_ : mem.elements = w'.heap)
        (k depth : Nat) (ns : List Int),
        ∃ g ms g', Generator.init (some a) [0] (w'.heap addr).min (w'.heap addr).max (Generator.new rnd) = .ok () g ∧
          Verif.Client.renderLayers rnd al (.ok k) mem depth R C ns g = some (.ok ms g') ∧
          List.Forall₂ (fun n m => Built m ∧ Client.Shows (w'.heap addr).min (w'.heap addr).max R C
            ((rs.filter fun q => q.2 = n).map Prod.fst) m) ns ms := by
  obtain ⟨w', e, hall⟩ := C62_file_to_bitmaps env name r cr header rs hp addr heap hheap
  obtain ⟨w2, e2, _, _, hen, _⟩ := read_plain hp addr heap
  rw [e] at e2; cases e2
  refine ⟨w', e, fun rnd hr R C hgr al hal mem a ha he k depth ns => ?_⟩
  refine hall rnd hr _ _ R C hgr al hal mem a ha he k depth ns fun q hq _ _ => .inl ?_
  have hb : boxR q ∈ rs.map boxR := List.mem_map.mpr ⟨q, hq, rfl⟩
  obtain ⟨s1, s2⟩ := hp.sizes q hq
  have b1 : (w'.heap addr).min.x ≤ q.1.x := by
    have := hen.left _ hb
    simp only [boxR, Msk.boxOf] at this
    rwa [min_eq_left (by omega)] at this
  have b2 : (w'.heap addr).min.y ≤ q.1.y := by
    have := hen.bottom _ hb
    simp only [boxR, Msk.boxOf] at this
    rwa [min_eq_left (by omega)] at this
  have b3 : q.1.x + q.1.w ≤ (w'.heap addr).max.x := by
    have := hen.right _ hb
    simp only [boxR, Msk.boxOf] at this
    rwa [max_eq_right (by omega)] at this
  have b4 : q.1.y + q.1.h ≤ (w'.heap addr).max.y := by
    have := hen.top _ hb
    simp only [boxR, Msk.boxOf] at this
    rwa [max_eq_right (by omega)] at this
  obtain ⟨m1, m2⟩ := hgr.max
  have w := hgr.width
  have h := hgr.height
  have m1' : (R : ℤ) ≤ 1073741824 := by omega
  have m2' : (C : ℤ) ≤ 1073741824 := by omega
  have r0 : (0 : ℤ) ≤ R := by omega
  have c0 : (0 : ℤ) ≤ C := by omega
  refine ⟨b1, b4, ?_, ?_, ?_, ?_⟩
  · unfold inI32 at *; omega
  · unfold inI32 at *; omega
  · calc (q.1.x + q.1.w - (w'.heap addr).min.x) * (C : ℤ) ≤ ((w'.heap addr).max.x - (w'.heap addr).min.x) * 1073741824 :=
        mul_le_mul (by omega) m2' c0 (by omega)
      _ = _ := by ring
  · calc ((w'.heap addr).max.y - q.1.y) * (R : ℤ) ≤ ((w'.heap addr).max.y - (w'.heap addr).min.y) * 1073741824 :=
        mul_le_mul (by omega) m1' r0 (by omega)
      _ = _ := by ring

/-- **C62** Saving and loading such a bitmap: what `FlushFile` wrote completely, `ReadFile` restores, and the
restored matrix still shows the rectangles. -/
theorem C62_saved (p : LayoutMatrix.Platform) (hp : p.maskedShift = true) (mn mx : Coord) (R C : Nat) (rs : List Msk.Rect)
    (m m0 : BitMatrix) (hm : Built m) (hs : Client.Shows mn mx R C rs m) (hR : 0 < R) (hC : 0 < C) (hR32 : R < 2 ^ 32) (hC32 : C < 2 ^ 32)
    (hc : p.charSigned = false ∨ (AsciiDim R ∧ AsciiDim C))
    (fs fs' : LayoutMatrix.Fs) (name : List UInt8) (stored : Nat) (hn : name ≠ []) (hr : fs.readable name = true)
    (hw : fs.writable name = true) (hst : ∀ h, LayoutMatrix.encodeHash m = .ok h → h.length ≤ stored)
    (hf : LayoutMatrix.flushFile m name stored fs = .ok true fs') :
    ∃ m', LayoutMatrix.readFile p Alloc.ok fs' name m0 = .ok true m' ∧ Client.Shows mn mx R C rs m' := by
  obtain ⟨s1, s2, s3, s4⟩ := hs
  subst s1; subst s2
  obtain ⟨m', e, h1, h2, h3⟩ := C32_flush_read p hp m m0 hm hR hC hR32 hC32 hc fs fs' name stored hn hr hw hst hf
  have hrange : ∀ {x : BitMatrix} {i j : Nat}, Lit x i j → i < x.isize ∧ j < x.jsize := by
    intro x i j h
    unfold Lit BitMatrix.get at h
    by_contra hcon
    rw [if_pos (by omega)] at h
    cases h
  have hl : ∀ i j, Lit m' i j ↔ Lit m i j := by
    intro i j
    constructor
    · intro h
      obtain ⟨a, b⟩ := hrange h
      unfold Lit at h ⊢
      rw [h3 i j (by omega) (by omega)]; exact h
    · intro h
      obtain ⟨a, b⟩ := hrange h
      unfold Lit at h ⊢
      rw [← h3 i j a b]; exact h
  exact ⟨m', e, h1.symm, h2.symm, fun i j hi hj hx => (hl i j).mpr (s3 i j hi hj hx), fun i j h => s4 i j ((hl i j).mp h)⟩

/-! ### the hypotheses can be met -/

/-- two rectangles on two layers -/
def exRects : List (Msk.Rect × Int) := [(⟨20, 60, 25, 20, "ME"⟩, 23), (⟨0, 0, 10, 10, "NW"⟩, 1)]

theorem ex_plain : PlainFile (exEnv (Msk.fileText [10] (Msk.bytes "VERSION 1") (exRects.map Prod.fst))) exName { fileName := exName } false
    (Msk.bytes "VERSION 1") exRects where
  reader := by
    have e : Msk.narrow exName = lit "d/x.msk" := by decide +kernel
    refine (C50_get_reader _ _ _).mpr ⟨⟨ex_name, Msk.fileText [10] (Msk.bytes "VERSION 1") (exRects.map Prod.fst), by simp [exEnv, e], ?_⟩, rfl⟩
    decide +kernel
  content := by
    have e : Msk.narrow exName = lit "d/x.msk" := by decide +kernel
    simp [exEnv, e]
  names := ⟨⟨_, rfl⟩, _, rfl⟩
  line := by decide +kernel
  noBB := by decide +kernel
  noREC := by decide +kernel
  noTITLE := by decide +kernel
  layers := by
    simp only [exRects, List.mem_cons, List.not_mem_nil, or_false, forall_eq_or_imp, forall_eq]
    exact ⟨.me, .nw⟩
  fits := by
    simp only [exRects, List.mem_cons, List.not_mem_nil, or_false, forall_eq_or_imp, forall_eq]
    unfold RectFits inI32; decide
  sizes := by
    simp only [exRects, List.mem_cons, List.not_mem_nil, or_false, forall_eq_or_imp, forall_eq]
    decide
  some_rect := by simp [exRects]

/-- C62_file_to_bitmaps at work on a 10 × 10 grid: the bitmap of layer 23 shows the first rectangle only, and the
bitmap of layer 5, absent from the file, is dark. -/
example : ∃ w' g m1 m2 g', Msk.read (exEnv (Msk.fileText [10] (Msk.bytes "VERSION 1") (exRects.map Prod.fst))) 7 false
      ⟨{ fileName := exName }, {}, fun _ => {}⟩ = .ok true w' ∧
    Verif.Client.renderLayers rne Alloc.ok (.ok 0) ⟨fun _ => w'.data, w'.heap⟩ 0 10 10 [23, 5] g = some (.ok [m1, m2] g') ∧
    Lit m1 2 2 ∧ ¬ Lit m1 9 0 ∧ ∀ i j, ¬ Lit m2 i j := by
  obtain ⟨w', e, h⟩ := C62_file_to_bitmaps _ _ _ _ _ _ ex_plain 7 (fun _ => {}) (by simp)
  obtain ⟨g, ms, g', _, h2, h3⟩ := h rne rne_rounding ⟨0, 0⟩ ⟨100, 100⟩ 10 10
    ⟨by unfold inI32; decide, by unfold inI32; decide, by unfold inI32; decide, by decide, by decide, by decide, by decide, by decide, by decide⟩
    Alloc.ok rfl ⟨fun _ => w'.data, w'.heap⟩ 0 rfl rfl 0 0 [23, 5] (by
      intro q hq hn _
      simp only [exRects, List.mem_cons, List.not_mem_nil, or_false] at hq
      rcases hq with rfl | rfl
      · exact .inl ⟨by decide, by decide, by unfold inI32; decide, by unfold inI32; decide, by decide, by decide⟩
      · simp at hn)
  rcases h3 with _ | ⟨⟨_, s1⟩, h3⟩
  rcases h3 with _ | ⟨⟨_, s2⟩, h3⟩
  cases h3
  have f1 : (exRects.filter fun q => q.2 = 23).map Prod.fst = [⟨20, 60, 25, 20, "ME"⟩] := by simp [exRects]
  have f2 : (exRects.filter fun q => q.2 = 5).map Prod.fst = [] := by simp [exRects]
  rw [f1] at s1
  rw [f2] at s2
  refine ⟨w', g, _, _, g', e, h2, s1.covered 2 2 (by norm_num) (by norm_num) ⟨_, List.mem_singleton.mpr rfl, ?_⟩, ?_, ?_⟩
  · unfold InRect centreX centreY wsW wsH Client.window Client.lt Client.rb; norm_num
  · intro hl
    obtain ⟨r, hr, hn⟩ := s1.near _ _ hl
    rw [List.mem_singleton] at hr
    subst hr
    unfold NearRect centreX centreY wsW wsH Client.window Client.lt Client.rb at hn
    norm_num at hn
  · intro i j hl
    obtain ⟨r, hr, _⟩ := s2.near _ _ hl
    cases hr

end Verif.Props
