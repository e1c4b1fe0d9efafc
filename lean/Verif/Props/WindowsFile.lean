import Verif.Props.Windows

/-! C90 at the level of files: one MSK file seen through two windows on the same grid of cells. -/

namespace Verif.Props
open Verif BitMatrix Zond Spec Ieee Generator Client

theorem colOf_end {ws : Workspace} {C : Nat} (hw : 0 < wsW ws) (hC : 0 < C) : colOf ws C ws.rightBot.x = C := by
  unfold colOf
  have : (wsW ws : ℚ) ≠ 0 := by positivity
  have cq : (C : ℚ) ≠ 0 := by positivity
  have e : ((ws.rightBot.x - ws.leftTop.x : ℤ) : ℚ) = wsW ws := rfl
  rw [e]
  field_simp

theorem rowOf_end {ws : Workspace} {R : Nat} (hw : 0 < wsH ws) (hR : 0 < R) : rowOf ws R ws.rightBot.y = R := by
  unfold rowOf
  have : (wsH ws : ℚ) ≠ 0 := by positivity
  have cq : (R : ℚ) ≠ 0 := by positivity
  have e : ((ws.leftTop.y - ws.rightBot.y : ℤ) : ℚ) = wsH ws := rfl
  rw [e]
  field_simp

theorem colOf_begin {ws : Workspace} {C : Nat} : colOf ws C ws.leftTop.x = 0 := by simp [colOf]
theorem rowOf_begin {ws : Workspace} {R : Nat} : rowOf ws R ws.leftTop.y = 0 := by simp [rowOf]

theorem colOf_lt {ws : Workspace} {C : Nat} (hw : 0 < wsW ws) (hC : 0 < C) {x y : Int} (h : x < y) : colOf ws C x < colOf ws C y := by
  unfold colOf
  apply div_lt_div_of_pos_right _ (by positivity)
  exact_mod_cast Int.sub_lt_sub_right h _

theorem rowOf_lt {ws : Workspace} {R : Nat} (hw : 0 < wsH ws) (hR : 0 < R) {x y : Int} (h : y < x) : rowOf ws R x < rowOf ws R y := by
  unfold rowOf
  apply div_lt_div_of_pos_right _ (by positivity)
  exact_mod_cast Int.sub_lt_sub_left h _

/-- a rectangle that covers the window lights every cell -/
theorem cover_alone {rnd : ℚ → ℚ} (hr : Rounding rnd) {mn mx : Coord} {R C : Nat} (hg : Grid mn mx R C) {q : Msk.Rect × Int}
    (hw : 0 ≤ q.1.w) (hh : 0 ≤ q.1.h) (hf : RectFits q.1) (hc : Client.Covers mn mx q.1) (i j : Nat) (hi : i < R) (hj : j < C) :
    LightsAlone rnd mn mx R C (boxR q) i j := by
  obtain ⟨m, e, h⟩ := draw_one hr hg hw hh hf (Or.inr hc)
  obtain ⟨c1, c2, c3, c4⟩ := hc
  have wp := hg.wpos
  have hp := hg.hpos
  have rp := hg.rpos
  have cp := hg.cpos
  have hW : 0 < wsW (wsOf mn mx) := by simp only [wsW, wsOf]; omega
  have hH : 0 < wsH (wsOf mn mx) := by simp only [wsH, wsOf]; omega
  have cq : (0 : ℚ) < C := by exact_mod_cast cp
  have rq : (0 : ℚ) < R := by exact_mod_cast rp
  have px : 0 < (wsW (wsOf mn mx) : ℚ) / C := by positivity
  have py : 0 < (wsH (wsOf mn mx) : ℚ) / R := by positivity
  have jx : ((j : ℚ) + 1 / 2) * ((wsW (wsOf mn mx) : ℚ) / C) ≤ wsW (wsOf mn mx) := by
    rw [← mul_div_assoc, div_le_iff₀ cq, mul_comm]
    apply mul_le_mul_of_nonneg_left _ (by positivity)
    have : (j : ℚ) + 1 ≤ C := by exact_mod_cast hj
    linarith
  have iy : ((i : ℚ) + 1 / 2) * ((wsH (wsOf mn mx) : ℚ) / R) ≤ wsH (wsOf mn mx) := by
    rw [← mul_div_assoc, div_le_iff₀ rq, mul_comm]
    apply mul_le_mul_of_nonneg_left _ (by positivity)
    have : (i : ℚ) + 1 ≤ R := by exact_mod_cast hi
    linarith
  have jx0 : 0 ≤ ((j : ℚ) + 1 / 2) * ((wsW (wsOf mn mx) : ℚ) / C) := by positivity
  have iy0 : 0 ≤ ((i : ℚ) + 1 / 2) * ((wsH (wsOf mn mx) : ℚ) / R) := by positivity
  have k1 : (q.1.x : ℚ) ≤ mn.x := by exact_mod_cast c1
  have k2 : (mx.x : ℚ) ≤ (q.1.x + q.1.w : ℤ) := by exact_mod_cast c2
  have k3 : (q.1.y : ℚ) ≤ mn.y := by exact_mod_cast c3
  have k4 : (mx.y : ℚ) ≤ (q.1.y + q.1.h : ℤ) := by exact_mod_cast c4
  have w1 : (wsW (wsOf mn mx) : ℚ) = mx.x - mn.x := by simp only [wsW, wsOf]; push_cast; ring
  have w2 : (wsH (wsOf mn mx) : ℚ) = mx.y - mn.y := by simp only [wsH, wsOf]; push_cast; ring
  refine ⟨m, e, h i j hi hj ⟨?_, ?_, ?_, ?_⟩⟩
  · show (q.1.x : ℚ) ≤ (mn.x : ℚ) + _
    linarith
  · show (mn.x : ℚ) + _ ≤ ((q.1.x + q.1.w : ℤ) : ℚ)
    linarith
  · show (q.1.y : ℚ) ≤ (mx.y : ℚ) - _
    linarith
  · show (mx.y : ℚ) - _ ≤ ((q.1.y + q.1.h : ℤ) : ℚ)
    linarith

/-- a cell of the larger window after the first one of the smaller window is not touched by what ends before the smaller window -/
theorem axis_before {b e : ℚ} {n' l j : Nat} (hbe : b ≤ e) (he : e < l) (hj : 0 < j) (hn : j + l < n') : ¬ AxisCell b e 0 n' (j + l) := by
  rw [axisCell_iff hbe hn]
  have h1 : (1 : ℚ) ≤ j := by exact_mod_cast hj
  push_cast
  rintro ⟨-, h | ⟨_, h, _⟩ | ⟨_, h, _⟩⟩ <;> linarith

/-- nor by what begins after it -/
theorem axis_after {b e : ℚ} {n n' l j : Nat} (hb : (n : ℚ) + l < b) (hj : j < n) : ¬ AxisCell b e 0 n' (j + l) := by
  have h1 : (j : ℚ) + 1 ≤ n := by exact_mod_cast hj
  rintro ⟨h, -⟩
  push_cast at h
  linarith

/-- **C90** From a file to bitmaps: one layer of an MSK file drawn in a window and in a larger window on the same grid of cells, where each
rectangle that meets a window covers it or starts inside it with sides clear of the lines of the grid.  Both are drawn, and the bitmaps
agree in all cells of the smaller window but those of its first and last row and column. -/
theorem C90_files (env : Msk.Env) (name : List Nat) (r : Msk.Reader) (cr : Bool) (header : List UInt8)
    (rs : List (Msk.Rect × Int)) (hp : PlainFile env name r cr header rs) (addr : Nat) (heap : Elements)
    (hheap : ∀ e g, some g ∈ (heap e).geometries → g.coords.length < 2 ^ 64) :
    ∃ w, Msk.read env addr false ⟨r, {}, heap⟩ = .ok true w ∧
      ∀ (rnd : ℚ → ℚ) (_ : Rounding rnd) (mn mx mn' mx' : Coord) (R C R' C' k l : Nat) (_ : Grid mn mx R C) (_ : Grid mn' mx' R' C')
        (_ : Aligned (window mn mx) (window mn' mx') R C R' C' k l) (al : Alloc)
        (_ : al R (bytesPerRow C) = none) (_ : al R' (bytesPerRow C') = none) (mem : Memory) (a : Nat)
        (_ : mem.layouts a = w.data) (_ : mem.elements = w.heap) (x depth : Nat) (n : Int)
        (_ : ∀ q ∈ rs, q.2 = n → Client.Meets mn mx q.1 →
          (Client.StartsInside mn mx R C q.1 ∧ SidesClear (window mn mx) R C (Client.lt q.1) (Client.rb q.1)) ∨ Client.Covers mn mx q.1)
        (_ : ∀ q ∈ rs, q.2 = n → Client.Meets mn' mx' q.1 →
          (Client.StartsInside mn' mx' R' C' q.1 ∧ SidesClear (window mn' mx') R' C' (Client.lt q.1) (Client.rb q.1)) ∨
            Client.Covers mn' mx' q.1),
        ∃ g g' m M g1 g1', Generator.init (some a) [0] mn mx (Generator.new rnd) = .ok () g ∧
          Generator.init (some a) [0] mn' mx' (Generator.new rnd) = .ok () g' ∧
          Verif.Client.renderLayers rnd al (.ok x) mem depth R C [n] g = some (.ok [m] g1) ∧
          Verif.Client.renderLayers rnd al (.ok x) mem depth R' C' [n] g' = some (.ok [M] g1') ∧
          ∀ i j, 0 < i → i + 1 < R → 0 < j → j + 1 < C → (Lit m i j ↔ Lit M (i + k) (j + l)) := by
  obtain ⟨w, e, hL, hg, _, hoth⟩ := read_plain hp addr heap
  refine ⟨w, e, fun rnd hr mn mx mn' mx' R C R' C' k l hgr hgr' hal al hal1 hal2 mem a ha he x depth n hd hd' => ?_⟩
  have wp := hgr.wpos
  have hpw := hgr.hpos
  have rp := hgr.rpos
  have cp := hgr.cpos
  have wp' := hgr'.wpos
  have hpw' := hgr'.hpos
  have rp' := hgr'.rpos
  have cp' := hgr'.cpos
  have hW : 0 < wsW (window mn mx) := by simp only [wsW, window]; omega
  have hH : 0 < wsH (window mn mx) := by simp only [wsH, window]; omega
  have hW' : 0 < wsW (window mn' mx') := by simp only [wsW, window]; omega
  have hH' : 0 < wsH (window mn' mx') := by simp only [wsH, window]; omega
  have hcols := hal.cols
  have hrows := hal.rows
  have cx := fun v => (aligned_col hal hW hW' cp v).2
  have cy := fun v => (aligned_row hal hH hH' rp v).2
  have sC : colOf (window mn mx) C mx.x = C := colOf_end hW cp
  have sC' : colOf (window mn' mx') C' mx'.x = C' := colOf_end hW' cp'
  have sR : rowOf (window mn mx) R mn.y = R := rowOf_end hH rp
  have sR' : rowOf (window mn' mx') R' mn'.y = R' := rowOf_end hH' rp'
  have s0 : colOf (window mn mx) C mn.x = 0 := colOf_begin
  have s0' : colOf (window mn' mx') C' mn'.x = 0 := colOf_begin
  have t0 : rowOf (window mn mx) R mx.y = 0 := rowOf_begin
  have t0' : rowOf (window mn' mx') R' mx'.y = 0 := rowOf_begin
  have hcq : (l : ℚ) + C ≤ C' := by exact_mod_cast hcols
  have hrq : (k : ℚ) + R ≤ R' := by exact_mod_cast hrows
  have hl0 : (0 : ℚ) ≤ l := by positivity
  have hk0 : (0 : ℚ) ≤ k := by positivity
  have in1 : mn'.x ≤ mn.x := by
    by_contra hc
    have := colOf_lt hW' cp' (show mn.x < mn'.x by omega)
    rw [cx, s0, s0'] at this
    linarith
  have in2 : mx.x ≤ mx'.x := by
    by_contra hc
    have := colOf_lt hW' cp' (show mx'.x < mx.x by omega)
    rw [cx mx.x, sC, sC'] at this
    linarith
  have in3 : mx.y ≤ mx'.y := by
    by_contra hc
    have := rowOf_lt hH' rp' (show mx'.y < mx.y by omega)
    rw [cy mx.y, t0, t0'] at this
    linarith
  have in4 : mn'.y ≤ mn.y := by
    by_contra hc
    have := rowOf_lt hH' rp' (show mn.y < mn'.y by omega)
    rw [cy mn.y, sR, sR'] at this
    linarith
  have inits : ∀ mn mx : Coord, mn.x < mx.x → mn.y < mx.y → ∃ g, Generator.init (some a) [0] mn mx (Generator.new rnd) = .ok () g := fun mn mx h1 h2 =>
    (C40_first_init rnd [] (Generator.new rnd) .start (by simp) a [0] (by simp) mn mx).1 ⟨by omega, by omega⟩
  obtain ⟨g, hi⟩ := inits mn mx wp hpw
  obtain ⟨g', hi'⟩ := inits mn' mx' wp' hpw'
  have hh := (History.start (rnd := rnd)).call (.initRet hi)
  have hh' := (History.start (rnd := rnd)).call (.initRet hi')
  obtain ⟨ms, g1, r1, f1⟩ := render_exact (ls := [0]) hr hgr hal1 (by rw [ha]; exact hL) (by rw [he]; exact heap_fits hheap hg hoth)
    hp.sizes hp.fits x depth [n] _ g hh (by simp) (fun q hq hn hme => by
      rw [List.mem_singleton] at hn
      exact (hd q hq hn hme).imp And.left id)
  obtain ⟨ms', g1', r1', f1'⟩ := render_exact (ls := [0]) hr hgr' hal2 (by rw [ha]; exact hL) (by rw [he]; exact heap_fits hheap hg hoth)
    hp.sizes hp.fits x depth [n] _ g' hh' (by simp) (fun q hq hn hme => by
      rw [List.mem_singleton] at hn
      exact (hd' q hq hn hme).imp And.left id)
  cases f1 with | cons l1 t1 => ?_
  cases f1' with | cons l2 t2 => ?_
  cases t1
  cases t2
  refine ⟨g, g', _, _, g1, g1', hi, hi', r1, r1', fun i j i0 i1 j0 j1 => ?_⟩
  rw [l1, l2]
  have hiR : i < R := by omega
  have hjC : j < C := by omega
  have iq : (i : ℚ) + 1 ≤ R := by exact_mod_cast hiR
  have jq : (j : ℚ) + 1 ≤ C := by exact_mod_cast hjC
  have i0q : (0 : ℚ) ≤ i := by positivity
  have j0q : (0 : ℚ) ≤ j := by positivity
  -- the cells of a rectangle that starts inside the larger window, in the cells of the smaller one
  have large : ∀ q ∈ rs, Client.StartsInside mn' mx' R' C' q.1 → SidesClear (window mn' mx') R' C' (Client.lt q.1) (Client.rb q.1) →
      (LightsAlone rnd mn' mx' R' C' (boxR q) (i + k) (j + l) ↔
        AxisCell (rowOf (window mn mx) R (Client.lt q.1).y + k) (rowOf (window mn mx) R (Client.rb q.1).y + k) 0 R' (i + k) ∧
        AxisCell (colOf (window mn mx) C (Client.lt q.1).x + l) (colOf (window mn mx) C (Client.rb q.1).x + l) 0 C' (j + l)) := by
    intro q hq h1 h2
    have := alone_cells hr hgr' (hp.sizes q hq).1 (hp.sizes q hq).2 (hp.fits q hq) h1 h2 (i + k) (j + l) (by omega) (by omega)
    rw [cx, cx, cy, cy] at this
    exact this
  have small : ∀ q ∈ rs, Client.StartsInside mn mx R C q.1 → SidesClear (window mn mx) R C (Client.lt q.1) (Client.rb q.1) →
      (LightsAlone rnd mn mx R C (boxR q) i j ↔
        AxisCell (rowOf (window mn mx) R (Client.lt q.1).y + k) (rowOf (window mn mx) R (Client.rb q.1).y + k) 0 R' (i + k) ∧
        AxisCell (colOf (window mn mx) C (Client.lt q.1).x + l) (colOf (window mn mx) C (Client.rb q.1).x + l) 0 C' (j + l)) := by
    intro q hq h1 h2
    obtain ⟨w0, h0⟩ := hp.sizes q hq
    rw [alone_cells hr hgr w0 h0 (hp.fits q hq) h1 h2 i j hiR hjC,
      axis_window (rowOf_mono hH rp (by simp only [Client.lt, Client.rb]; omega)) le_rfl hiR (by omega : k + R ≤ R'),
      axis_window (colOf_mono hW cp (by simp only [Client.lt, Client.rb]; omega)) le_rfl hjC (by omega : l + C ≤ C')]
    have n1 : ∀ b e, ¬ Rim b e 0 R R' k i := fun b e h => by have := h.1; omega
    have n2 : ∀ b e, ¬ Rim b e 0 C C' l j := fun b e h => by have := h.1; omega
    simp only [n1, n2, or_false]
  constructor
  · rintro ⟨q, hq, hn, hme, hla⟩
    have hme' : Client.Meets mn' mx' q.1 := by
      obtain ⟨m1, m2, m3, m4⟩ := hme
      exact ⟨by omega, by omega, by omega, by omega⟩
    refine ⟨q, hq, hn, hme', ?_⟩
    obtain ⟨w0, h0⟩ := hp.sizes q hq
    rcases hd' q hq hn hme' with ⟨h1, h2⟩ | h1
    · rw [large q hq h1 h2]
      rcases hd q hq hn hme with ⟨h3, h4⟩ | h3
      · exact (small q hq h3 h4).1 hla
      · obtain ⟨c1, c2, c3, c4⟩ := h3
        have k1 := colOf_mono hW cp c1
        have k2 := colOf_mono hW cp c2
        have k3 := rowOf_mono hH rp c3
        have k4 := rowOf_mono hH rp c4
        rw [s0] at k1
        rw [sC] at k2
        rw [sR] at k3
        rw [t0] at k4
        refine ⟨⟨?_, Or.inl ?_⟩, ⟨?_, Or.inl ?_⟩⟩ <;> simp only [Client.lt, Client.rb] <;> push_cast <;> linarith
    · exact cover_alone hr hgr' w0 h0 (hp.fits q hq) h1 _ _ (by omega) (by omega)
  · rintro ⟨q, hq, hn, hme', hla⟩
    obtain ⟨w0, h0⟩ := hp.sizes q hq
    by_cases hme : Client.Meets mn mx q.1
    · refine ⟨q, hq, hn, hme, ?_⟩
      rcases hd q hq hn hme with ⟨h3, h4⟩ | h3
      · rcases hd' q hq hn hme' with ⟨h1, h2⟩ | h1
        · rw [large q hq h1 h2] at hla
          exact (small q hq h3 h4).2 hla
        · obtain ⟨c1, c2, c3, c4⟩ := h1
          exact cover_alone hr hgr w0 h0 (hp.fits q hq) ⟨by omega, by omega, by omega, by omega⟩ _ _ hiR hjC
      · exact cover_alone hr hgr w0 h0 (hp.fits q hq) h3 _ _ hiR hjC
    · exfalso
      rcases hd' q hq hn hme' with ⟨h1, h2⟩ | h1
      · rw [large q hq h1 h2] at hla
        obtain ⟨a1, a2⟩ := hla
        have bx : colOf (window mn mx) C (Client.lt q.1).x + l ≤ colOf (window mn mx) C (Client.rb q.1).x + l := by
          have := colOf_mono (ws := window mn mx) hW cp (show (Client.lt q.1).x ≤ (Client.rb q.1).x by simp only [Client.lt, Client.rb]; omega)
          linarith
        have by' : rowOf (window mn mx) R (Client.lt q.1).y + k ≤ rowOf (window mn mx) R (Client.rb q.1).y + k := by
          have := rowOf_mono (ws := window mn mx) hH rp (show (Client.rb q.1).y ≤ (Client.lt q.1).y by simp only [Client.lt, Client.rb]; omega)
          linarith
        unfold Client.Meets at hme
        by_cases b1 : q.1.x ≤ mx.x
        · by_cases b2 : mn.x ≤ q.1.x + q.1.w
          · by_cases b3 : q.1.y ≤ mx.y
            · have b4 : q.1.y + q.1.h < mn.y := by
                by_contra hc
                exact hme ⟨b1, b2, b3, by omega⟩
              have := rowOf_lt hH rp b4
              rw [sR] at this
              refine axis_after (n := R) ?_ hiR a1
              simp only [Client.lt]
              linarith
            · have := rowOf_lt hH rp (show mx.y < q.1.y by omega)
              rw [t0] at this
              refine axis_before by' ?_ i0 (by omega) a1
              simp only [Client.rb]
              linarith
          · have := colOf_lt hW cp (show q.1.x + q.1.w < mn.x by omega)
            rw [s0] at this
            refine axis_before bx ?_ j0 (by omega) a2
            simp only [Client.rb]
            linarith
        · have := colOf_lt hW cp (show mx.x < q.1.x by omega)
          rw [sC] at this
          refine axis_after (n := C) ?_ hjC a2
          simp only [Client.lt]
          linarith
      · obtain ⟨c1, c2, c3, c4⟩ := h1
        exact hme ⟨by omega, by omega, by omega, by omega⟩

/-! ### the hypotheses can be met -/

/-- the rectangle `23..57 × 63..81` of `exWhole` in the window `0..100 × 0..100` of 10×10 cells and in the window `10..80 × 50..90` of 4×7 of
these cells -/
example : ∃ m M : BitMatrix, (∀ i j, 0 < i → i + 1 < 4 → 0 < j → j + 1 < 7 → (Lit m i j ↔ Lit M (i + 1) (j + 1))) := by
  obtain ⟨w, -, h⟩ := C90_files _ _ _ _ _ _ exWhole_plain 7 (fun _ => {}) (by simp)
  obtain ⟨g, g', m, M, g1, g1', -, -, -, -, hl⟩ := h rne rne_rounding ⟨10, 50⟩ ⟨80, 90⟩ ⟨0, 0⟩ ⟨100, 100⟩ 4 7 10 10 1 1
    ⟨by unfold inI32; decide, by unfold inI32; decide, by unfold inI32; decide, by decide, by decide, by decide, by decide, by decide, by decide⟩
    ⟨by unfold inI32; decide, by unfold inI32; decide, by unfold inI32; decide, by decide, by decide, by decide, by decide, by decide, by decide⟩
    ⟨by decide, by decide, by decide, by decide, by decide, by decide⟩
    Alloc.ok rfl rfl ⟨fun _ => w.data, w.heap⟩ 0 rfl rfl 0 0 23 (by
      intro q hq _ _
      simp only [exWhole, List.mem_cons, List.not_mem_nil, or_false] at hq
      subst hq
      refine .inl ⟨⟨by decide, by decide, by unfold inI32; decide, by unfold inI32; decide, by decide, by decide⟩, ?_⟩
      refine ⟨Or.inr (off_mk 2 ?_ ?_), Or.inr (off_mk 1 ?_ ?_), Or.inr (off_mk 9 ?_ ?_), Or.inr (off_mk 5 ?_ ?_)⟩ <;>
        simp only [colOf, rowOf, wsW, wsH, window, Client.lt, Client.rb] <;> norm_num) (by
      intro q hq _ _
      simp only [exWhole, List.mem_cons, List.not_mem_nil, or_false] at hq
      subst hq
      refine .inl ⟨⟨by decide, by decide, by unfold inI32; decide, by unfold inI32; decide, by decide, by decide⟩, ?_⟩
      refine ⟨Or.inr (off_mk 4 ?_ ?_), Or.inr (off_mk 3 ?_ ?_), Or.inr (off_mk 11 ?_ ?_), Or.inr (off_mk 7 ?_ ?_)⟩ <;>
        simp only [colOf, rowOf, wsW, wsH, window, Client.lt, Client.rb] <;> norm_num)
  exact ⟨m, M, hl⟩

end Verif.Props
