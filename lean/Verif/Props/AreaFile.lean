import Verif.Props.Area
import Verif.Props.Union

/-! C91 at the level of files. -/

namespace Verif.Props
open Verif BitMatrix Zond Spec Ieee Generator Client

theorem coveredArea_visible (mn mx : Coord) (n : Int) (rs : List (Msk.Rect × Int)) (hw : mn.x < mx.x) (hh : mn.y < mx.y) (p : Nat × Nat)
    (hp : p ∈ units mn mx) :
    (∃ r ∈ visible mn mx n rs, HasUnit mn mx r p) ↔ ∃ r ∈ onLayer n rs, HasUnit mn mx r p := by
  unfold units cells at hp
  rw [Finset.mem_product, Finset.mem_range, Finset.mem_range] at hp
  obtain ⟨h1, h2⟩ := hp
  constructor
  · rintro ⟨r, hr, h⟩
    obtain ⟨q, hq, rfl⟩ := List.mem_map.1 hr
    obtain ⟨hq, hc⟩ := List.mem_filter.1 hq
    exact ⟨q.1, List.mem_map.2 ⟨q, List.mem_filter.2 ⟨hq, by simpa using (of_decide_eq_true hc).1⟩, rfl⟩, h⟩
  · rintro ⟨r, hr, h⟩
    obtain ⟨q, hq, rfl⟩ := List.mem_map.1 hr
    obtain ⟨hq, hc⟩ := List.mem_filter.1 hq
    refine ⟨q.1, List.mem_map.2 ⟨q, List.mem_filter.2 ⟨hq, decide_eq_true ⟨of_decide_eq_true hc, ?_⟩⟩, rfl⟩, h⟩
    obtain ⟨u1, u2, u3, u4⟩ := h
    unfold Meets
    omega

/-- one layer of a file rendered: the bitmap shows the rectangles that meet the window -/
theorem render_visible {env : Msk.Env} {name : List Nat} {r : Msk.Reader} {cr : Bool} {header : List UInt8}
    {rs : List (Msk.Rect × Int)} (hp : PlainFile env name r cr header rs) (addr : Nat) (heap : Elements)
    (hheap : ∀ e g, some g ∈ (heap e).geometries → g.coords.length < 2 ^ 64) :
    ∃ w, Msk.read env addr false ⟨r, {}, heap⟩ = .ok true w ∧
      ∀ (rnd : ℚ → ℚ) (_ : Rounding rnd) (mn mx : Coord) (R C : Nat) (_ : Grid mn mx R C) (al : Alloc)
        (_ : al R (bytesPerRow C) = none) (mem : Memory) (a : Nat) (_ : mem.layouts a = w.data) (_ : mem.elements = w.heap)
        (k depth : Nat) (n : Int)
        (_ : ∀ q ∈ onLayer n rs, Client.Meets mn mx q → Client.StartsInside mn mx R C q ∨ Client.Covers mn mx q),
        ∃ g m g1, Generator.init (some a) [0] mn mx (Generator.new rnd) = .ok () g ∧
          Verif.Client.renderLayers rnd al (.ok k) mem depth R C [n] g = some (.ok [m] g1) ∧ Built m ∧
          Shows mn mx R C (visible mn mx n rs) m := by
  obtain ⟨w, e, hL, hg, _, hoth⟩ := read_plain hp addr heap
  refine ⟨w, e, fun rnd hr mn mx R C hgr al hal mem a ha he k depth n hd => ?_⟩
  have wp := hgr.wpos
  have hpw := hgr.hpos
  obtain ⟨g, hi⟩ := (C40_first_init rnd [] (Generator.new rnd) .start (by simp) a [0] (by simp) mn mx).1 ⟨by omega, by omega⟩
  have hh := (History.start (rnd := rnd)).call (.initRet hi)
  have hd' : ∀ q ∈ rs, q.2 ∈ [n] → Client.Meets mn mx q.1 → Client.StartsInside mn mx R C q.1 ∨ Client.Covers mn mx q.1 := fun q hq hn =>
    hd q.1 (List.mem_map.2 ⟨q, List.mem_filter.2 ⟨hq, by simpa using hn⟩, rfl⟩)
  have hH : ∀ e g, some g ∈ (mem.elements e).geometries → g.coords.length < 2 ^ 64 := by rw [he]; exact heap_fits hheap hg hoth
  have hLa : Holds (mem.layouts a) rs := by rw [ha]; exact hL
  obtain ⟨ms, g1, e1, f1⟩ := render_all (ls := [0]) hr hgr hal hLa hH hp.sizes hp.fits k depth [n] _ g hh (by simp) hd'
  obtain ⟨ms', g1', e1', f1'⟩ := render_exact (ls := [0]) hr hgr hal hLa hH hp.sizes hp.fits k depth [n] _ g hh (by simp) hd'
  rw [e1] at e1'
  cases e1'
  rcases f1 with _ | ⟨⟨hb, hs⟩, f1⟩
  cases f1
  rcases f1' with _ | ⟨hl, f1'⟩
  refine ⟨g, _, g1, hi, e1, hb, hs.rows, hs.cols, ?_, ?_⟩
  · rintro i j hi' hj ⟨r, hr', hin⟩
    obtain ⟨q, hq, rfl⟩ := List.mem_map.1 hr'
    obtain ⟨hq, hc⟩ := List.mem_filter.1 hq
    exact hs.covered i j hi' hj ⟨q.1, List.mem_map.2 ⟨q, List.mem_filter.2 ⟨hq, by simpa using (of_decide_eq_true hc).1⟩, rfl⟩, hin⟩
  · intro i j hlit
    obtain ⟨q, hq, hn, hme, m', e2, l⟩ := (hl i j).1 hlit
    obtain ⟨f1, f2, f3, f4, f5, f6⟩ := hp.fits q hq
    obtain ⟨g1, g2, g3, g4⟩ := hgr.fits
    obtain ⟨m1, m2⟩ := hgr.max
    have hbl : Built (blank R C) := built_blank (by omega) (by omega)
    refine ⟨q.1, List.mem_map.2 ⟨q, List.mem_filter.2 ⟨hq, decide_eq_true ⟨hn, hme⟩⟩, rfl⟩, ?_⟩
    rcases C39_nothing_far rnd hr _ (wsOf mn mx) R C _ (grid_setUp hgr)
      (by have := hr.mono 0 (1 / 10 ^ 13) (by norm_num); rwa [hr.zero] at this)
      hgr.cells_x hgr.cells_y ⟨g1, g4, g3, g2⟩ (boxR q) _ _ (boxR_rect q) ⟨f1, f6, f5, f2⟩ _ m' hbl rfl rfl e2 i j l with h | ⟨_, _, h⟩
    · exact absurd h blank_dark
    · exact h

theorem visible_pos {mn mx : Coord} {n : Int} {rs : List (Msk.Rect × Int)} (h : ∀ q ∈ rs, 0 ≤ q.1.w ∧ 0 ≤ q.1.h) :
    ∀ r ∈ visible mn mx n rs, 0 ≤ r.w ∧ 0 ≤ r.h := by
  intro r hr
  obtain ⟨q, hq, rfl⟩ := List.mem_map.1 hr
  exact h q (List.mem_filter.1 hq).1

/-- **C91** From a file to the covered area: read an MSK file of rectangles and render layer `n` with any window and grid (each rectangle of the
layer that meets the window starts inside it or covers it).  Everything returns, and `OneRatio` of the bitmap differs from the fraction of the
window that the rectangles of the layer cover by at most the fraction of the cells along the rims of those that meet the window. -/
theorem C91_files (env : Msk.Env) (name : List Nat) (r : Msk.Reader) (cr : Bool) (header : List UInt8)
    (rs : List (Msk.Rect × Int)) (hp : PlainFile env name r cr header rs) (addr : Nat) (heap : Elements)
    (hheap : ∀ e g, some g ∈ (heap e).geometries → g.coords.length < 2 ^ 64) :
    ∃ w, Msk.read env addr false ⟨r, {}, heap⟩ = .ok true w ∧
      ∀ (rnd : ℚ → ℚ) (_ : Rounding rnd) (mn mx : Coord) (R C : Nat) (_ : Grid mn mx R C) (_ : R * C ≤ 2 ^ 53) (al : Alloc)
        (_ : al R (bytesPerRow C) = none) (mem : Memory) (a : Nat) (_ : mem.layouts a = w.data) (_ : mem.elements = w.heap)
        (k depth : Nat) (n : Int)
        (_ : ∀ q ∈ onLayer n rs, Client.Meets mn mx q → Client.StartsInside mn mx R C q ∨ Client.Covers mn mx q),
        ∃ g m g1, Generator.init (some a) [0] mn mx (Generator.new rnd) = .ok () g ∧
          Verif.Client.renderLayers rnd al (.ok k) mem depth R C [n] g = some (.ok [m] g1) ∧
          ∃ q : ℚ, BitMatrix.oneRatio id m = .ok (.fin q) ∧ BitMatrix.oneRatio rne m = .ok (.fin (rne q)) ∧
            |q - coveredArea mn mx (onLayer n rs)| ≤ ((visible mn mx n rs).map (rimCells mn mx R C 0)).sum / (R * C) := by
  obtain ⟨w, e, h⟩ := render_visible hp addr heap hheap
  refine ⟨w, e, fun rnd hr mn mx R C hgr hsz al hal mem a ha he k depth n hd => ?_⟩
  obtain ⟨g, m, g1, i1, i2, hb, hs⟩ := h rnd hr mn mx R C hgr al hal mem a ha he k depth n hd
  obtain ⟨q, k1, k2, k3⟩ := C91_area mn mx R C hgr.rpos hgr.cpos hgr.wpos hgr.hpos _ (visible_pos hp.sizes) m hb hs hsz
  refine ⟨g, m, g1, i1, i2, q, k1, k2, ?_⟩
  have : coveredArea mn mx (onLayer n rs) = coveredArea mn mx (visible mn mx n rs) := by
    unfold coveredArea
    rw [Finset.filter_congr fun p hp => (coveredArea_visible mn mx n rs hgr.wpos hgr.hpos p hp).symm]
  rw [this]
  exact k3

/-- **C91** The same for two files and `Compare`: it differs (in exact arithmetic) from one minus the area covered by exactly one of the two
layers by at most the fraction of the cells along the rims. -/
theorem C91_compare_files (env env' : Msk.Env) (name name' : List Nat) (r r' : Msk.Reader) (cr cr' : Bool) (header header' : List UInt8)
    (rs rs' : List (Msk.Rect × Int)) (hp : PlainFile env name r cr header rs) (hp' : PlainFile env' name' r' cr' header' rs')
    (addr addr' : Nat) (heap heap' : Elements)
    (hheap : ∀ e g, some g ∈ (heap e).geometries → g.coords.length < 2 ^ 64)
    (hheap' : ∀ e g, some g ∈ (heap' e).geometries → g.coords.length < 2 ^ 64) :
    ∃ w w', Msk.read env addr false ⟨r, {}, heap⟩ = .ok true w ∧ Msk.read env' addr' false ⟨r', {}, heap'⟩ = .ok true w' ∧
      ∀ (rnd : ℚ → ℚ) (_ : Rounding rnd) (mn mx : Coord) (R C : Nat) (_ : Grid mn mx R C) (_ : R * C ≤ 2 ^ 53) (al : Alloc)
        (_ : al R (bytesPerRow C) = none) (mem mem' : Memory) (a a' : Nat) (_ : mem.layouts a = w.data) (_ : mem.elements = w.heap)
        (_ : mem'.layouts a' = w'.data) (_ : mem'.elements = w'.heap) (k k' depth depth' : Nat) (n : Int)
        (_ : ∀ q ∈ onLayer n rs ++ onLayer n rs', Client.Meets mn mx q → Client.StartsInside mn mx R C q ∨ Client.Covers mn mx q),
        ∃ g m g1 g' m' g1', Generator.init (some a) [0] mn mx (Generator.new rnd) = .ok () g ∧
          Verif.Client.renderLayers rnd al (.ok k) mem depth R C [n] g = some (.ok [m] g1) ∧
          Generator.init (some a') [0] mn mx (Generator.new rnd) = .ok () g' ∧
          Verif.Client.renderLayers rnd al (.ok k') mem' depth' R C [n] g' = some (.ok [m'] g1') ∧
          ∃ q : ℚ, BitMatrix.compare id Alloc.ok m m' = .ok (.fin q) ∧
            |q - (1 - differingArea mn mx (onLayer n rs) (onLayer n rs'))| ≤
              ((visible mn mx n rs ++ visible mn mx n rs').map (rimCells mn mx R C 0)).sum / (R * C) := by
  obtain ⟨w, e, h⟩ := render_visible hp addr heap hheap
  obtain ⟨w', e', h'⟩ := render_visible hp' addr' heap' hheap'
  refine ⟨w, w', e, e', fun rnd hr mn mx R C hgr hsz al hal mem mem' a a' ha he ha' he' k k' depth depth' n hd => ?_⟩
  obtain ⟨g, m, g1, i1, i2, hb, hs⟩ := h rnd hr mn mx R C hgr al hal mem a ha he k depth n
    (fun q hq => hd q (List.mem_append_left _ hq))
  obtain ⟨g', m', g1', i1', i2', hb', hs'⟩ := h' rnd hr mn mx R C hgr al hal mem' a' ha' he' k' depth' n
    (fun q hq => hd q (List.mem_append_right _ hq))
  obtain ⟨q, k1, k3⟩ := C91_compare mn mx R C hgr.rpos hgr.cpos hgr.wpos hgr.hpos _ _ (by
    intro x hx
    rcases List.mem_append.1 hx with hx | hx
    · exact visible_pos hp.sizes x hx
    · exact visible_pos hp'.sizes x hx) m m' hb hb' hs hs' hsz
  refine ⟨g, m, g1, g', m', g1', i1, i2, i1', i2', q, k1, ?_⟩
  have : differingArea mn mx (onLayer n rs) (onLayer n rs') = differingArea mn mx (visible mn mx n rs) (visible mn mx n rs') := by
    unfold differingArea
    rw [Finset.filter_congr fun p hp => by
      rw [← coveredArea_visible mn mx n rs hgr.wpos hgr.hpos p hp, ← coveredArea_visible mn mx n rs' hgr.wpos hgr.hpos p hp]]
  rw [this]
  exact k3

/-! ### the hypotheses can be met -/

/-- the rectangle `23..57 × 63..81` of `exWhole` in the window `0..100 × 0..100` of 100×100 cells: it covers 0.0612 of the window -/
example : ∃ (m : BitMatrix) (q : ℚ), BitMatrix.oneRatio rne m = .ok (.fin (rne q)) ∧ |q - 612 / 10000| ≤ 232 / 10000 := by
  have e1 : onLayer 23 exWhole = [⟨23, 63, 34, 18, "ME"⟩] := rfl
  have e2 : visible ⟨0, 0⟩ ⟨100, 100⟩ 23 exWhole = [⟨23, 63, 34, 18, "ME"⟩] := rfl
  obtain ⟨w, -, h⟩ := C91_files _ _ _ _ _ _ exWhole_plain 7 (fun _ => {}) (by simp)
  obtain ⟨g, m, g1, -, -, q, -, h2, h3⟩ := h rne rne_rounding ⟨0, 0⟩ ⟨100, 100⟩ 100 100
    ⟨by unfold inI32; decide, by unfold inI32; decide, by unfold inI32; decide, by decide, by decide, by decide, by decide, by decide, by decide⟩
    (by norm_num) Alloc.ok rfl ⟨fun _ => w.data, w.heap⟩ 0 rfl rfl 0 0 23 (by
      intro q hq _
      rw [e1, List.mem_singleton] at hq
      subst hq
      exact .inl ⟨by decide, by decide, by unfold inI32; decide, by unfold inI32; decide, by decide, by decide⟩)
  refine ⟨m, q, h2, ?_⟩
  rw [e1, e2, C91_one_rectangle _ _ _ (by decide) (by decide) (by decide) (by decide) (by decide) (by decide)] at h3
  unfold rimCells at h3
  norm_num at h3 ⊢
  exact h3

/-- the same rectangle and its two parts: the areas do not differ -/
example : ∃ (m m' : BitMatrix) (q : ℚ), BitMatrix.compare id Alloc.ok m m' = .ok (.fin q) ∧ |q - 1| ≤ 560 / 10000 := by
  have e1 : onLayer 23 exWhole = [⟨23, 63, 34, 18, "ME"⟩] := rfl
  have e2 : visible ⟨0, 0⟩ ⟨100, 100⟩ 23 exWhole = [⟨23, 63, 34, 18, "ME"⟩] := rfl
  have e3 : onLayer 23 exParts = [⟨23, 63, 14, 18, "ME"⟩, ⟨37, 63, 20, 18, "ME"⟩] := rfl
  have e4 : visible ⟨0, 0⟩ ⟨100, 100⟩ 23 exParts = [⟨23, 63, 14, 18, "ME"⟩, ⟨37, 63, 20, 18, "ME"⟩] := rfl
  obtain ⟨w, w', -, -, h⟩ := C91_compare_files _ _ _ _ _ _ _ _ _ _ _ _ exWhole_plain exParts_plain 7 8 (fun _ => {}) (fun _ => {}) (by simp) (by simp)
  obtain ⟨g, m, g1, g', m', g1', -, -, -, -, q, h2, h3⟩ := h rne rne_rounding ⟨0, 0⟩ ⟨100, 100⟩ 100 100
    ⟨by unfold inI32; decide, by unfold inI32; decide, by unfold inI32; decide, by decide, by decide, by decide, by decide, by decide, by decide⟩
    (by norm_num) Alloc.ok rfl ⟨fun _ => w.data, w.heap⟩ ⟨fun _ => w'.data, w'.heap⟩ 0 0 rfl rfl rfl rfl 0 0 0 0 23 (by
      intro q hq _
      rw [e1, e3] at hq
      simp only [List.cons_append, List.nil_append, List.mem_cons, List.not_mem_nil, or_false] at hq
      rcases hq with rfl | rfl | rfl <;>
        exact .inl ⟨by decide, by decide, by unfold inI32; decide, by unfold inI32; decide, by decide, by decide⟩)
  refine ⟨m, m', q, h2, ?_⟩
  have d0 : differingArea ⟨0, 0⟩ ⟨100, 100⟩ (onLayer 23 exWhole) (onLayer 23 exParts) = 0 := by
    unfold differingArea
    rw [Finset.filter_false_of_mem, Finset.card_empty]
    · simp
    · rintro ⟨i, j⟩ _
      rw [not_not, e1, e3]
      unfold HasUnit
      simp only [List.mem_cons, List.not_mem_nil, or_false, exists_eq_or_imp, exists_eq_left]
      omega
  rw [d0, e2, e4] at h3
  simp only [List.cons_append, List.nil_append, List.map_cons, List.map_nil, List.sum_cons, List.sum_nil, rimCells] at h3
  norm_num at h3 ⊢
  exact h3

/-- the two parts do not overlap, so that together they cover what they cover alone, which is what the whole covers -/
example : coveredArea ⟨0, 0⟩ ⟨100, 100⟩ [⟨23, 63, 14, 18, "ME"⟩, ⟨37, 63, 20, 18, "ME"⟩] = 612 / 10000 := by
  rw [C91_disjoint _ _ _ (by simp [Apart])]
  simp only [List.map_cons, List.map_nil, List.sum_cons, List.sum_nil]
  rw [C91_one_rectangle _ _ _ (by decide) (by decide) (by decide) (by decide) (by decide) (by decide),
    C91_one_rectangle _ _ _ (by decide) (by decide) (by decide) (by decide) (by decide) (by decide)]
  norm_num

/-- an empty bitmap shows no rectangle: nothing is covered, with every grid -/
example : ∃ q : ℚ, BitMatrix.oneRatio rne (blank 100 100) = .ok (.fin q) ∧ |q - coveredArea ⟨0, 0⟩ ⟨100, 100⟩ []| ≤ 0 / 100 + 1 / 2 ^ 53 := by
  have := C91_finer ⟨0, 0⟩ ⟨100, 100⟩ 100 100 100 (by decide) (by decide) (by decide) (by decide) (by decide) [] (by simp) (blank 100 100)
    (built_blank (by omega) (by omega)) ⟨rfl, rfl, by simp, fun i j h => absurd h blank_dark⟩ (by norm_num)
  simpa [roughness] using this

end Verif.Props
