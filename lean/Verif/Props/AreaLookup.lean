import Verif.Props.AreaFile
import Verif.Props.LookupFiles

/-! C92: the area in which two layouts differ decides whether one is found when the other is stored. -/

namespace Verif.Props
open Verif BitMatrix Zond Spec Ieee Generator Client

/-- the number of differing cells of two bitmaps that show rectangles, by the area of the difference -/
theorem diff_area (mn mx : Coord) (R C : Nat) (hR : 0 < R) (hC : 0 < C) (hw : mn.x < mx.x) (hh : mn.y < mx.y) (rs rs' : List Msk.Rect)
    (hpos : ∀ r ∈ rs ++ rs', 0 ≤ r.w ∧ 0 ≤ r.h) (m m' : BitMatrix) (hm : Built m) (hm' : Built m') (hs : Shows mn mx R C rs m)
    (hs' : Shows mn mx R C rs' m') (hsz : R * C ≤ 2 ^ 53) :
    |(diffCount m m' : ℚ) / (R * C) - differingArea mn mx rs rs'| ≤ ((rs ++ rs').map (rimCells mn mx R C 0)).sum / (R * C) := by
  obtain ⟨q, k1, k2⟩ := C91_compare mn mx R C hR hC hw hh rs rs' hpos m m' hm hm' hs hs' hsz
  have e1 := hs.rows
  have e2 := hs.cols
  have e3 := hs'.rows
  have e4 := hs'.cols
  rw [(C09_compare m m' hm hm' (by omega) (by omega) (by omega) (by omega) (by rw [e1, e2]; exact hsz)).1] at k1
  injection k1 with k1
  injection k1 with k1
  subst k1
  rw [e1, e2] at k2
  push_cast at k2
  rw [abs_sub_comm] at k2
  refine le_trans (le_of_eq ?_) k2
  congr 1
  ring

/-- from the area to the count, as the threshold needs it -/
theorem threshold_area {R C d : Nat} (hR : 0 < R) (hC : 0 < C) {a e : ℚ} (h : |(d : ℚ) / (R * C) - a| ≤ e) :
    (a + e ≤ 1 / 10000 → d * 10000 ≤ R * C) ∧ (1 / 10000 < a - e → ¬ d * 10000 ≤ R * C) := by
  have hp : (0 : ℚ) < R * C := by positivity
  obtain ⟨h1, h2⟩ := abs_le.1 h
  constructor
  · intro hle
    have : (d : ℚ) / (R * C) ≤ 1 / 10000 := by linarith
    rw [div_le_div_iff₀ hp (by norm_num)] at this
    have : ((d * 10000 : ℕ) : ℚ) ≤ ((R * C : ℕ) : ℚ) := by push_cast; linarith
    exact_mod_cast this
  · intro hlt hle
    have : (1 : ℚ) / 10000 < d / (R * C) := by linarith
    rw [div_lt_div_iff₀ (by norm_num) hp] at this
    have h3 : ((d * 10000 : ℕ) : ℚ) ≤ ((R * C : ℕ) : ℚ) := by exact_mod_cast hle
    push_cast at h3
    linarith

/-- **C92** `operator==` on two bitmaps that show rectangles in the same window and grid: true if the area covered by exactly one of the two
lists, together with the rims, is at most a ten thousandth of the window; false if that area without the rims is more. -/
theorem C92_equal (mn mx : Coord) (R C : Nat) (hR : 0 < R) (hC : 0 < C) (hw : mn.x < mx.x) (hh : mn.y < mx.y) (rs rs' : List Msk.Rect)
    (hpos : ∀ r ∈ rs ++ rs', 0 ≤ r.w ∧ 0 ≤ r.h) (m m' : BitMatrix) (hm : Built m) (hm' : Built m') (hs : Shows mn mx R C rs m)
    (hs' : Shows mn mx R C rs' m') (hsz : R * C ≤ 2 ^ 38) :
    (differingArea mn mx rs rs' + ((rs ++ rs').map (rimCells mn mx R C 0)).sum / (R * C) ≤ 1 / 10000 →
      BitMatrix.opEq rne Alloc.ok m m' = .ok true) ∧
    (1 / 10000 < differingArea mn mx rs rs' - ((rs ++ rs').map (rimCells mn mx R C 0)).sum / (R * C) →
      BitMatrix.opEq rne Alloc.ok m m' = .ok false) := by
  have h := threshold_area hR hC (diff_area mn mx R C hR hC hw hh rs rs' hpos m m' hm hm' hs hs' (le_trans hsz (by norm_num)))
  have e1 := hs.rows
  have e2 := hs.cols
  have e3 := hs'.rows
  have e4 := hs'.cols
  have e := (C09_eq_ne_threshold m m' hm hm' (by omega) (by omega) (by omega) (by omega) (by rw [e1, e2]; exact hsz)).1
  rw [e1, e2] at e
  rw [e]
  exact ⟨fun k => by rw [decide_eq_true (h.1 k)], fun k => by rw [decide_eq_false (h.2 k)]⟩

/-- **C92** Fine grids decide by the area: unless the two lists differ in exactly a ten thousandth of the window, every grid with at least `n`
rows and columns, `n` large enough for the layouts and the window, gives the verdict of the area. -/
theorem C92_decided (mn mx : Coord) (n : Nat) (hn : 0 < n) (hw : mn.x < mx.x) (hh : mn.y < mx.y) (rs rs' : List Msk.Rect)
    (hpos : ∀ r ∈ rs ++ rs', 0 ≤ r.w ∧ 0 ≤ r.h)
    (hfar : roughness mn mx (rs ++ rs') / n < |differingArea mn mx rs rs' - 1 / 10000|)
    (R C : Nat) (hR : n ≤ R) (hC : n ≤ C) (hsz : R * C ≤ 2 ^ 38) (m m' : BitMatrix) (hm : Built m) (hm' : Built m')
    (hs : Shows mn mx R C rs m) (hs' : Shows mn mx R C rs' m') :
    BitMatrix.opEq rne Alloc.ok m m' = .ok (decide (differingArea mn mx rs rs' ≤ 1 / 10000)) := by
  obtain ⟨k1, k2⟩ := C92_equal mn mx R C (by omega) (by omega) hw hh rs rs' hpos m m' hm hm' hs hs' hsz
  have r := rims_rate hn hR hC hw hh hpos
  by_cases h : differingArea mn mx rs rs' ≤ 1 / 10000
  · rw [abs_of_nonpos (by linarith)] at hfar
    rw [decide_eq_true h]
    exact k1 (by linarith)
  · rw [abs_of_nonneg (by linarith [not_le.1 h])] at hfar
    rw [decide_eq_false h]
    exact k2 (by linarith)

/-- **C92** Layouts of different total area differ at least by the difference of the areas … -/
theorem C92_gap (mn mx : Coord) (rs rs' : List Msk.Rect) :
    |coveredArea mn mx rs - coveredArea mn mx rs'| ≤ differingArea mn mx rs rs' := by
  have key : ∀ a b : List Msk.Rect, coveredArea mn mx a ≤ coveredArea mn mx b + differingArea mn mx a b := by
    intro a b
    unfold coveredArea differingArea
    rw [← add_div]
    apply div_le_div_of_nonneg_right _ (by positivity)
    rw [← Nat.cast_add]
    norm_cast
    refine le_trans (Finset.card_le_card ?_) (Finset.card_union_le _ _)
    intro p hp
    rw [Finset.mem_filter] at hp
    rw [Finset.mem_union, Finset.mem_filter, Finset.mem_filter]
    by_cases h : ∃ r ∈ b, HasUnit mn mx r p
    · exact .inl ⟨hp.1, h⟩
    · exact .inr ⟨hp.1, fun hi => h (hi.1 hp.2)⟩
  have symm : differingArea mn mx rs' rs = differingArea mn mx rs rs' := by
    unfold differingArea
    rw [Finset.filter_congr fun p _ => not_congr (iff_comm (a := ∃ r ∈ rs', HasUnit mn mx r p))]
  rw [abs_le]
  have h1 := key rs rs'
  have h2 := key rs' rs
  rw [symm] at h2
  constructor <;> linarith

/-- **C92** … and at most by their sum. -/
theorem C92_at_most (mn mx : Coord) (rs rs' : List Msk.Rect) :
    differingArea mn mx rs rs' ≤ coveredArea mn mx rs + coveredArea mn mx rs' := by
  unfold coveredArea differingArea
  rw [← add_div]
  apply div_le_div_of_nonneg_right _ (by positivity)
  rw [← Nat.cast_add]
  norm_cast
  refine le_trans (Finset.card_le_card ?_) (Finset.card_union_le _ _)
  intro p hp
  rw [Finset.mem_filter] at hp
  rw [Finset.mem_union, Finset.mem_filter, Finset.mem_filter]
  by_cases h : ∃ r ∈ rs, HasUnit mn mx r p
  · exact .inl ⟨hp.1, h⟩
  · by_cases h' : ∃ r ∈ rs', HasUnit mn mx r p
    · exact .inr ⟨hp.1, h'⟩
    · exact absurd (iff_of_false h h') hp.2

/-- **C92** From the bytes of two MSK files to the answer of the look-up (C74): the stored layout is found if the area covered by exactly one
of the two layers, together with the rims, is at most a ten thousandth of the window, and not found if that area without the rims is more. -/
theorem C92_files (env env' : Msk.Env) (name name' : List Nat) (r r' : Msk.Reader) (cr cr' : Bool) (header header' : List UInt8)
    (rs rs' : List (Msk.Rect × Int)) (hp : PlainFile env name r cr header rs) (hp' : PlainFile env' name' r' cr' header' rs')
    (addr addr' : Nat) (heap heap' : Elements)
    (hheap : ∀ e g, some g ∈ (heap e).geometries → g.coords.length < 2 ^ 64)
    (hheap' : ∀ e g, some g ∈ (heap' e).geometries → g.coords.length < 2 ^ 64) :
    ∃ w w', Msk.read env addr false ⟨r, {}, heap⟩ = .ok true w ∧ Msk.read env' addr' false ⟨r', {}, heap'⟩ = .ok true w' ∧
      ∀ (rnd : ℚ → ℚ) (_ : Rounding rnd) (mn mx : Coord) (R C : Nat) (_ : Grid mn mx R C) (_ : R * C < 2 ^ 31) (al : Alloc)
        (_ : al R (bytesPerRow C) = none) (mem mem' : Memory) (a a' : Nat) (_ : mem.layouts a = w.data) (_ : mem.elements = w.heap)
        (_ : mem'.layouts a' = w'.data) (_ : mem'.elements = w'.heap) (k k' depth depth' : Nat) (n : Int)
        (_ : ∀ q ∈ onLayer n rs ++ onLayer n rs', Client.Meets mn mx q → Client.StartsInside mn mx R C q ∨ Client.Covers mn mx q),
        ∃ g m g1 g' m' g1', Generator.init (some a) [0] mn mx (Generator.new rnd) = .ok () g ∧
          Verif.Client.renderLayers rnd al (.ok k) mem depth R C [n] g = some (.ok [m] g1) ∧
          Generator.init (some a') [0] mn mx (Generator.new rnd) = .ok () g' ∧
          Verif.Client.renderLayers rnd al (.ok k') mem' depth' R C [n] g' = some (.ok [m'] g1') ∧
          ∀ (p : LayoutMatrix.Platform) (_ : p.maskedShift = true) (_ : p.charSigned = false ∨ (AsciiDim R ∧ AsciiDim C))
            (fs fs' : LayoutMatrix.Fs) (file : List UInt8) (stored : Nat) (_ : file ≠ []) (_ : fs.readable file = true)
            (_ : ∀ h, LayoutMatrix.encodeHash m = .ok h → h.length ≤ stored)
            (_ : LayoutMatrix.flushFile m file stored fs = .ok true fs') (old : BitMatrix),
            (differingArea mn mx (onLayer n rs) (onLayer n rs') +
                ((visible mn mx n rs ++ visible mn mx n rs').map (rimCells mn mx R C 0)).sum / (R * C) ≤ 1 / 10000 →
              Verif.Client.lookup p fs' old m' [file] = some [file]) ∧
            (1 / 10000 < differingArea mn mx (onLayer n rs) (onLayer n rs') -
                ((visible mn mx n rs ++ visible mn mx n rs').map (rimCells mn mx R C 0)).sum / (R * C) →
              Verif.Client.lookup p fs' old m' [file] = some []) := by
  obtain ⟨w, e, h⟩ := render_visible hp addr heap hheap
  obtain ⟨w', e', h'⟩ := render_visible hp' addr' heap' hheap'
  refine ⟨w, w', e, e', fun rnd hr mn mx R C hgr hsz al hal mem mem' a a' ha he ha' he' k k' depth depth' n hd => ?_⟩
  obtain ⟨g, m, g1, i1, i2, b, s⟩ := h rnd hr mn mx R C hgr al hal mem a ha he k depth n
    (fun q hq => hd q (List.mem_append_left _ hq))
  obtain ⟨g', m', g1', i1', i2', b', s'⟩ := h' rnd hr mn mx R C hgr al hal mem' a' ha' he' k' depth' n
    (fun q hq => hd q (List.mem_append_right _ hq))
  refine ⟨g, m, g1, g', m', g1', i1, i2, i1', i2', ?_⟩
  intro p hmask hch fs fs' file stored hn hrd hst hf old
  have key := lookup_one p hmask _ _ old ⟨b, by rw [s.rows, s.cols]; exact hsz, by rw [s.rows, s.cols]; exact hch⟩
    (by rw [s.rows]; exact hgr.rpos) (by rw [s.cols]; exact hgr.cpos) b' fs fs' file stored hn hrd hst hf
  have ea : differingArea mn mx (onLayer n rs) (onLayer n rs') = differingArea mn mx (visible mn mx n rs) (visible mn mx n rs') := by
    unfold differingArea
    rw [Finset.filter_congr fun p hp => by
      rw [← coveredArea_visible mn mx n rs hgr.wpos hgr.hpos p hp, ← coveredArea_visible mn mx n rs' hgr.wpos hgr.hpos p hp]]
  have t := threshold_area hgr.rpos hgr.cpos (diff_area mn mx R C hgr.rpos hgr.cpos hgr.wpos hgr.hpos _ _ (by
    intro x hx
    rcases List.mem_append.1 hx with hx | hx
    · exact visible_pos hp.sizes x hx
    · exact visible_pos hp'.sizes x hx) m m' b b' s s' (by omega))
  rw [ea, key, s.rows, s.cols, s'.rows, s'.cols]
  exact ⟨fun hle => by rw [if_pos ⟨rfl, rfl, t.1 hle⟩], fun hlt => by rw [if_neg fun hc => t.2 hlt hc.2.2]⟩

/-! ### the hypotheses can be met -/

/-- The files with the rectangles `23..57 × 63..81` and `20..45 × 60..80`, which differ in 364 of the 2500 units of the window `15..65 × 50..100`:
with 70 × 70 cells the second is not found when the first is stored … -/
example : ∃ g g1 g' g1' mem mem' m m',
    Verif.Client.renderLayers rne Alloc.ok (.ok 0) mem 0 70 70 [23] g = some (.ok [m] g1) ∧
    Verif.Client.renderLayers rne Alloc.ok (.ok 0) mem' 0 70 70 [23] g' = some (.ok [m'] g1') ∧
    ∀ (fs fs' : LayoutMatrix.Fs) (stored : Nat), fs.readable [97] = true →
    (∀ h, LayoutMatrix.encodeHash m = .ok h → h.length ≤ stored) → LayoutMatrix.flushFile m [97] stored fs = .ok true fs' →
    ∀ old, Verif.Client.lookup ⟨false, true⟩ fs' old m' [[97]] = some [] := by
  obtain ⟨w, w', -, -, h⟩ := C92_files _ _ _ _ _ _ _ _ _ _ _ _ exWhole_plain ex_plain 7 7 (fun _ => {}) (fun _ => {}) (by simp) (by simp)
  have f1 : onLayer 23 exWhole = [⟨23, 63, 34, 18, "ME"⟩] := rfl
  have f2 : onLayer 23 exRects = [⟨20, 60, 25, 20, "ME"⟩] := rfl
  have v1 : visible ⟨15, 50⟩ ⟨65, 100⟩ 23 exWhole = [⟨23, 63, 34, 18, "ME"⟩] := rfl
  have v2 : visible ⟨15, 50⟩ ⟨65, 100⟩ 23 exRects = [⟨20, 60, 25, 20, "ME"⟩] := rfl
  obtain ⟨g, m, g1, g', m', g1', _, h2, _, h4, h5⟩ := h rne rne_rounding ⟨15, 50⟩ ⟨65, 100⟩ 70 70
    ⟨by unfold inI32; decide, by unfold inI32; decide, by unfold inI32; decide, by decide, by decide, by decide, by decide, by decide, by decide⟩
    (by norm_num) Alloc.ok rfl ⟨fun _ => w.data, w.heap⟩ ⟨fun _ => w'.data, w'.heap⟩ 0 0 rfl rfl rfl rfl 0 0 0 0 23 (by
      rw [f1, f2]
      intro q hq _
      simp only [List.mem_append, List.mem_cons, List.not_mem_nil, or_false] at hq
      rcases hq with rfl | rfl <;>
      exact .inl ⟨by decide, by decide, by unfold inI32; decide, by unfold inI32; decide, by decide, by decide⟩)
  refine ⟨g, g1, g', g1', _, _, m, m', h2, h4, fun fs fs' stored hr hst hf old => ?_⟩
  refine (h5 ⟨false, true⟩ rfl (.inl rfl) fs fs' [97] stored (by simp) hr hst hf old).2 ?_
  have d : differingArea ⟨15, 50⟩ ⟨65, 100⟩ [⟨23, 63, 34, 18, "ME"⟩] [⟨20, 60, 25, 20, "ME"⟩] = 364 / 2500 := by
    unfold differingArea
    have c1 : ((units ⟨15, 50⟩ ⟨65, 100⟩).filter fun p =>
        ¬ ((∃ r ∈ ([⟨23, 63, 34, 18, "ME"⟩] : List Msk.Rect), HasUnit ⟨15, 50⟩ ⟨65, 100⟩ r p) ↔
          ∃ r ∈ ([⟨20, 60, 25, 20, "ME"⟩] : List Msk.Rect), HasUnit ⟨15, 50⟩ ⟨65, 100⟩ r p)).card = 364 := by decide +kernel
    have c2 : (units ⟨15, 50⟩ ⟨65, 100⟩).card = 2500 := by decide +kernel
    rw [c1, c2]
    norm_num
  rw [f1, f2, v1, v2, d]
  simp only [List.cons_append, List.nil_append, List.map_cons, List.map_nil, List.sum_cons, List.sum_nil, rimCells]
  norm_num

/-- … and in a window of a million units with 5000 × 5000 cells it is found. -/
example : ∃ g g1 g' g1' mem mem' m m',
    Verif.Client.renderLayers rne Alloc.ok (.ok 0) mem 0 5000 5000 [23] g = some (.ok [m] g1) ∧
    Verif.Client.renderLayers rne Alloc.ok (.ok 0) mem' 0 5000 5000 [23] g' = some (.ok [m'] g1') ∧
    ∀ (fs fs' : LayoutMatrix.Fs) (stored : Nat), fs.readable [97] = true →
    (∀ h, LayoutMatrix.encodeHash m = .ok h → h.length ≤ stored) → LayoutMatrix.flushFile m [97] stored fs = .ok true fs' →
    ∀ old, Verif.Client.lookup ⟨false, true⟩ fs' old m' [[97]] = some [[97]] := by
  obtain ⟨w, w', -, -, h⟩ := C92_files _ _ _ _ _ _ _ _ _ _ _ _ exWhole_plain ex_plain 7 7 (fun _ => {}) (fun _ => {}) (by simp) (by simp)
  have f1 : onLayer 23 exWhole = [⟨23, 63, 34, 18, "ME"⟩] := rfl
  have f2 : onLayer 23 exRects = [⟨20, 60, 25, 20, "ME"⟩] := rfl
  have v1 : visible ⟨0, 0⟩ ⟨1000000, 1000000⟩ 23 exWhole = [⟨23, 63, 34, 18, "ME"⟩] := rfl
  have v2 : visible ⟨0, 0⟩ ⟨1000000, 1000000⟩ 23 exRects = [⟨20, 60, 25, 20, "ME"⟩] := rfl
  obtain ⟨g, m, g1, g', m', g1', _, h2, _, h4, h5⟩ := h rne rne_rounding ⟨0, 0⟩ ⟨1000000, 1000000⟩ 5000 5000
    ⟨by unfold inI32; decide, by unfold inI32; decide, by unfold inI32; decide, by decide, by decide, by decide, by decide, by decide, by decide⟩
    (by norm_num) Alloc.ok rfl ⟨fun _ => w.data, w.heap⟩ ⟨fun _ => w'.data, w'.heap⟩ 0 0 rfl rfl rfl rfl 0 0 0 0 23 (by
      rw [f1, f2]
      intro q hq _
      simp only [List.mem_append, List.mem_cons, List.not_mem_nil, or_false] at hq
      rcases hq with rfl | rfl <;>
      exact .inl ⟨by decide, by decide, by unfold inI32; decide, by unfold inI32; decide, by decide, by decide⟩)
  refine ⟨g, g1, g', g1', _, _, m, m', h2, h4, fun fs fs' stored hr hst hf old => ?_⟩
  refine (h5 ⟨false, true⟩ rfl (.inl rfl) fs fs' [97] stored (by simp) hr hst hf old).1 ?_
  have up := C92_at_most ⟨0, 0⟩ ⟨1000000, 1000000⟩ [⟨23, 63, 34, 18, "ME"⟩] [⟨20, 60, 25, 20, "ME"⟩]
  rw [C91_one_rectangle _ _ _ (by decide) (by decide) (by decide) (by decide) (by decide) (by decide),
    C91_one_rectangle _ _ _ (by decide) (by decide) (by decide) (by decide) (by decide) (by decide)] at up
  rw [f1, f2, v1, v2]
  simp only [List.cons_append, List.nil_append, List.map_cons, List.map_nil, List.sum_cons, List.sum_nil, rimCells]
  norm_num at up ⊢
  linarith

/-- `C92_decided`: for a square of half the width of a window of a million units and an empty layer, 5000 rows and columns are more than enough. -/
example : roughness ⟨0, 0⟩ ⟨1000000, 1000000⟩ ([⟨250000, 250000, 500000, 500000, "ME"⟩] ++ []) / (5000 : ℕ) <
    |differingArea ⟨0, 0⟩ ⟨1000000, 1000000⟩ [⟨250000, 250000, 500000, 500000, "ME"⟩] [] - 1 / 10000| := by
  have gap := C92_gap ⟨0, 0⟩ ⟨1000000, 1000000⟩ [⟨250000, 250000, 500000, 500000, "ME"⟩] []
  rw [C91_one_rectangle _ _ _ (by decide) (by decide) (by decide) (by decide) (by decide) (by decide)] at gap
  have e : coveredArea ⟨0, 0⟩ ⟨1000000, 1000000⟩ [] = 0 := by simp [coveredArea]
  rw [e] at gap
  refine lt_of_lt_of_le ?_ (le_abs_self _)
  simp only [roughness, List.cons_append, List.nil_append, List.map_cons, List.map_nil, List.sum_cons, List.sum_nil]
  norm_num at gap ⊢
  linarith

end Verif.Props
