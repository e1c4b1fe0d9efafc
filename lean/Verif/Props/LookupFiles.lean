import Verif.Props.Lookup

/-! C74: from the bytes of two layout files to the answer. -/

namespace Verif.Props
open Verif BitMatrix Zond Spec Ieee Generator Client

/-- **C74** From the bytes of two MSK files to the answer: read both, render layer `n` of both with the same window and grid, store
the first bitmap with `FlushFile` and look the second one up.  Everything returns; if the write was complete, the name is found
when the rectangles of the layer correspond one to one with no side moved by more than `δ` cells and the rims of the rectangles are at most a ten thousandth of the bitmap, and
not found when more than a ten thousandth of the cells belong to only one of the two lists of rectangles. -/
theorem C74_files (env env' : Msk.Env) (name name' : List Nat) (r r' : Msk.Reader) (cr cr' : Bool) (header header' : List UInt8)
    (rs rs' : List (Msk.Rect × Int)) (hp : PlainFile env name r cr header rs) (hp' : PlainFile env' name' r' cr' header' rs')
    (addr addr' : Nat) (heap heap' : Elements)
    (hheap : ∀ e g, some g ∈ (heap e).geometries → g.coords.length < 2 ^ 64)
    (hheap' : ∀ e g, some g ∈ (heap' e).geometries → g.coords.length < 2 ^ 64) :
    ∃ w w', Msk.read env addr false ⟨r, {}, heap⟩ = .ok true w ∧ Msk.read env' addr' false ⟨r', {}, heap'⟩ = .ok true w' ∧
      ∀ (rnd : ℚ → ℚ) (_ : Rounding rnd) (mn mx : Coord) (R C : Nat) (_ : Grid mn mx R C) (_ : R * C < 2 ^ 31) (al : Alloc)
        (_ : al R (bytesPerRow C) = none) (mem mem' : Memory) (a a' : Nat) (_ : mem.layouts a = w.data) (_ : mem.elements = w.heap)
        (_ : mem'.layouts a' = w'.data) (_ : mem'.elements = w'.heap) (k k' depth depth' : Nat) (n : Int)
        (_ : ∀ q ∈ onLayer n rs ++ onLayer n rs', Client.Meets mn mx q → Client.StartsInside mn mx R C q ∨ Client.Covers mn mx q),
        ∃ g m g1 g' m' g1', Generator.init (some a) [0] mn mx (Generator.new rnd) = .ok () g ∧
          Verif.Client.renderLayers rnd al (.ok k) mem depth R C [n] g = some (.ok [m] g1) ∧
          Generator.init (some a') [0] mn mx (Generator.new rnd) = .ok () g' ∧
          Verif.Client.renderLayers rnd al (.ok k') mem' depth' R C [n] g' = some (.ok [m'] g1') ∧
          ∀ (p : LayoutMatrix.Platform) (_ : p.maskedShift = true) (_ : p.charSigned = false ∨ (AsciiDim R ∧ AsciiDim C))
            (fs fs' : LayoutMatrix.Fs) (file : List UInt8) (stored : Nat) (_ : file ≠ []) (_ : fs.readable file = true)
            (_ : ∀ h, LayoutMatrix.encodeHash m = .ok h → h.length ≤ stored)
            (_ : LayoutMatrix.flushFile m file stored fs = .ok true fs') (old : BitMatrix),
            (∀ δ : ℚ, List.Forall₂ (CloseRect mn mx R C δ) (onLayer n rs) (onLayer n rs') →
              10000 * ((onLayer n rs).map (rimCells mn mx R C δ)).sum ≤ (R : ℚ) * C →
              Verif.Client.lookup p fs' old m' [file] = some [file]) ∧
            (∀ K : Finset (Nat × Nat), (∀ c ∈ K, FileHistory.OnlyInFirst mn mx R C (onLayer n rs) (onLayer n rs') c) ∨
                (∀ c ∈ K, FileHistory.OnlyInFirst mn mx R C (onLayer n rs') (onLayer n rs) c) →
              R * C < K.card * 10000 → Verif.Client.lookup p fs' old m' [file] = some []) := by
  obtain ⟨w, e, h⟩ := C62_file_to_bitmaps env name r cr header rs hp addr heap hheap
  obtain ⟨w', e', h'⟩ := C62_file_to_bitmaps env' name' r' cr' header' rs' hp' addr' heap' hheap'
  refine ⟨w, w', e, e', fun rnd hr mn mx R C hgr hsz al hal mem mem' a a' ha he ha' he' k k' depth depth' n hd => ?_⟩
  have mem_on : ∀ (l : List (Msk.Rect × Int)), ∀ q ∈ l, q.2 ∈ [n] → q.1 ∈ onLayer n l := by
    intro l q hq hn
    exact List.mem_map.2 ⟨q, List.mem_filter.2 ⟨hq, by simpa using hn⟩, rfl⟩
  obtain ⟨g, ms, g1, i1, i2, i3⟩ := h rnd hr mn mx R C hgr al hal mem a ha he k depth [n]
    (fun q hq hn => hd q.1 (List.mem_append_left _ (mem_on rs q hq hn)))
  obtain ⟨g', ms', g1', i1', i2', i3'⟩ := h' rnd hr mn mx R C hgr al hal mem' a' ha' he' k' depth' [n]
    (fun q hq hn => hd q.1 (List.mem_append_right _ (mem_on rs' q hq hn)))
  rcases i3 with _ | ⟨⟨b, s⟩, i3⟩
  cases i3
  rcases i3' with _ | ⟨⟨b', s'⟩, i3'⟩
  cases i3'
  refine ⟨g, _, g1, g', _, g1', i1, i2, i1', i2', ?_⟩
  intro p hmask hch fs fs' file stored hn hrd hst hf old
  have key := lookup_one p hmask _ _ old ⟨b, by rw [s.rows, s.cols]; exact hsz, by rw [s.rows, s.cols]; exact hch⟩
    (by rw [s.rows]; exact hgr.rpos) (by rw [s.cols]; exact hgr.cpos) b' fs fs' file stored hn hrd hst hf
  have hpos : ∀ q ∈ onLayer n rs, 0 ≤ q.w ∧ 0 ≤ q.h := by
    intro q hq
    obtain ⟨x, hx, rfl⟩ := List.mem_map.1 hq
    have := hp.sizes x (List.mem_filter.1 hx).1
    omega
  refine ⟨fun δ hcl hbig => ?_, fun K hK hbig => ?_⟩
  · obtain ⟨_, _, m2, h1, h2, h3, h4⟩ := C74_similar_found mn mx R C hgr.rpos hgr.cpos hgr.wpos hgr.hpos δ _ _ hcl hpos _ _ b b' s s' hbig
      (fun _ => true) (fun _ => .holds _) file hn rfl rfl
    cases h1
    rw [key, if_pos ⟨h2, h3, by rw [h2, h3]; exact h4⟩]
  · have hno := C74_different_not_found mn mx R C _ _ _ _ s s' K hK hbig (fun _ => true) (fun _ => .holds _) file rfl
    rw [key, if_neg]
    rintro ⟨h2, h3, h4⟩
    exact hno ⟨hn, rfl, _, rfl, h2, h3, by rw [← h2, ← h3]; exact h4⟩

/-! ### the hypotheses can be met -/

/-- The two files of C71 (one rectangle moved by 3 units and made 2 units higher), a window of a million units and a 5000 × 5000 grid:
the bitmap of the second is found under the name of the first. -/
example : ∃ w w', Msk.read (exEnv (Msk.fileText [10] (Msk.bytes "VERSION 1") (exRects.map Prod.fst))) 7 false
      ⟨{ fileName := exName }, {}, fun _ => {}⟩ = .ok true w ∧
    Msk.read (exEnv (Msk.fileText [10] (Msk.bytes "VERSION 1") (exRects2.map Prod.fst))) 7 false
      ⟨{ fileName := exName }, {}, fun _ => {}⟩ = .ok true w' ∧
    ∃ g m g1 g' m' g1', Verif.Client.renderLayers rne Alloc.ok (.ok 0) ⟨fun _ => w.data, w.heap⟩ 0 5000 5000 [23] g = some (.ok [m] g1) ∧
      Verif.Client.renderLayers rne Alloc.ok (.ok 0) ⟨fun _ => w'.data, w'.heap⟩ 0 5000 5000 [23] g' = some (.ok [m'] g1') ∧
      ∀ (fs fs' : LayoutMatrix.Fs) (stored : Nat), fs.readable [97] = true →
        (∀ h, LayoutMatrix.encodeHash m = .ok h → h.length ≤ stored) →
        LayoutMatrix.flushFile m [97] stored fs = .ok true fs' → ∀ old,
        Verif.Client.lookup ⟨false, true⟩ fs' old m' [[97]] = some [[97]] := by
  obtain ⟨w, w', e, e', h⟩ := C74_files _ _ _ _ _ _ _ _ _ _ _ _ ex_plain ex_plain2 7 7 (fun _ => {}) (fun _ => {}) (by simp) (by simp)
  have f1 : onLayer 23 exRects = [⟨20, 60, 25, 20, "ME"⟩] := by simp [exRects, onLayer]
  have f2 : onLayer 23 exRects2 = [⟨23, 60, 25, 22, "ME"⟩] := by simp [exRects2, onLayer]
  obtain ⟨g, m, g1, g', m', g1', _, h2, _, h4, h5⟩ := h rne rne_rounding ⟨0, 0⟩ ⟨1000000, 1000000⟩ 5000 5000
    ⟨by unfold inI32; decide, by unfold inI32; decide, by unfold inI32; decide, by decide, by decide, by decide, by decide, by decide, by decide⟩
    (by norm_num) Alloc.ok rfl ⟨fun _ => w.data, w.heap⟩ ⟨fun _ => w'.data, w'.heap⟩ 0 0 rfl rfl rfl rfl 0 0 0 0 23 (by
      rw [f1, f2]
      intro q hq _
      simp only [List.mem_append, List.mem_cons, List.not_mem_nil, or_false] at hq
      rcases hq with rfl | rfl <;>
      exact .inl ⟨by decide, by decide, by unfold inI32; decide, by unfold inI32; decide, by decide, by decide⟩)
  refine ⟨w, w', e, e', g, m, g1, g', m', g1', h2, h4, fun fs fs' stored hr hst hf old => ?_⟩
  refine (h5 ⟨false, true⟩ rfl (.inl rfl) fs fs' [97] stored (by simp) hr hst hf old).1 (3 / 200) ?_ ?_
  · rw [f1, f2]
    refine .cons ⟨?_, ?_, ?_, ?_⟩ .nil <;> unfold Client.Within <;> norm_num
  · rw [f1]
    simp only [List.map_cons, List.map_nil, List.sum_cons, List.sum_nil, rimCells]
    norm_num

end Verif.Props
