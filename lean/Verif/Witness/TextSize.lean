import Verif.Props.TextSize
import Verif.Witness.Text

/-! Concrete cases of the hypotheses of the theorems about the length of texts. -/

namespace Verif.Witness
open Verif Props BitMatrix Zond Spec Ieee Generator Client

theorem blank33 : ∀ i j, i < 3 → j < 3 → BitMatrix.get (Generator.blank 3 3) i j = .ok false := by
  have h : ∀ (i j : Fin 3), BitMatrix.get (Generator.blank 3 3) i j = .ok false := by decide +kernel
  exact fun i j hi hj => h ⟨i, hi⟩ ⟨j, hj⟩

theorem built33 : Built (Generator.blank 3 3) := built_blank (by decide) (by decide)

theorem hash33 : ∃ h, LayoutMatrix.getHash (Generator.blank 3 3) = .ok h := by
  have : (match LayoutMatrix.encodeHash (Generator.blank 3 3) with | .ok _ => true | _ => false) = true := by decide +kernel
  split at this
  · rename_i h e; exact ⟨h, e⟩
  · cases this

/-- nine dark cells: no change, one byte, 168 characters -/
example : ∃ s h, Rle.encode (Generator.blank 3 3) = .ok s ∧ s.length = 1 ∧ LayoutMatrix.getHash (Generator.blank 3 3) = .ok h ∧
    h.length = 70 + linesLen (b64Len (b64Len 1 + 62)) ∧ h.length ≤ 300 := by
  obtain ⟨h, e⟩ := hash33
  obtain ⟨s, es, l1, l2⟩ := C95_code_size _ built33 (by decide) (by decide) (fun _ _ => false) blank33
  obtain ⟨s', es', l⟩ := C95_text_exact _ built33 (by decide) (by decide) h e
  rw [es] at es'
  cases es'
  obtain ⟨-, -, b⟩ := C95_text_size _ built33 (by decide) (by decide) (fun _ _ => false) blank33 h e
  have hc : changes 3 3 (fun _ _ => false) = 0 := by decide +kernel
  have h1 : s.length = 1 := by
    have : changes (Generator.blank 3 3).isize (Generator.blank 3 3).jsize (fun _ _ => false) = 0 := hc
    rw [this] at l1 l2
    have : (Generator.blank 3 3).isize * (Generator.blank 3 3).jsize = 9 := rfl
    rw [this] at l2
    omega
  rw [h1] at l
  exact ⟨s, h, es, h1, e, l, by rw [l]; decide⟩

/-- a picture of 4 × 5 cells with two boxes that overlap has 8 changes, at most 2·2·4 -/
example : UnionOfBoxes 2 4 5 (fun i j => decide (i ≤ 1 ∧ 1 ≤ j ∧ j ≤ 2) || decide (1 ≤ i ∧ i ≤ 3 ∧ 2 ≤ j ∧ j ≤ 3)) ∧
    changes 4 5 (fun i j => decide (i ≤ 1 ∧ 1 ≤ j ∧ j ≤ 2) || decide (1 ≤ i ∧ i ≤ 3 ∧ 2 ≤ j ∧ j ≤ 3)) = 8 := by
  refine ⟨⟨[(0, 1, 1, 2), (1, 3, 2, 3)], rfl, fun i j _ _ => ?_⟩, by decide +kernel⟩
  simp

example (h : List UInt8) (e : LayoutMatrix.getHash (Generator.blank 3 3) = .ok h) : changes 3 3 (fun _ _ => false) ≤ 0 :=
  le_trans (C95_boxes 0 _ built33 (by decide) (by decide) (fun _ _ => false) blank33 ⟨[], rfl, fun i j _ _ => by simp⟩ h e).1 (by simp)

theorem grid10 : Props.Grid ⟨0, 0⟩ ⟨100, 100⟩ 10 10 :=
  ⟨by unfold inI32; decide, by unfold inI32; decide, by unfold inI32; decide, by decide, by decide, by decide, by decide, by decide, by decide⟩

/-- layer 23 of a file has two rectangles: with 10 rows the text of its bitmap has at most 380 characters -/
example : ∃ m : BitMatrix, ∀ h, LayoutMatrix.getHash m = .ok h → h.length ≤ 380 := by
  obtain ⟨w, -, hh⟩ := C95_files _ _ _ _ _ _ exAll_plain 7 (fun _ => {}) (by simp)
  obtain ⟨g, ms, g', -, -, f⟩ := hh rne rne_rounding ⟨0, 0⟩ ⟨100, 100⟩ 10 10 grid10 Alloc.ok rfl ⟨fun _ => w.data, w.heap⟩ 0 rfl rfl 0 0 [23] (by
    intro q hq _ hme
    simp only [exAll, List.mem_cons, List.not_mem_nil, or_false] at hq
    rcases hq with rfl | rfl | rfl
    all_goals exact .inl ⟨by decide, by decide, by unfold inI32; decide, by unfold inI32; decide, by decide, by decide⟩)
  cases f with
  | cons hd _ =>
    refine ⟨_, fun h e => le_trans (hd h e) ?_⟩
    decide

/-- the same, through `Process` -/
example : ∃ g' : Generator, ∀ h, LayoutMatrix.getHash (getMatrix g') = .ok h → h.length ≤ 380 := by
  obtain ⟨mem, g, txt, g', hr, hfit, hp, hs⟩ := plain_process exAll_plain grid10 23 (by
    intro q hq _ hme
    simp only [exAll, List.mem_cons, List.not_mem_nil, or_false] at hq
    rcases hq with rfl | rfl | rfl
    all_goals exact .inl ⟨by decide, by decide, by unfold inI32; decide, by unfold inI32; decide, by decide, by decide⟩)
  refine ⟨g', fun h e => le_trans (C95_drawn rne g 7 ⟨0, 0⟩ ⟨100, 100⟩ [23] Alloc.ok 10 10 hr (by decide) (by decide) 0 mem 0 hfit
    ((exAll.filter fun q => q.2 = 23).map boxR) (fun s hsel => ?_) true txt g' hp h e) (by decide)⟩
  obtain ⟨q, hq, hn, -, rfl⟩ := (hs s).1 hsel
  exact List.mem_map.2 ⟨q, List.mem_filter.2 ⟨hq, by simpa using hn⟩, rfl⟩

end Verif.Witness
