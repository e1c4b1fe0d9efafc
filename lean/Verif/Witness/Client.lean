import Verif.Props.Area
import Verif.Props.AreaFile
import Verif.Props.AreaLookup
import Verif.Props.Similar
import Verif.Props.SimilarLocal
import Verif.Props.Lookup
import Verif.Props.LookupFiles
import Verif.Props.Client
import Verif.Props.FileHistory

/-! Concrete cases of the hypotheses of the theorems about bitmaps of layouts: how much is covered, how much two of them differ, which of them are
found again. -/

namespace Verif.Witness
open Verif Props BitMatrix Zond Spec Ieee Generator Spec.Client Spec.FileHistory

/-- one rectangle, drawn in a window that contains it -/
theorem exShown (mn mx : Coord) (R C : Nat) (hg : Props.Grid mn mx R C) (h1 : Client.StartsInside mn mx R C ⟨20, 60, 25, 20, "ME"⟩ ∨
    Client.Covers mn mx ⟨20, 60, 25, 20, "ME"⟩) :
    ∃ m, Built m ∧ Client.Shows mn mx R C [⟨20, 60, 25, 20, "ME"⟩] m := by
  obtain ⟨w', -, h⟩ := C62_file_to_bitmaps _ _ _ _ _ _ ex_plain 7 (fun _ => {}) (by simp)
  obtain ⟨g, ms, g', _, h2, h3⟩ := h rne rne_rounding mn mx R C hg Alloc.ok rfl ⟨fun _ => w'.data, w'.heap⟩ 0 rfl rfl 0 0 [23] (by
      intro q hq hn _
      simp only [exRects, List.mem_cons, List.not_mem_nil, or_false] at hq
      rcases hq with rfl | rfl
      · exact h1
      · simp at hn)
  rcases h3 with _ | ⟨⟨b, s⟩, -⟩
  exact ⟨_, b, by simpa [exRects] using s⟩

/-- … and one that is a little larger and to the right -/
theorem exShown2 (mn mx : Coord) (R C : Nat) (hg : Props.Grid mn mx R C) (h1 : Client.StartsInside mn mx R C ⟨23, 60, 25, 22, "ME"⟩) :
    ∃ m, Built m ∧ Client.Shows mn mx R C [⟨23, 60, 25, 22, "ME"⟩] m := by
  obtain ⟨w', -, h⟩ := C62_file_to_bitmaps _ _ _ _ _ _ ex_plain2 7 (fun _ => {}) (by simp)
  obtain ⟨g, ms, g', _, h2, h3⟩ := h rne rne_rounding mn mx R C hg Alloc.ok rfl ⟨fun _ => w'.data, w'.heap⟩ 0 rfl rfl 0 0 [23] (by
      intro q hq hn _
      simp only [exRects2, List.mem_cons, List.not_mem_nil, or_false] at hq
      subst hq
      exact .inl h1)
  rcases h3 with _ | ⟨⟨b, s⟩, -⟩
  exact ⟨_, b, by simpa [exRects2] using s⟩

theorem exGrid200 : Props.Grid ⟨0, 0⟩ ⟨200, 200⟩ 100 100 :=
  ⟨by unfold inI32; decide, by unfold inI32; decide, by unfold inI32; decide, by decide, by decide, by decide, by decide, by decide, by decide⟩
theorem exGrid200' : Props.Grid ⟨0, 0⟩ ⟨200, 200⟩ 50 120 :=
  ⟨by unfold inI32; decide, by unfold inI32; decide, by unfold inI32; decide, by decide, by decide, by decide, by decide, by decide, by decide⟩
theorem exGridM : Props.Grid ⟨0, 0⟩ ⟨1000000, 1000000⟩ 5000 5000 :=
  ⟨by unfold inI32; decide, by unfold inI32; decide, by unfold inI32; decide, by decide, by decide, by decide, by decide, by decide, by decide⟩

theorem exClose : List.Forall₂ (CloseRect ⟨0, 0⟩ ⟨200, 200⟩ 100 100 (3 / 2)) [⟨20, 60, 25, 20, "ME"⟩] [⟨23, 60, 25, 22, "ME"⟩] := by
  refine .cons ⟨?_, ?_, ?_, ?_⟩ .nil <;> unfold Client.Within <;> norm_num

theorem exCloseM : List.Forall₂ (CloseRect ⟨0, 0⟩ ⟨1000000, 1000000⟩ 5000 5000 (1 / 50)) [⟨20, 60, 25, 20, "ME"⟩] [⟨23, 60, 25, 22, "ME"⟩] := by
  refine .cons ⟨?_, ?_, ?_, ?_⟩ .nil <;> unfold Client.Within <;> norm_num

/-- two bitmaps of nearly the same rectangle -/
example : True := by
  obtain ⟨m, b, s⟩ := exShown ⟨0, 0⟩ ⟨200, 200⟩ 100 100 exGrid200 (.inl ⟨by decide, by decide, by unfold inI32; decide, by unfold inI32; decide, by decide, by decide⟩)
  obtain ⟨m', b', s'⟩ := exShown2 ⟨0, 0⟩ ⟨200, 200⟩ 100 100 exGrid200 ⟨by decide, by decide, by unfold inI32; decide, by unfold inI32; decide, by decide, by decide⟩
  obtain ⟨m2, b2, s2⟩ := exShown ⟨0, 0⟩ ⟨200, 200⟩ 50 120 exGrid200' (.inl ⟨by decide, by decide, by unfold inI32; decide, by unfold inI32; decide, by decide, by decide⟩)
  have _ := C91_area _ _ _ _ (by decide) (by decide) (by decide) (by decide) _ (by decide) m b s (by norm_num)
  have _ := C91_compare _ _ _ _ (by decide) (by decide) (by decide) (by decide) _ _ (by decide) m m' b b' s s' (by norm_num)
  have _ := C91_compare_finer _ _ _ _ 80 (by decide) (by decide) (by decide) (by decide) (by decide) _ _ (by decide) m m' b b' s s' (by norm_num)
  have _ := C91_two_grids _ _ _ _ _ _ 80 50 (by decide) (by decide) (by decide) (by decide) (by decide) (by decide) (by decide) (by decide) _ (by decide)
    m m2 b b2 s s2 (by norm_num) (by norm_num)
  have _ := C92_equal _ _ _ _ (by decide) (by decide) (by decide) (by decide) _ _ (by decide) m m' b b' s s' (by norm_num)
  have _ := C71_similar _ _ _ _ (by decide) (by decide) (by decide) (by decide) (3 / 2) _ _ exClose m m' b b' s s'
  have _ := C71_compare _ _ _ _ (by decide) (by decide) (by decide) (by decide) (3 / 2) _ _ exClose m m' b b' s s' (by norm_num)
  have _ := C71_similar_local _ _ _ _ (by decide) (by decide) (by decide) (by decide) (3 / 2) _ _ exClose (by decide) m m' b b' s s'
  have _ := C62_saved ⟨false, true⟩ rfl _ _ _ _ _ m BitMatrix.empty b s (by decide) (by decide) (by decide) (by decide) (.inl rfl)
    ⟨fun _ => none, fun _ => true, fun _ => true⟩
  trivial

/-- the small rectangles in a large window: their bitmaps count as equal, and the stored one is found -/
example : True := by
  obtain ⟨m, b, s⟩ := exShown ⟨0, 0⟩ ⟨1000000, 1000000⟩ 5000 5000 exGridM (.inl ⟨by decide, by decide, by unfold inI32; decide, by unfold inI32; decide, by decide, by decide⟩)
  obtain ⟨m', b', s'⟩ := exShown2 ⟨0, 0⟩ ⟨1000000, 1000000⟩ 5000 5000 exGridM ⟨by decide, by decide, by unfold inI32; decide, by unfold inI32; decide, by decide, by decide⟩
  have _ := C74_similar_found _ _ _ _ (by decide) (by decide) (by decide) (by decide) (1 / 50) _ _ exCloseM (by decide) m m' b b' s s'
    (by unfold rimCells; norm_num) (fun _ => true) (fun _ => .holds m) [97] (by decide) rfl rfl
  trivial

/-- a rectangle and an empty bitmap: the cells of row 60, columns 12 … 20 -/
theorem exOnly : ∀ p ∈ ((Finset.Ico 60 68) ×ˢ (Finset.Ico 12 20) : Finset (Nat × Nat)),
    OnlyInFirst ⟨0, 0⟩ ⟨200, 200⟩ 100 100 [⟨20, 60, 25, 20, "ME"⟩] [] p := by
  rintro ⟨i, j⟩ h
  simp only [Finset.mem_product, Finset.mem_Ico] at h
  obtain ⟨⟨h1, h2⟩, h3, h4⟩ := h
  refine ⟨by dsimp; omega, by dsimp; omega, ⟨_, List.mem_singleton.2 rfl, ?_⟩, by simp⟩
  have a1 : (60 : ℚ) ≤ i := by exact_mod_cast h1
  have a2 : (i : ℚ) ≤ 67 := by exact_mod_cast Nat.le_of_lt_succ h2
  have a3 : (12 : ℚ) ≤ j := by exact_mod_cast h3
  have a4 : (j : ℚ) ≤ 19 := by exact_mod_cast Nat.le_of_lt_succ h4
  unfold InRect centreX centreY Client.window Client.lt Client.rb wsW wsH
  norm_num
  refine ⟨?_, ?_, ?_, ?_⟩ <;> linarith

example : True := by
  obtain ⟨m, b, s⟩ := exShown ⟨0, 0⟩ ⟨200, 200⟩ 100 100 exGrid200 (.inl ⟨by decide, by decide, by unfold inI32; decide, by unfold inI32; decide, by decide, by decide⟩)
  have s0 : Client.Shows ⟨0, 0⟩ ⟨200, 200⟩ 100 100 [] (blank 100 100) := ⟨rfl, rfl, by simp, fun i j h => absurd h blank_dark⟩
  have _ := C71_different _ _ _ _ _ _ m _ s s0 _ exOnly
  have _ := C74_different_not_found _ _ _ _ _ _ m _ s s0 _ (.inl exOnly) (by decide) (fun _ => true) (fun _ => .holds m) [97] rfl
  trivial

/-- the rectangle fills a window of 44 × 50 cells, and the other bitmap is dark -/
example : True := by
  obtain ⟨m, b, s⟩ := exShown ⟨20, 60⟩ ⟨45, 80⟩ 44 50
    ⟨by unfold inI32; decide, by unfold inI32; decide, by unfold inI32; decide, by decide, by decide, by decide, by decide, by decide, by decide⟩
    (.inr ⟨by decide, by decide, by decide, by decide⟩)
  have s0 : Client.Shows ⟨20, 60⟩ ⟨45, 80⟩ 44 50 [] (blank 44 50) := ⟨rfl, rfl, by simp, fun i j h => absurd h blank_dark⟩
  have _ := C92_decided ⟨20, 60⟩ ⟨45, 80⟩ 44 (by decide) (by decide) (by decide) _ _ (by decide) (by
      have gap := C92_gap ⟨20, 60⟩ ⟨45, 80⟩ [⟨20, 60, 25, 20, "ME"⟩] []
      rw [C91_one_rectangle _ _ _ (by decide) (by decide) (by decide) (by decide) (by decide) (by decide)] at gap
      have e : coveredArea ⟨20, 60⟩ ⟨45, 80⟩ [] = 0 := by simp [coveredArea]
      rw [e] at gap
      refine lt_of_lt_of_le ?_ (le_abs_self _)
      simp only [roughness, List.cons_append, List.nil_append, List.map_cons, List.map_nil, List.sum_cons, List.sum_nil]
      norm_num at gap ⊢
      linarith) 44 50 (by decide) (by decide) (by norm_num) m _ b (built_blank (by omega) (by omega)) s s0
  trivial

example := C62_whole_layout _ _ _ _ _ _ ex_plain 7 (fun _ => {}) (by simp)

/-- an object is flushed, another one is read from the file -/
def w0 : World := ⟨fun o => if o = 0 then BitMatrix.new Alloc.ok 3 5 else BitMatrix.new Alloc.ok 1 1, fun _ => .absent⟩

example := C64_last_flush (fun _ => true) (fun _ => true) w0 _ _ 0 1 [97] _ (.flushed w0 0 [97] (by decide) rfl (by decide) (by decide))
  (.readHolds _ 1 [97] _ (by decide) rfl rfl) rfl

end Verif.Witness
