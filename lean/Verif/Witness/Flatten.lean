import Verif.Witness.Generator
import Verif.Props.Flatten

/-! Concrete cases of the hypotheses of the theorems of C99. -/

namespace Verif.Witness
open Verif Props Spec Converter

/-- counting for the sample without the cycle: three geometries (a rectangle and two path segments) from either element -/
theorem tree_counts : Counts sampleTree fun _ => 3 := by
  intro e
  by_cases h : e = 1
  · subst h; decide
  · have : sampleTree e = sampleElements 0 := by simp [sampleTree, h]
    rw [this]; show (3 : Nat) = ((sampleElements 0).geometries.map (contribution fun _ => 3)).sum; decide

theorem tree_sizes : SizesFit sampleTree := by
  intro e g hg
  unfold sampleTree at hg
  split at hg
  · exact sample_sizes 1 g hg
  · exact sample_sizes 0 g hg

theorem tree_split (d : Coord) (hd : d = ⟨100, 200⟩ ∨ d = ⟨103, 195⟩) :
    ∃ l, splitSref sampleTree 3 (some { type := .reference, element := some 1 }) d = some (.ok l) := by
  rcases hd with rfl | rfl <;> exact ⟨_, rfl⟩

example : ∃ l, splitSref sampleTree 3 (some { type := .reference, element := some 1 }) ⟨100, 200⟩ = some (.ok l) ∧ l.length = 3 ∧
    l.length ≤ 2 * 3 ^ 2 ∧ splitSref sampleTree 3 (some { type := .reference, element := some 1 }) ⟨103, 195⟩ = some (.ok (l.map (translate ⟨3, -5⟩))) := by
  obtain ⟨l, h⟩ := tree_split _ (.inl rfl)
  obtain ⟨l', h'⟩ := tree_split _ (.inr rfl)
  obtain ⟨-, -, hn⟩ := C99_count sampleTree tree_sizes _ tree_counts 3 _ _ l h
  have hm := C99_at_most sampleTree tree_sizes _ 3 2 (by decide) (by decide) tree_rank
    (fun e => by unfold sampleTree; split <;> decide)
    (fun e g hg ht => by
      unfold sampleTree at hg
      split at hg <;> simp [sampleElements] at hg
      · subst hg; cases ht
      · rcases hg with rfl | rfl | rfl
        · cases ht
        · decide
        · cases ht) 3 _ 1 rfl _ l h
  have ho := C99_offset sampleTree tree_sizes 3 3 _ ⟨100, 200⟩ ⟨3, -5⟩ l l' h (by
    rw [show shiftC ⟨100, 200⟩ ⟨3, -5⟩ = (⟨103, 195⟩ : Coord) from by decide]; exact h')
  have ha := C99_counts_agree sampleTree tree_sizes _ _ tree_counts tree_counts 3 _ 1 rfl _ l h
  exact ⟨l, h, hn, hm, by rw [← ho]; exact h'⟩

example : ∃ cnt, Counts sampleTree cnt := C99_counts_exist sampleTree _ tree_rank

/-- forty-one elements with eighty-one geometries: more than a million million rectangles -/
example : ∃ l, splitSref (doubling 40 (originRect 7)) 41 (some { type := .reference, element := some 0 }) ⟨0, 0⟩ = some (.ok l) ∧
    1000000000000 < l.length := by
  obtain ⟨-, -, h⟩ := C99_doubles 40 (originRect 7) rfl (by unfold GeomInRange inI32; decide)
  exact ⟨_, h _ rfl rfl, by rw [List.length_replicate]; norm_num⟩

end Verif.Witness
