import Verif.Props.TextContent
import Verif.Props.ShortText
import Verif.Witness.Text

/-! Concrete cases of the hypotheses of the theorems about what a text can carry. -/

namespace Verif.Witness
open Verif Props BitMatrix Spec Base64 LayoutMatrix HashText Ieee

set_option maxRecDepth 8000

/-- the stored bitmap `mA` is read back: its 160 characters carry at most 4 bytes of code -/
example : decodeHash ⟨true, true⟩ Alloc.ok hA = .ok mA ∧ countOf mA true ≤ 72 * 160 ∧
    ∀ f : Nat → Nat → Bool, (∀ i j, i < mA.isize → j < mA.jsize → BitMatrix.get mA i j = .ok (f i j)) → changes mA.isize mA.jsize f ≤ 4 := by
  have d : decodeHash ⟨true, true⟩ Alloc.ok hA = .ok mA := by decide +kernel
  obtain ⟨-, -, h⟩ := C97_content ⟨true, true⟩ hA (by decide) mA d (by decide)
  obtain ⟨h2, -⟩ := C97_ratio ⟨true, true⟩ hA (by decide) mA d (by decide) (by decide) (by decide)
  exact ⟨d, h2, h⟩

/-- two files of 160 characters that announce 524288 × 524288 cells each -/
example : ∃ h : List UInt8, h.length = 160 ∧ ∃ a b, readFile ⟨true, true⟩ Alloc.ok ⟨fun _ => some h, fun _ => true, fun _ => true⟩ [65] mA = .ok true a ∧
    readFile ⟨true, true⟩ Alloc.ok ⟨fun _ => some h, fun _ => true, fun _ => true⟩ [66] mA = .ok true b ∧ a.isize = 524288 ∧
    BitMatrix.opEq rne Alloc.ok a b = .ok true := by
  obtain ⟨h, hl, hd⟩ := C96_read_file ⟨true, true⟩ rfl 524288 524288 (by norm_num) (by norm_num) (by norm_num) (by norm_num)
    (.inr ⟨by unfold AsciiDim; decide, by unfold AsciiDim; decide⟩)
  obtain ⟨a, ea, a1, a2, -⟩ := (hd Alloc.ok ⟨fun _ => some h, fun _ => true, fun _ => true⟩ [65] (by decide) rfl rfl mA).1 rfl
  obtain ⟨b, eb, b1, b2, -⟩ := (hd Alloc.ok ⟨fun _ => some h, fun _ => true, fun _ => true⟩ [66] (by decide) rfl rfl mA).1 rfl
  exact ⟨h, hl, a, b, ea, eb, a1, C97_files _ 160 _ [65] [66] h h rfl rfl (by omega) (by omega) (by norm_num) a b mA mA ea eb (by omega) (by omega)
    (by rw [a1, a2]; norm_num) (by rw [a1, a2]; norm_num)⟩

end Verif.Witness
