import Verif.Props.ShortText
import Verif.Witness.Text

/-! Concrete cases of the hypotheses of the theorems about short texts that announce large matrices. -/

namespace Verif.Witness
open Verif Props BitMatrix Spec Base64 LayoutMatrix HashText

/-- no more than 1000 rows are ever granted -/
def al1000 : Alloc := fun r _ => if r ≤ 1000 then none else some 1000

/-- a file of 160 characters that announces 2000 × 100 cells: read when there is memory, not a hash otherwise -/
example : ∃ h : List UInt8, h.length = 160 ∧
    (∃ m, readFile ⟨false, true⟩ Alloc.ok ⟨fun _ => some h, fun _ => true, fun _ => true⟩ [65] mA = .ok true m ∧ m.isize = 2000 ∧ m.jsize = 100) ∧
    readFile ⟨false, true⟩ al1000 ⟨fun _ => some h, fun _ => true, fun _ => true⟩ [65] mA = .ok false mA := by
  obtain ⟨h, hl, hd⟩ := C96_read_file ⟨false, true⟩ rfl 2000 100 (by norm_num) (by norm_num) (by norm_num) (by norm_num) (.inl rfl)
  obtain ⟨m, e, d1, d2, -⟩ := (hd Alloc.ok ⟨fun _ => some h, fun _ => true, fun _ => true⟩ [65] (by decide) rfl rfl mA).1 rfl
  refine ⟨h, hl, ⟨m, e, d1, d2⟩, (hd al1000 ⟨fun _ => some h, fun _ => true, fun _ => true⟩ [65] (by decide) rfl rfl mA).2 1000 (by norm_num) ?_⟩
  simp [al1000]

/-- with signed characters, dimensions made of ASCII bytes do the same -/
example : ∃ h : List UInt8, h.length = 160 ∧ decodeHash ⟨true, true⟩ al1000 h = .ok BitMatrix.empty := by
  obtain ⟨h, hl, hd⟩ := C96_short_text ⟨true, true⟩ rfl 2064 100 (by norm_num) (by norm_num)
    (.inr ⟨by unfold AsciiDim; decide, by unfold AsciiDim; decide⟩)
  refine ⟨h, hl, (hd al1000).2 1000 (by norm_num) ?_⟩
  simp [al1000]

/-- one row of 128 cells, stored by the library: with signed characters its text asks for 2³¹ rows, and the file cannot be read -/
example : ∃ h, encodeHash mW = .ok h ∧ (∃ m', decodeHash ⟨true, true⟩ Alloc.ok h = .ok m' ∧ 2 ^ 31 ≤ m'.isize) ∧
    readFile ⟨true, true⟩ al1000 ⟨fun _ => some h, fun _ => true, fun _ => true⟩ [65] mA = .ok false mA := by
  rcases (C30_encode_total _ built_mW).2 (by decide) (by decide) with h | ⟨h, e⟩ | ⟨h, _⟩
  · exact absurd h (by decide +kernel)
  · obtain ⟨k1, k2⟩ := C96_signed ⟨true, true⟩ rfl rfl mW built_mW (by decide) (by decide) (by decide) (by decide)
      (fun hc => absurd hc.2 (by decide)) h e
    refine ⟨h, e, k1, (k2 al1000 fun r b hr => ⟨1000, by omega, ?_⟩).2 ⟨fun _ => some h, fun _ => true, fun _ => true⟩ [65] (by decide) rfl rfl mA⟩
    unfold al1000
    rw [if_neg (by omega)]
  · exact absurd h (by decide +kernel)

end Verif.Witness
