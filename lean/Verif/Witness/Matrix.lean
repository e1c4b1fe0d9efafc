import Verif.Props.BitMatrix
import Verif.Props.BitMatrixRatio
import Verif.Props.ByteHandler
import Verif.Props.Vector2D
import Verif.Props.Serialize
import Verif.Props.Rle
import Verif.Props.Print
import Verif.Props.Unchecked

/-! Concrete cases of the hypotheses of the theorems about bits, vectors and matrices: every theorem with hypotheses is applied once. -/

namespace Verif.Witness
open Verif Props BitMatrix Spec

/-- 3 × 11, one bit on -/
def mA : BitMatrix := ⟨[[0, 0], [0, 0], [0, 32]], 3, 11⟩
/-- 3 × 11, two bits on -/
def mB : BitMatrix := ⟨[[128, 0], [0, 0], [0, 32]], 3, 11⟩
/-- 8 × 11, all bits on -/
def mQ : BitMatrix := ⟨List.replicate 8 [255, 224], 8, 11⟩
/-- 8 × 11, all bits on, in the last row also those after the last column -/
def mP : BitMatrix := ⟨List.replicate 7 [255, 224] ++ [[255, 255]], 8, 11⟩

theorem built_mA : Built mA := .set (.new 3 11 (by decide) (by decide)) (i := 2) (j := 10) (v := true) rfl
theorem built_mB : Built mB := .set built_mA (i := 0) (j := 0) (v := true) rfl
theorem built_mQ : Built mQ := .ones (.new 8 11 (by decide) (by decide)) (by decide +kernel)
theorem built_mP : Built mP := .setByte built_mQ (i := 7) (j := 1) (b := 255) (by decide +kernel)

example := C05_history Alloc.ok (fun _ _ => rfl) [.new 0 3 11, .set 0 2 10 true, .copy 1 0, .ones 0, .get 1 2 10] (by simp [Op.fits])
example := C05_set_get mA built_mA 1 4 true (by decide) (by decide)
example := C05_out_of_range mA 1 11 true (.inr (by decide))
example := C05_get_total mA built_mA 2 10 (by decide) (by decide)
example := C06_setRange mA built_mA 0 3 1 9 true (by decide) (by decide) (by decide) (by decide)
example := C06_setRange_throws mA 2 0 1 5 true (.inl (by decide))
example := C06_setRange_border mA built_mA 0 3 1 11 true (by decide) (by decide) (by decide) (by decide)
example := C07_ones mA built_mA (by decide) (by decide)
example := C07_ones_degenerate ⟨[], 0, 5⟩ (.inl rfl)
example := C07_zeros mA built_mA
example := C07_resize Alloc.ok mA 4 20 rfl
example := C08_xor mA mB built_mA built_mB rfl rfl (by decide) (by decide)
example := C08_xor_laws mA mB mA built_mA built_mB built_mA rfl rfl (by decide) (by decide) rfl rfl
example := C15_frame Alloc.ok (fun _ => mA) 1 [.ones 0, .set 0 7 7 true, .resize 2 3 3] (by decide)
example := C15_copy_then_write Alloc.ok (fun _ => mA) 0 1 [.ones 0, .set 0 7 7 true, .resize 2 3 3] (by decide)
example := C16_new_alloc_failure (fun _ _ => some 2) 3 11 2 rfl (by decide)
example := C16_resize_alloc_failure (fun _ _ => some 2) mA 5 20 2 (by decide) (by decide) rfl (by decide)
example := C56_randm (fun t k => t + k) 7 mA built_mA
example : ∃ a' b', BitMatrix.randm (fun t k => t + k) 7 mA = .ok () a' ∧ BitMatrix.randm (fun t k => t + k) 7 mB = .ok () b' ∧
    ∀ i j, i < 3 → j < 11 → BitMatrix.get a' i j = BitMatrix.get b' i j := by
  obtain ⟨a', ea, -⟩ := C56_randm (fun t k => t + k) 7 mA built_mA
  obtain ⟨b', eb, -⟩ := C56_randm (fun t k => t + k) 7 mB built_mB
  exact ⟨a', b', ea, eb, C56_same_second (fun t k => t + k) 7 mA mB a' b' built_mA built_mB rfl rfl ea eb⟩

example := C09_compare mA mB built_mA built_mB rfl rfl (by decide) (by decide) (by decide)
example := C09_compare_error mA mP (.inl (by decide))
example := C09_compare_symm mA mP built_mA built_mP (by decide)
example := C09_eq_ne_threshold mA mB built_mA built_mB rfl rfl (by decide) (by decide) (by decide)
example := C09_distance mA mB mA built_mA built_mB built_mA rfl rfl rfl rfl (by decide) (by decide) (by decide)
example := C09_small_exact mA mB built_mA built_mB rfl rfl (by decide) (by decide) (by decide)
example := C09_large_not_exact 100 100 (by decide) (by decide) (by decide)
example := C09_one_sided mA mB built_mA built_mB rfl rfl (by decide) (by decide) (by decide)
example := C09_threshold_blurred (2 ^ 28) (by decide) (by decide)
example := C09_empty_not_eq_self ⟨[], 0, 5⟩ (.inl rfl)
example := C10_ratio mA built_mA (by decide) (by decide) (by decide)
example := C10_range mA built_mA (by decide) (by decide) (by decide) true
example := C10_empty_nan BitMatrix.empty .default (.inl rfl)

example := C01_setBit_getBit 200 5 true (by decide)
example := C01_setBit_out_of_range 200 8 true (by decide)
example := C02_arr_throws (some [1, 2, 3]) 3 5 true (.inr (.inl (by decide)))
example := C02_arr_accepted [1, 2, 3, 4, 5, 6, 7, 8, 9] 40 true (by decide) (by decide) (by decide)
example := C03_getHigherBitPos 200 (by decide)
example := C03_getLowerBitPos 200 (by decide)
example := C03_calcRealByteCnt 70000 (by decide)
example := C04_resize (0 : UInt8) Alloc.ok 3 4 [[1, 2]] rfl
example := C04_counts (0 : UInt8) Alloc.ok 3 4 [[1, 2]] _ rfl rfl

example := C11_roundtrip mP built_mP (by decide) (by decide)
example := C12_format mA built_mA (by decide) (by decide)
example := C12_invalid_throws BitMatrix.empty .default (.inl rfl)
example := C12_injective mP mQ built_mP built_mQ (by decide) (by decide) (by decide) (by decide) (by decide) (by decide +kernel)
example := C13_second_length_ignored 2 8 9 [3, 0] [11, 0, 0, 0, 0, 0, 0, 0, 1, 2, 3, 4] rfl
example := C14_no_wrap_safe [1, 2, 3] 3 11 (by decide)
example : ∃ m, fromString Alloc.ok (List.replicate 24 49) 3 8 = .ok m ∧ ∀ j, j < 8 → BitMatrix.get m 2 j = .ok false :=
  ⟨_, rfl, fun j hj => C14_lost_rows (List.replicate 24 49) 3 8 _ (by decide) rfl j hj⟩

example := C26_injective mP mQ built_mP built_mQ (by decide) (by decide) rfl rfl (by decide +kernel)
example := C27_structure mA built_mA (by decide) (by decide)
example := C27_exact_code mA built_mA (by decide) (by decide) (fun i j => decide (i = 2 ∧ j = 10)) (by
  intro i j (hi : i < 3) (hj : j < 11)
  have h : ∀ i < 3, ∀ j < 11, BitMatrix.get mA i j = .ok (decide (i = 2 ∧ j = 10)) := by decide +kernel
  exact h i hi j hj)
example := C27_empty BitMatrix.empty .default (.inl rfl) Alloc.ok 3 5
example := C27_decode_total [131, 5, 2] (by decide) 3 4
example := C27_decode_allocFail (fun _ _ => some 2) [131, 5, 2] 3 4 (by decide)
example := C27_coefficient mA built_mA
example := C28_coefficient [1, 2, 3] (by decide)
example := C49_print mA built_mA
example := C49_injective mP mQ built_mP built_mQ (by decide) (by decide) (by decide +kernel)
example := C86_get mA built_mA 1 13
example := C86_set mA built_mA 1 13 true

end Verif.Witness
