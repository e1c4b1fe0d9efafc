import Verif.Witness.Matrix
import Verif.Props.Base64
import Verif.Props.Base64Decode
import Verif.Props.Crc32
import Verif.Props.Crc32Two
import Verif.Props.Crc32Three
import Verif.Props.HashText
import Verif.Props.LayoutMatrix
import Verif.Props.EncodeMemory
import Verif.Props.AssignMemory

/-! Concrete cases of the hypotheses of the theorems about encodings, checksums, hash texts and bitmap files. -/

namespace Verif.Witness
open Verif Props BitMatrix Spec Base64 LayoutMatrix HashText
open Verif.Spec.Msk (bytes)

set_option maxRecDepth 8000

example := C17_roundtrip [1, 2, 3, 4] (by decide) .mime (by decide)
example := C17_empty_throws .url (by decide)
example := C18_rfc4648 [1, 2, 3, 4] (by decide) true
example := C18_padding [1, 2, 3, 4] (by decide) true
example := C19_lines (List.replicate 200 7) (by decide) .pem 64 (.inl ⟨rfl, rfl⟩)
example := C19_strip (List.replicate 200 7) (by decide) .mime (.inr rfl)
example := C20_decode_total [65, 66, 67, 68] (by decide) rfl .url (.inr rfl)
example := C20_bad_char 33 [65, 66, 67] rfl
example := C20_short_group_ub [65, 66, 67, 68, 65] (by decide) (by decide)
example := C21_encode_injective [1, 2] [1, 2] (by decide) (by decide) .pem (by decide) rfl
example := C21_trailing_ignored [1, 2] [65, 33] (by decide) (by decide) false
example := C21_spare_bits 200 9 (by decide)
example := C21_alphabets_mixed [251, 255, 254] (by decide)

/-- the armored text of 4 bytes -/
theorem armor4 : base64Encode [1, 2, 3, 4] .radix64 = .ok [65, 81, 73, 68, 66, 65, 61, 61, 50, 105, 108, 87, 56, 103, 61, 61] := by decide +kernel
/-- and back -/
theorem armor4_back : base64Decode [65, 81, 73, 68, 66, 65, 61, 61, 50, 105, 108, 87, 56, 103, 61, 61] .radix64 = .ok [1, 2, 3, 4] := by decide +kernel

example := C22_format [1, 2, 3, 4] _ (by decide) armor4
example := C22_any_length [1, 2, 3, 4] (by decide)
example := C22_roundtrip_any_length [1, 2, 3, 4] _ armor4
example := C23_accepted _ [1, 2, 3, 4] (by decide) (by decide) armor4_back
example := C23_body_burst [65] [66, 67] [68, 68] [69] rfl (by decide) (by decide) (by decide)
example := C23_checksum_change [65, 81, 73, 68] [65, 65, 65, 65, 65, 65, 61, 61] (by decide) (by decide) rfl (by decide +kernel)
example := C23_single_char [1, 2, 3, 4] _ armor4 (by decide) 3 (by decide) 70 (by decide)

example := C20_exact [65, 66, 33] (by decide) .url (.inr rfl)
example := C20_exact_lines [65, 10, 66] .mime (.inr rfl)

example := C24_throws (some [1]) 0 (.inr rfl)
example := C25_burst [1] [2, 3, 4, 5] [9, 3, 4, 0] [6] rfl (by decide) (by decide) _ _
  (C24_calcHash _ 6 (by decide) (by decide)) (C24_calcHash _ 6 (by decide) (by decide))
example := C25_single_byte [1, 2, 3] 1 (by decide) 7 (by decide) _ _
  (C24_calcHash _ 3 (by decide) (by decide)) (C24_calcHash _ 3 (by decide) (by decide))

/-- the bits of `[1, 2, 3]` that are not those of `[65, 0, 3]` -/
theorem two_bits (k : Nat) : bitOf [1, 2, 3] k ≠ bitOf [65, 0, 3] k ↔ k = 6 ∨ k = 9 := by
  by_cases hk : k < 24
  · interval_cases k <;> decide
  · have e : ∀ a b c : UInt8, bitOf [a, b, c] k = false := fun a b c => by
      unfold bitOf
      rw [List.getD_eq_getElem?_getD, List.getElem?_eq_none (by simp; omega)]
      simp
    simp [e]; omega

/-- the bits of `[1, 2, 3]` that are not those of `[0, 0, 7]` -/
theorem three_bits (k : Nat) : bitOf [1, 2, 3] k ≠ bitOf [0, 0, 7] k ↔ k = 0 ∨ k = 9 ∨ k = 18 := by
  by_cases hk : k < 24
  · interval_cases k <;> decide
  · have e : ∀ a b c : UInt8, bitOf [a, b, c] k = false := fun a b c => by
      unfold bitOf
      rw [List.getD_eq_getElem?_getD, List.getElem?_eq_none (by simp; omega)]
      simp
    simp [e]; omega

example := C25_burst_bits [1, 2, 3] [65, 0, 3] rfl (by decide) 5 (fun i h => by rcases (two_bits i).1 h with h | h <;> omega) _ _
  (C24_calcHash _ 3 (by decide) (by decide)) (C24_calcHash _ 3 (by decide) (by decide))
example := C25_two_bits [1, 2, 3] [65, 0, 3] rfl 6 9 (by decide) (by decide) two_bits _ _
  (C24_calcHash _ 3 (by decide) (by decide)) (C24_calcHash _ 3 (by decide) (by decide))
example := C25_forge [1, 2] [3] 12345 (by decide)
example := C25_two_bytes_missed (List.replicate 145213 7) (by rw [List.length_replicate]; decide)
example := C25_three_bits_near [1, 2, 3] [0, 0, 7] rfl 0 9 18 (by decide) (by decide) (by decide) (by decide) three_bits _ _
  (C24_calcHash _ 3 (by decide) (by decide)) (C24_calcHash _ 3 (by decide) (by decide))
example := C25_three_bits_missed (List.replicate 11455 7) (by rw [List.length_replicate])
example := C23_three_bits [1, 2, 3] [0, 0, 7] rfl (by decide) (by decide) 0 9 18 (fun t h => (three_bits t).1 h)
example := C23_two_chars [65, 81, 73, 68] (by decide) (by decide) (([65, 81, 73, 68] ++ checksumText [65, 81, 73, 68]).set 1 66 |>.set 7 66)
  (by simp) (by decide +kernel) 1 7 (fun i h1 h7 => by rw [List.getElem?_set_ne (Ne.symm h7), List.getElem?_set_ne (Ne.symm h1)])

/-- the hash text of `mA` -/
def hA : List UInt8 := [45,45,45,45,45,45,45,45,45,66,69,71,73,78,95,77,65,84,82,73,88,45,45,45,45,45,45,45,45,45,13,10,83,85,108,70,80,86,57,102,85,69,70,83,81,85,49,70,86,69,86,83,85,49,57,102,88,49,57,84,83,86,112,70,88,49,57,66,81,85,70,66,81,85,70,66,81,85,70,66,81,85,120,66,81,85,70,66,81,88,100,66,81,85,70,66,80,84,49,102,88,48,86,79,81,48,57,69,13,10,82,86,57,85,87,86,66,70,88,49,56,68,70,108,101,119,73,81,61,61,13,10,45,45,45,45,45,45,45,45,45,69,78,68,95,77,65,84,82,73,88,45,45,45,45,45,45,45,45,45]

theorem enc_mA : encodeHash mA = .ok hA := by decide +kernel

/-- a change of one byte changes bits of that byte only -/
theorem bitOf_set {s : List UInt8} {i : Nat} {b : UInt8} {t : Nat} (h : t / 8 ≠ i) : bitOf (s.set i b) t = bitOf s t := by
  unfold bitOf
  rw [List.getD_eq_getElem?_getD, List.getD_eq_getElem?_getD, List.getElem?_set_ne (Ne.symm h)]

example := C31_two_chars ⟨true, true⟩ Alloc.ok mA built_mA (by decide) (by decide) hA enc_mA (by decide) ((hA.set 40 65).set 50 66)
  (by simp) (by decide) 40 50 (fun t h1 h2 => by rw [List.getElem?_set_ne (Ne.symm h2), List.getElem?_set_ne (Ne.symm h1)])
example := C31_three_bits ⟨true, true⟩ Alloc.ok mA built_mA (by decide) (by decide) hA enc_mA (by decide) (hA.set 33 82)
  (by simp) (by decide) 264 265 266
  (fun t h => by
    by_cases ht : t / 8 = 33
    · have h1 : 264 ≤ t := by omega
      have h2 : t < 272 := by omega
      interval_cases t <;> first | decide | exact absurd rfl h
    · exact absurd (bitOf_set ht).symm h)
  (fun q h1 h2 => List.getElem?_set_ne (by have : hA.length = 160 := by decide
                                           omega))
example := C31_outside_body ⟨true, true⟩ Alloc.ok mA built_mA (by decide) (by decide) hA enc_mA (by decide) (hA.set 3 82)
  (by simp) (by decide) (fun q h1 h2 => List.getElem?_set_ne (by omega))

/-! hash texts -/

/-- the hash of `mA` is a code text, read back by every platform with the masked shift -/
example : ∃ code m, IsCode false hA 3 11 code ∧ decodeHash ⟨false, true⟩ Alloc.ok hA = .ok m ∧ m.isize = 3 ∧ m.jsize = 11 := by
  obtain ⟨code, hc⟩ := C70_own_hash mA built_mA (by decide) (by decide) (by decide) (by decide) hA enc_mA (by decide)
  obtain ⟨m, h1, -, h2, h3, -⟩ := C70_code ⟨false, true⟩ rfl hA (by decide) 3 11 code hc
  exact ⟨code, m, hc, h1, h2, h3⟩

/-- the armored text of one raw cell -/
def rawText : List UInt8 := [81,86,57,102,85,69,70,83,81,85,49,70,86,69,86,83,85,49,57,102,88,49,57,84,83,86,112,70,88,49,57,66,85,85,70,66,81,85,70,70,81,85,70,66,81,85,70,66,81,85,70,66,81,85,70,66,81,85,70,66,80,84,49,102,88,48,86,79,81,48,57,69,82,86,57,85,13,10,87,86,66,70,88,49,56,65,71,122,103,69,106,103,61,61]

theorem raw_decode : base64Decode rawText .radix64 =
    .ok ([65] ++ lit "__PARAMETERS__" ++ lit "__SIZE__" ++ [65, 81, 65, 65, 65, 65, 69, 65, 65, 65, 65, 65, 65, 65, 65, 65, 65, 65, 65, 65, 65, 65, 61, 61] ++ lit "__ENCODE_TYPE__" ++ [0]) := by
  decide +kernel

/-- the hash text around it -/
def rawHash : List UInt8 := strBegin ++ rawText ++ strEnd

theorem raw_read : decodeHash ⟨true, true⟩ Alloc.ok rawHash = .ok ⟨[[65]], 1, 0⟩ := by decide +kernel

example := C30_raw_hash_unreadable ⟨true, true⟩ Alloc.ok rawText [65] _ 0 rfl raw_decode (by decide) _ raw_read
example := C31_accepted ⟨true, true⟩ Alloc.ok rawHash _ (by decide +kernel) raw_read

theorem framed_long {h body : List UInt8} (e : Framed h body) : 32 ≤ h.length := by
  rw [e.2]
  have : (bytes "---------BEGIN_MATRIX---------\r\n").length = 32 := by decide +kernel
  simp only [List.length_append, this]
  omega

/-- a short text is none of the three kinds -/
example : ∃ e, decodeHash ⟨true, true⟩ Alloc.ok [65, 66, 67] = .throw e :=
  have no : ∀ body, ¬ Framed [65, 66, 67] body := fun _ h => absurd (framed_long h) (by decide)
  C70_otherwise ⟨true, true⟩ rfl [65, 66, 67] (by decide)
    (fun _ _ _ h => let ⟨_, _, _, _, ⟨b, hb, _⟩, _⟩ := h; no b hb)
    (fun _ _ _ h => let ⟨_, _, _, ⟨b, hb, _⟩, _⟩ := h; no b hb)
    (fun h => by
      rcases h with ⟨b, hb, _⟩ | ⟨_, _, _, _, _, _, ⟨b, hb, _⟩⟩ | ⟨_, _, _, _, _, _, ⟨b, hb, _⟩⟩ <;> exact no b hb)

example := C70_strict ⟨true, false⟩ rfl Alloc.ok hA (by decide)

/-- every file readable and writable, the file `[65]` holding the hash of `mA` -/
def fsA : Fs := ⟨fun n => if n = [65] then some hA else none, fun _ => true, fun _ => true⟩

example := C70_read_file ⟨true, true⟩ rfl fsA [65] hA (by decide) rfl rfl (by decide) BitMatrix.empty
example := C30_strict_ub ⟨true, false⟩ rfl Alloc.ok mA built_mA (by decide) (by decide) hA enc_mA

/-- 1 × 128, no bit on -/
def mW : BitMatrix := ⟨[List.replicate 16 0], 1, 128⟩
theorem built_mW : Built mW := .new 1 128 (by decide) (by decide)
example : ∃ h m', encodeHash mW = .ok h ∧ decodeHash ⟨true, true⟩ Alloc.ok h = .ok m' ∧ m'.isize ≠ 1 := by
  rcases (C30_encode_total _ built_mW).2 (by decide) (by decide) with h | ⟨h, e⟩ | ⟨h, _⟩
  · exact absurd h (by decide +kernel)
  · obtain ⟨m', h1, h2⟩ := C30_signed_char_corrupts ⟨true, true⟩ rfl rfl Alloc.ok mW built_mW (by decide) (by decide) (by decide) (by decide)
      (fun hc => absurd hc.2 (by decide)) h e
    exact ⟨h, m', e, h1, h2⟩
  · exact absurd h (by decide +kernel)

example := C30_hash_faithful mA mB built_mA built_mB (by decide) (by decide) (by decide) (by decide) (by decide) (by decide) (by decide) (by decide)
example := C31_single_char ⟨true, true⟩ Alloc.ok mA built_mA (by decide) (by decide) hA enc_mA (by decide) 5 (by decide) 70 (by decide)
example := C31_prefix ⟨true, true⟩ Alloc.ok mA built_mA (by decide) (by decide) hA enc_mA 100 (by decide)
example : ∃ fs' m', flushFile mA [66] 160 fsA = .ok true fs' ∧ readFile ⟨true, true⟩ Alloc.ok fs' [66] BitMatrix.empty = .ok true m' ∧ SameBits mA m' := by
  obtain ⟨fs', e, -⟩ := C33_crash_points mA fsA [66] (by decide) rfl hA enc_mA 160
  obtain ⟨m', h1, h2⟩ := C32_flush_read ⟨true, true⟩ rfl mA BitMatrix.empty built_mA (by decide) (by decide) (by decide) (by decide)
    (.inr ⟨by decide, by decide⟩) fsA fs' [66] 160 (by decide) rfl rfl (fun h e => by rw [enc_mA] at e; cases e; decide) e
  exact ⟨fs', m', e, h1, h2⟩
example := C32_torn_write_detected ⟨true, true⟩ Alloc.ok mA BitMatrix.empty built_mA (by decide) (by decide) fsA [66] 100 (by decide) rfl rfl hA enc_mA (by decide)
example : ∃ fs', flushFile mA [66] 100 fsA = .ok true fs' ∧ fs'.files [65] = some hA := by
  obtain ⟨fs', e, -⟩ := C33_crash_points mA fsA [66] (by decide) rfl hA enc_mA 100
  exact ⟨fs', e, C32_flush_other_files mA [66] 100 fsA fs' true .badAlloc (.inl e) [65] (by decide)⟩
example := C33_flush_destroys BitMatrix.empty fsA [65] 100 (by decide) rfl .invalidArgument rfl
example := C33_flush_empty_matrix fsA [65] 100 (by decide) rfl

/-! memory -/

example : ∃ e fs', EncodeMemory.flushFile (fun n => decide (n < 9)) true true mA [65] 100 fsA = .throw e fs' ∧
    readFile ⟨true, true⟩ Alloc.ok fs' [65] BitMatrix.empty = .throw .invalidArgument BitMatrix.empty := by
  obtain ⟨fs', e, -⟩ := (C77_square_refused (fun n => decide (n < 9)) mA built_mA (by decide) (by decide) (by decide)).2.2 fsA [65] 100 (by decide) rfl
  exact ⟨_, fs', e, C77_stored_bitmap_lost _ mA BitMatrix.empty built_mA (by decide) (by decide) (by decide) ⟨true, true⟩ Alloc.ok fsA fs' [65] 100 _
    (by decide) rfl rfl e⟩
example := C77_too_many_rows (fun n => decide (n < 2 ^ 40)) (fun n h => by simp; omega) (Generator.blank (2 ^ 31) 1)
  (built_blank (by decide) (by decide)) (by decide) (by decide) (by decide)
example := C77_byte_encode (fun n => decide (n < 9)) [1, 2, 3] (by decide)
example := C77_text_length mA built_mA (by decide) (by decide) hA enc_mA
example := C77_out_of_proportion 1000 (by decide) (by decide)
example := C79_assign_throws ⟨3, [1, 1, 1], 1⟩ ⟨[[0], [0], [0]], 3, 8⟩ mA (.new 3 8 (by decide) (by decide)) built_mA .badAlloc ⟨[[0, 0], [0], [0]], 3, 8⟩
  (by decide +kernel)
example := C79_strong ⟨2, [1, 1], 2⟩ ⟨[[0], [0]], 2, 8⟩ mA built_mA (by decide) .badAlloc ⟨[[0], [0]], 2, 8⟩ (by decide +kernel)
example := C79_move_terminates 3 mA built_mA (by decide) (by decide) [1]

end Verif.Witness
