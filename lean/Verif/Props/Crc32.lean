import Verif.Proofs.Crc32Order

/-! Properties C24 and C25. -/

namespace Verif.Props
open Verif
open Verif.Spec (crc32 crcByte bitOf)

/-- **C24** the table-driven hash equals the bit-by-bit CRC-32 of the first `sz` bytes, for every buffer. -/
theorem C24_calcHash (s : List UInt8) (sz : Nat) (h0 : 0 < sz) (hl : sz ≤ s.length) :
    Crc32.calcHash (some s) sz = .ok (crc32 (s.take sz)) := by
  have h1 : sz ≠ 0 := by omega
  have h2 : ¬ s.length < sz := by omega
  simp [Crc32.calcHash, h1, h2, crc32, Crc32.foldl_step]

/-- **C24** null pointer or zero length throws `invalid_argument`. -/
theorem C24_throws (s : Option (List UInt8)) (sz : Nat) (h : s = none ∨ sz = 0) :
    Crc32.calcHash s sz = .throw .invalidArgument := by
  rcases h with h | h
  · subst h; rfl
  · cases s <;> simp [Crc32.calcHash, h]

/-- the hash is a 32-bit value -/
theorem C24_range (s : List UInt8) : crc32 s < 2 ^ 32 := Crc32.crc32_lt s

/-- **C25** buffers of equal length differing only inside a window of at most four consecutive bytes have
different hashes. -/
theorem C25_burst (p w w' q : List UInt8) (hl : w.length = w'.length) (h4 : w.length ≤ 4) (hne : w ≠ w')
    (x y : Nat) (hx : Crc32.calcHash (some (p ++ w ++ q)) (p ++ w ++ q).length = .ok x)
    (hy : Crc32.calcHash (some (p ++ w' ++ q)) (p ++ w' ++ q).length = .ok y) : x ≠ y := by
  have n1 : p ++ w ++ q ≠ [] := by
    intro h; rw [h] at hx; simp [Crc32.calcHash] at hx
  have n2 : p ++ w' ++ q ≠ [] := by
    intro h; rw [h] at hy; simp [Crc32.calcHash] at hy
  rw [Crc32.calcHash_eq _ n1] at hx
  rw [Crc32.calcHash_eq _ n2] at hy
  injection hx with hx
  injection hy with hy
  rw [← hx, ← hy]
  exact Crc32.crc32_window p w w' q hl h4 hne

/-- **C25** every single-byte change anywhere in any buffer changes the hash. -/
theorem C25_single_byte (s : List UInt8) (i : Nat) (hi : i < s.length) (b : UInt8) (hb : b ≠ s[i])
    (x y : Nat) (hx : Crc32.calcHash (some s) s.length = .ok x)
    (hy : Crc32.calcHash (some (s.set i b)) (s.set i b).length = .ok y) : x ≠ y := by
  have e1 : s = s.take i ++ [s[i]] ++ s.drop (i + 1) := by simp
  have e2 : s.set i b = s.take i ++ [b] ++ s.drop (i + 1) := by
    rw [List.set_eq_take_append_cons_drop, if_pos hi]; simp
  rw [e2] at hy
  have hx' : Crc32.calcHash (some (s.take i ++ [s[i]] ++ s.drop (i + 1)))
      (s.take i ++ [s[i]] ++ s.drop (i + 1)).length = .ok x := by rw [← e1]; exact hx
  exact C25_burst (s.take i) [s[i]] [b] (s.drop (i + 1)) rfl (by simp) (by simpa using hb.symm) x y hx' hy

theorem crcOk {s : List UInt8} {x : Nat} (h : Crc32.calcHash (some s) s.length = .ok x) : x = crc32 s := by
  have n : s ≠ [] := by
    rintro rfl; simp [Crc32.calcHash] at h
  rw [Crc32.calcHash_eq _ n] at h
  exact (Res.ok.inj h).symm

/-- **C25** The same for bursts that do not start at a byte: buffers of equal length whose differing bits all lie within 32
consecutive bits (bytes in order, least significant bit first) have different hashes. -/
theorem C25_burst_bits (s s' : List UInt8) (hl : s.length = s'.length) (hne : s ≠ s') (k : Nat)
    (hd : ∀ i, bitOf s i ≠ bitOf s' i → k ≤ i ∧ i < k + 32)
    (x y : Nat) (hx : Crc32.calcHash (some s) s.length = .ok x) (hy : Crc32.calcHash (some s') s'.length = .ok y) : x ≠ y := by
  rw [crcOk hx, crcOk hy]
  exact Crc32.crc32_burst s s' hl k hd hne

/-- **C25** Two flipped bits are missed exactly when their distance is a multiple of 2³² − 1. -/
theorem C25_two_bits (s s' : List UInt8) (hl : s.length = s'.length) (i j : Nat) (hij : i < j) (hj : j < 8 * s.length)
    (hd : ∀ k, bitOf s k ≠ bitOf s' k ↔ k = i ∨ k = j)
    (x y : Nat) (hx : Crc32.calcHash (some s) s.length = .ok x) (hy : Crc32.calcHash (some s') s'.length = .ok y) :
    x = y ↔ (2 ^ 32 - 1) ∣ j - i := by
  rw [crcOk hx, crcOk hy]
  exact Crc32.crc32_two_bits s s' hl i j hij hj hd

/-- **C25** So in buffers below half a gigabyte every change of one or two bits changes the hash. -/
theorem C25_two_bits_detected (s s' : List UInt8) (hl : s.length = s'.length) (hs : 8 * s.length < 2 ^ 32) (i j : Nat)
    (hij : i ≤ j) (hj : j < 8 * s.length) (hd : ∀ k, bitOf s k ≠ bitOf s' k ↔ k = i ∨ k = j)
    (x y : Nat) (hx : Crc32.calcHash (some s) s.length = .ok x) (hy : Crc32.calcHash (some s') s'.length = .ok y) : x ≠ y := by
  rcases Nat.eq_or_lt_of_le hij with h | h
  · subst h
    refine C25_burst_bits s s' hl ?_ i (fun k hk => ?_) x y hx hy
    · rintro rfl
      exact (hd i).2 (.inl rfl) rfl
    · have := (hd k).1 hk
      omega
  · rw [Ne, C25_two_bits s s' hl i j h hj hd x y hx hy]
    intro hdv
    have := Nat.le_of_dvd (by omega) hdv
    omega

/-- **C25** The hash protects against accidents, not against intent: whatever stands before and after, exactly one choice of
four bytes gives any wanted hash. -/
theorem C25_forge (p q : List UInt8) (t : Nat) (ht : t < 2 ^ 32) :
    ∃ w : List UInt8, w.length = 4 ∧ Crc32.calcHash (some (p ++ w ++ q)) (p ++ w ++ q).length = .ok t ∧
      ∀ w' : List UInt8, w'.length = 4 → Crc32.calcHash (some (p ++ w' ++ q)) (p ++ w' ++ q).length = .ok t → w' = w := by
  obtain ⟨w, hw, e⟩ := Crc32.crc32_four p q t ht
  have hne : p ++ w ++ q ≠ [] := by
    intro h
    have := congrArg List.length h
    simp [hw] at this
  have hok : Crc32.calcHash (some (p ++ w ++ q)) (p ++ w ++ q).length = .ok t := by
    rw [Crc32.calcHash_eq _ hne, e]
  refine ⟨w, hw, hok, fun w' hw' h => ?_⟩
  by_contra hc
  exact C25_burst p w w' q (by omega) (by omega) (fun h => hc h.symm) t t hok h rfl

-- C25_burst_bits, C25_two_bits: bits 6 and 9 of three bytes flipped
example : ∃ x y, Crc32.calcHash (some [1, 2, 3]) 3 = .ok x ∧ Crc32.calcHash (some [65, 0, 3]) 3 = .ok y ∧ x ≠ y := by
  refine ⟨_, _, C24_calcHash _ 3 (by decide) (by decide), C24_calcHash _ 3 (by decide) (by decide), ?_⟩
  refine C25_two_bits_detected [1, 2, 3] [65, 0, 3] rfl (by decide) 6 9 (by decide) (by decide) (fun k => ?_) _ _
    (C24_calcHash _ 3 (by decide) (by decide)) (C24_calcHash _ 3 (by decide) (by decide))
  by_cases h : k < 24
  · have : ∀ k : Fin 24, bitOf [1, 2, 3] k ≠ bitOf [65, 0, 3] k ↔ k.1 = 6 ∨ k.1 = 9 := by decide +kernel
    exact this ⟨k, h⟩
  · rw [Crc32.bitOf_false _ _ (by simp; omega), Crc32.bitOf_false _ _ (by simp; omega)]
    simp
    omega

-- the published check value: CRC-32 of "123456789"
example : crc32 [0x31, 0x32, 0x33, 0x34, 0x35, 0x36, 0x37, 0x38, 0x39] = 0xCBF43926 := by decide +kernel
example : Crc32.calcHash (some [1, 2, 3]) 3 = .ok (crc32 [1, 2, 3]) := C24_calcHash _ 3 (by decide) (by decide)
example : ∃ x y, Crc32.calcHash (some ([1] ++ [2, 3, 4, 5] ++ [6])) 6 = .ok x ∧
    Crc32.calcHash (some ([1] ++ [9, 3, 4, 0] ++ [6])) 6 = .ok y :=
  ⟨_, _, C24_calcHash _ 6 (by decide) (by decide), C24_calcHash _ 6 (by decide) (by decide)⟩

end Verif.Props
