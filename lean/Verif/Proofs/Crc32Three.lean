import Verif.Proofs.Crc32Search

/-! Three flipped bits. -/

namespace Verif.Crc32
open Spec

/-- no two of the first 91639 states differ in the last bit alone -/
theorem no_pair (i j : Nat) (hi : i < 91639) (hj : j < 91639) : crcBits i 1 ^^^ crcBits j 1 ≠ 1 := by
  obtain ⟨A, B, h, _, _, hst⟩ := gen3_spec _ _ _ _ _ search3
  have hd := disj3_spec _ _ _ _ h
  have key : ∀ i j, i < 91639 → j < 91639 → crcBits i 1 % 2 = 0 → crcBits i 1 ^^^ crcBits j 1 ≠ 1 := by
    intro i j hi hj h0 hx
    have e : crcBits j 1 = crcBits i 1 ^^^ 1 := by
      apply xor_cancel_l (c := crcBits i 1)
      rw [hx, ← Nat.xor_assoc, Nat.xor_self, Nat.zero_xor]
    have h1 : crcBits j 1 % 2 = 1 := by rw [e, xor_mod2]; omega
    have h2 : crcBits j 1 / 2 = crcBits i 1 / 2 := by
      rw [e, ← Nat.shiftRight_one, Nat.shiftRight_xor_distrib, Nat.shiftRight_one, Nat.shiftRight_one]
      simp
    have m1 := (hst i hi).1 h0
    have m2 := (hst j hj).2 h1
    rw [h2] at m2
    exact hd _ m1 m2
  rcases Nat.mod_two_eq_zero_or_one (crcBits i 1) with h0 | h0
  · exact key i j hi hj h0
  · intro hx
    have h1 : crcBits j 1 % 2 = 0 := by
      have := congrArg (· % 2) hx
      simp only [xor_mod2] at this
      omega
    exact key j i hj hi h1 (by rw [Nat.xor_comm]; exact hx)

/-- state 91639 and state 41678 do -/
theorem first_pair : crcBits 91639 1 ^^^ crcBits 41678 1 = 1 := by
  rw [crcBits_run 91639 1 (by norm_num) (by norm_num), crcBits_run 41678 1 (by norm_num) (by norm_num)]
  decide +kernel

theorem testBit_one (n : Nat) : (1 : Nat).testBit n = decide (n = 0) := by
  cases n with
  | zero => rfl
  | succ n => simp [Nat.testBit_succ]

/-- the difference of two strings that differ in exactly three bits -/
theorem three_diff (s s' : List UInt8) (i j k : Nat) (hij : i < j) (hjk : j < k)
    (hd : ∀ t, bitOf s t ≠ bitOf s' t ↔ t = i ∨ t = j ∨ t = k) :
    leVal s ^^^ leVal s' = (1 ^^^ (1 <<< (j - i)) ^^^ (1 <<< (k - i))) <<< i := by
  apply Nat.eq_of_testBit_eq
  intro t
  rw [Nat.testBit_xor, leVal_testBit, leVal_testBit, Nat.testBit_shiftLeft, Nat.testBit_xor, Nat.testBit_xor, Nat.testBit_shiftLeft,
    Nat.testBit_shiftLeft, testBit_one, testBit_one, testBit_one]
  have ht := hd t
  have e : (bitOf s t ^^ bitOf s' t) = decide (t = i ∨ t = j ∨ t = k) := by
    by_cases h : t = i ∨ t = j ∨ t = k
    · have := ht.2 h
      cases hs : bitOf s t <;> cases hs' : bitOf s' t <;> simp_all
    · have : bitOf s t = bitOf s' t := by
        by_contra hc
        exact h (ht.1 hc)
      rw [this]
      simp [h]
  rw [e]
  have d1 : decide (t - i = 0) = decide (t ≤ i) := by congr 1; exact propext (by omega)
  have d2 : (decide (t - i ≥ j - i) && decide (t - i - (j - i) = 0)) = decide (j - i ≤ t - i ∧ t - i - (j - i) = 0) := by simp
  have d3 : (decide (t - i ≥ k - i) && decide (t - i - (k - i) = 0)) = decide (k - i ≤ t - i ∧ t - i - (k - i) = 0) := by simp
  rw [d1, d2, d3]
  by_cases a1 : i ≤ t
  · by_cases c1 : t = i
    · subst c1
      have n1 : ¬ (j - t ≤ t - t ∧ t - t - (j - t) = 0) := by omega
      have n2 : ¬ (k - t ≤ t - t ∧ t - t - (k - t) = 0) := by omega
      rw [decide_eq_false n1, decide_eq_false n2]
      simp
    · have n1 : ¬ t ≤ i := by omega
      by_cases c2 : t = j
      · subst c2
        have y : t - i ≤ t - i ∧ t - i - (t - i) = 0 := by omega
        have : ¬ (k - i ≤ t - i ∧ t - i - (k - i) = 0) := by omega
        simp only [a1, n1, y, this, c1]
        simp
      · have n2 : ¬ (j - i ≤ t - i ∧ t - i - (j - i) = 0) := by omega
        by_cases c3 : t = k
        · subst c3
          have y : t - i ≤ t - i ∧ t - i - (t - i) = 0 := by omega
          simp only [a1, n1, n2, y, c1, c2]
          simp
        · have n3 : ¬ (k - i ≤ t - i ∧ t - i - (k - i) = 0) := by omega
          simp only [a1, n1, n2, n3, c1, c2, c3]
          simp
  · have c1 : ¬ (t = i ∨ t = j ∨ t = k) := by omega
    rw [decide_eq_false c1]
    simp [a1]

theorem crc32_three_iff (s s' : List UInt8) (hl : s.length = s'.length) (i j k : Nat) (hij : i < j) (hjk : j < k)
    (hk : k < 8 * s.length) (hd : ∀ t, bitOf s t ≠ bitOf s' t ↔ t = i ∨ t = j ∨ t = k) :
    crc32 s = crc32 s' ↔ crcBits (k - i) 1 ^^^ crcBits (k - j) 1 = 1 := by
  rw [crcBits_diff s s' hl i _ (by omega) (three_diff s s' i j k hij hjk hd)]
  have e1 : 8 * s.length - i = (k - i) + (8 * s.length - k) := by omega
  have e2 : k - i = (j - i) + (k - j) := by omega
  have hv : crcBits (k - i) (1 ^^^ (1 <<< (j - i)) ^^^ (1 <<< (k - i))) = crcBits (k - i) 1 ^^^ crcBits (k - j) 1 ^^^ 1 := by
    rw [crcBits_xor, crcBits_xor, crcBits_shift]
    congr 2
    conv => lhs; rw [e2, crcBits_add, crcBits_shift]
  rw [e1, crcBits_add, hv]
  constructor
  · intro h
    have := crcBits_zero_inj _ _ (Nat.xor_lt_two_pow (Nat.xor_lt_two_pow (crcBits_lt _ _ (by norm_num)) (crcBits_lt _ _ (by norm_num))) (by norm_num)) h
    exact xor_zero_eq this
  · intro h
    rw [h, Nat.xor_self, crcBits_zero]

theorem crc32_three (s s' : List UInt8) (hl : s.length = s'.length) (i j k : Nat) (hij : i < j) (hjk : j < k)
    (hk : k < 8 * s.length) (hspan : k - i < 91639) (hd : ∀ t, bitOf s t ≠ bitOf s' t ↔ t = i ∨ t = j ∨ t = k) :
    crc32 s ≠ crc32 s' := by
  rw [Ne, crc32_three_iff s s' hl i j k hij hjk hk hd]
  exact no_pair _ _ hspan (by omega)

/-- every string of 11455 bytes or more has a partner -/
theorem crc32_three_missed (s : List UInt8) (hs : 11455 ≤ s.length) : ∃ s' : List UInt8, s'.length = s.length ∧
    (∀ t, bitOf s t ≠ bitOf s' t ↔ t = 0 ∨ t = 49961 ∨ t = 91639) ∧ crc32 s = crc32 s' := by
  let d := 1 ^^^ (1 <<< 49961) ^^^ (1 <<< 91639)
  have hd : d < 256 ^ s.length := by
    have h0 : d < 2 ^ 91640 := by
      apply Nat.xor_lt_two_pow (Nat.xor_lt_two_pow ?_ ?_) ?_
      · exact Nat.one_lt_two_pow (by norm_num)
      · rw [Nat.shiftLeft_eq, Nat.one_mul]; exact Nat.pow_lt_pow_right (by norm_num) (by norm_num)
      · rw [Nat.shiftLeft_eq, Nat.one_mul]; exact Nat.pow_lt_pow_right (by norm_num) (by norm_num)
    refine lt_of_lt_of_le h0 ?_
    rw [show (256 : Nat) = 2 ^ 8 by rfl, ← Nat.pow_mul]
    exact Nat.pow_le_pow_right (by norm_num) (by omega)
  have hlt : leVal s ^^^ d < 256 ^ s.length := by
    have h1 := leVal_lt' s
    rw [show (256 : Nat) = 2 ^ 8 by rfl, ← Nat.pow_mul] at h1 hd ⊢
    exact Nat.xor_lt_two_pow h1 hd
  obtain ⟨s', h1, h2⟩ := leVal_surj s.length _ hlt
  have hbit : ∀ t, bitOf s' t = (bitOf s t ^^ (decide (t = 0) ^^ decide (t = 49961) ^^ decide (t = 91639))) := by
    intro t
    rw [← leVal_testBit, h2, Nat.testBit_xor, leVal_testBit]
    congr 1
    simp only [d]
    rw [Nat.testBit_xor, Nat.testBit_xor, Nat.testBit_shiftLeft, Nat.testBit_shiftLeft, testBit_one, testBit_one, testBit_one]
    have a1 : (decide (t ≥ 49961) && decide (t - 49961 = 0)) = decide (t = 49961) := by
      rw [← Bool.decide_and]; congr 1; exact propext (by omega)
    have a2 : (decide (t ≥ 91639) && decide (t - 91639 = 0)) = decide (t = 91639) := by
      rw [← Bool.decide_and]; congr 1; exact propext (by omega)
    rw [a1, a2]
  have hdiff : ∀ t, bitOf s t ≠ bitOf s' t ↔ t = 0 ∨ t = 49961 ∨ t = 91639 := by
    intro t
    rw [hbit]
    by_cases c1 : t = 0
    · subst c1; simp
    · by_cases c2 : t = 49961
      · subst c2; simp
      · by_cases c3 : t = 91639
        · subst c3; simp
        · simp [c1, c2, c3]
  have hp : crcBits (91639 - 0) 1 ^^^ crcBits (91639 - 49961) 1 = 1 := by
    have e1 : 91639 - 0 = 91639 := rfl
    have e2 : 91639 - 49961 = 41678 := rfl
    rw [e1, e2]
    exact first_pair
  exact ⟨s', h1, hdiff, (crc32_three_iff s s' h1.symm 0 49961 91639 (by norm_num) (by norm_num) (by omega) hdiff).2 hp⟩

end Verif.Crc32
