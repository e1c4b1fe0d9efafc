import Verif.Model.ByteHandler

/-! Helper lemmas about the ByteHandler model. -/

namespace Verif.ByteHandler

theorem testBit_ge_of_byte (b : UInt8) (k : Nat) (h : 8 ≤ k) : b.toNat.testBit k = false :=
  Nat.testBit_lt_two_pow (Nat.lt_of_lt_of_le b.toNat_lt (Nat.pow_le_pow_right (by decide) h))

theorem byte_ext {a b : UInt8} (h : ∀ k, k < 8 → a.toNat.testBit k = b.toNat.testBit k) : a = b := by
  apply UInt8.toNat_inj.mp
  apply Nat.eq_of_testBit_eq
  intro i
  by_cases hi : i < 8
  · exact h i hi
  · rw [testBit_ge_of_byte a i (by omega), testBit_ge_of_byte b i (by omega)]

theorem BIT_eq (n : Nat) : BIT n = 2 ^ n := by simp [BIT, Nat.shiftLeft_eq]

theorem getBit_eq (b : UInt8) (pos : Nat) (h : pos < 8) :
    getBit b pos = .ok (b.toNat.testBit pos) := by
  have : ¬ 8 ≤ pos := by omega
  simp only [getBit, this, if_false, BIT_eq, Res.ok.injEq]
  rw [Nat.testBit, Nat.shiftRight_and_distrib]
  rw [show (2 ^ pos) >>> pos = 1 by rw [Nat.shiftRight_eq_div_pow, Nat.div_self (Nat.two_pow_pos _)],
    Nat.and_comm]

theorem orAssign_testBit (b : UInt8) (x k : Nat) (h : k < 8) :
    (orAssign b x).toNat.testBit k = (b.toNat.testBit k || x.testBit k) := by
  rw [orAssign, UInt8.toNat_ofNat', Nat.testBit_mod_two_pow]
  simp [h]

theorem andAssign_testBit (b : UInt8) (x k : Nat) (h : k < 8) :
    (andAssign b x).toNat.testBit k = (b.toNat.testBit k && x.testBit k) := by
  rw [andAssign, UInt8.toNat_ofNat', Nat.testBit_mod_two_pow]
  simp [h]

theorem not32_testBit (x k : Nat) (hx : x < 2 ^ 32) (hk : k < 32) :
    (not32 x).testBit k = !x.testBit k := by
  have : not32 x = 2 ^ 32 - (x + 1) := by simp only [not32]; omega
  rw [this, Nat.testBit_two_pow_sub_succ hx]
  simp [hk]

theorem two_pow_lt (p : Nat) (h : p < 32) : 2 ^ p < 2 ^ 32 :=
  Nat.pow_lt_pow_right (by decide) h

theorem setBit_ok (b : UInt8) (p : Nat) (v : Bool) (h : p < 8) :
    ∃ b', setBit b p v = .ok b' ∧
      ∀ k, k < 8 → b'.toNat.testBit k = if k = p then v else b.toNat.testBit k := by
  have hp : ¬ 8 ≤ p := by omega
  cases v
  · refine ⟨_, by simp [setBit, hp]; rfl, ?_⟩
    intro k hk
    rw [andAssign_testBit _ _ _ hk, not32_testBit _ _ (by rw [BIT_eq]; exact two_pow_lt _ (by omega)) (by omega),
      BIT_eq, Nat.testBit_two_pow]
    by_cases e : k = p
    · simp [e]
    · have : ¬ p = k := fun h => e h.symm
      simp [e, this]
  · refine ⟨_, by simp [setBit, hp]; rfl, ?_⟩
    intro k hk
    rw [orAssign_testBit _ _ _ hk, BIT_eq, Nat.testBit_two_pow]
    by_cases e : k = p
    · simp [e]
    · have : ¬ p = k := fun h => e h.symm
      simp [e, this]

theorem shiftCount_eq_log2 (n : Nat) : shiftCount n = n.log2 := by
  induction n using Nat.strongRecOn with
  | ind n ih =>
    rw [shiftCount, Nat.log2_def]
    by_cases h : n / 2 = 0
    · have h' : ¬ 2 ≤ n := by omega
      simp [h, h']
    · have h' : 2 ≤ n := by omega
      simp only [h, dite_false, h', if_true]
      rw [ih (n / 2) (by omega)]

theorem lowCount_spec (n : Nat) (h : n ≠ 0) :
    n.testBit (lowCount n) = true ∧ ∀ k, k < lowCount n → n.testBit k = false := by
  induction n using Nat.strongRecOn with
  | ind n ih =>
    rw [lowCount]
    have hb : n &&& BIT 0 = n % 2 := by simp [BIT, Nat.and_one_is_mod]
    simp only [h, dite_false, hb]
    by_cases h2 : n % 2 = 0
    · simp only [h2, ne_eq, not_true, if_false]
      obtain ⟨h3, h4⟩ := ih (n / 2) (by omega) (by omega)
      refine ⟨by rw [Nat.testBit_succ]; exact h3, ?_⟩
      intro k hk
      cases k with
      | zero => rw [Nat.testBit_zero]; simp [h2]
      | succ k => rw [Nat.testBit_succ]; exact h4 k (by omega)
    · simp only [ne_eq, h2, not_false_eq_true, if_true]
      refine ⟨by rw [Nat.testBit_zero]; simp; omega, ?_⟩
      intro k hk; omega

end Verif.ByteHandler
