import Verif.Proofs.Crc32
import Mathlib.Dynamics.PeriodicPts.Defs
import Mathlib.Data.Nat.Prime.Basic
import Mathlib.Tactic.NormNum.Prime
import Mathlib.Data.Fintype.EquivFin

/-! The period of the CRC shift register is 2³² − 1, and what follows for changed bits. -/

namespace Verif.Crc32
open Spec

/-! ### linear maps by their columns -/

/-- a linear map given by the images of the powers of two, applied to `h` -/
def app : List Nat → Nat → Nat
  | [], _ => 0
  | c :: cs, h => (if h % 2 = 1 then c else 0) ^^^ app cs (h / 2)

/-- apply the map `cols` `n` times (binary exponentiation) -/
def run : Nat → Nat → List Nat → Nat → Nat
  | 0, _, _, h => h
  | f + 1, n, cols, h => run f (n / 2) (cols.map (app cols)) (if n % 2 = 1 then app cols h else h)

/-- the columns of a map on 32 bits -/
def colsOf (f : Nat → Nat) : List Nat := (List.range 32).map fun i => f (1 <<< i)

theorem app_range (f : Nat → Nat) (hf : ∀ a b, f (a ^^^ b) = f a ^^^ f b) (h0 : f 0 = 0) (k : Nat) :
    ∀ j h, h < 2 ^ k → app ((List.range k).map fun i => f (1 <<< (i + j))) h = f (h <<< j) := by
  induction k with
  | zero =>
    intro j h hh
    have : h = 0 := by simpa using hh
    subst this
    simp [app, h0]
  | succ k ih =>
    intro j h hh
    rw [List.range_succ_eq_map]
    simp only [List.map_cons, List.map_map, app]
    have hd : h / 2 < 2 ^ k := by rw [Nat.pow_succ] at hh; omega
    have e := ih (j + 1) (h / 2) hd
    have e' : (List.range k).map ((fun i => f (1 <<< (i + j))) ∘ Nat.succ) = (List.range k).map fun i => f (1 <<< (i + (j + 1))) := by
      apply List.map_congr_left
      intro i _
      simp only [Function.comp]
      congr 2
      omega
    rw [e', e]
    have hs : h <<< j = ((if h % 2 = 1 then 1 <<< j else 0) ^^^ ((h / 2) <<< (j + 1))) := by
      apply Nat.eq_of_testBit_eq
      intro i
      by_cases h2 : h % 2 = 1
      · rw [if_pos h2]
        simp only [Nat.testBit_xor, Nat.testBit_shiftLeft, Nat.testBit_div_two]
        by_cases h3 : i < j
        · have : ¬ j ≤ i := by omega
          have : ¬ j + 1 ≤ i := by omega
          simp [*]
        · by_cases h4 : i = j
          · subst h4
            simp [Nat.testBit_zero, h2]
          · have a1 : j ≤ i := by omega
            have a2 : j + 1 ≤ i := by omega
            have a3 : i - (j + 1) + 1 = i - j := by omega
            have a4 : (1 : Nat).testBit (i - j) = false := Nat.testBit_lt_two_pow (Nat.one_lt_two_pow (by omega))
            simp [a1, a2, a3, a4]
      · rw [if_neg h2]
        simp only [Nat.testBit_xor, Nat.testBit_shiftLeft, Nat.testBit_div_two, Nat.zero_testBit, Bool.false_bne]
        by_cases h3 : i < j
        · have : ¬ j ≤ i := by omega
          have : ¬ j + 1 ≤ i := by omega
          simp [*]
        · by_cases h4 : i = j
          · subst h4
            simp [Nat.testBit_zero, h2]
          · have a1 : j ≤ i := by omega
            have a2 : j + 1 ≤ i := by omega
            have a3 : i - (j + 1) + 1 = i - j := by omega
            simp [a1, a2, a3]
    rw [hs, hf]
    simp only [Nat.zero_add]
    congr 1
    split
    · rfl
    · exact h0.symm

theorem app_colsOf (m h : Nat) (hh : h < 2 ^ 32) : app (colsOf (crcBits m)) h = crcBits m h := by
  have := app_range (crcBits m) (crcBits_xor m) (crcBits_zero m) 32 0 h hh
  unfold colsOf
  simpa using this

theorem run_eq : ∀ (f n m h : Nat), n < 2 ^ f → h < 2 ^ 32 → run f n (colsOf (crcBits m)) h = crcBits (m * n) h := by
  intro f
  induction f with
  | zero =>
    intro n m h hn _
    have : n = 0 := by simpa using hn
    subst this
    rfl
  | succ f ih =>
    intro n m h hn hh
    simp only [run]
    have hc : (colsOf (crcBits m)).map (app (colsOf (crcBits m))) = colsOf (crcBits (m + m)) := by
      unfold colsOf
      rw [List.map_map]
      apply List.map_congr_left
      intro i hi
      rw [List.mem_range] at hi
      have h1 : (1 <<< i : Nat) < 2 ^ 32 := by
        rw [Nat.shiftLeft_eq, Nat.one_mul]
        exact Nat.pow_lt_pow_right (by decide) hi
      have := app_colsOf m (crcBits m (1 <<< i)) (crcBits_lt _ _ h1)
      unfold colsOf at this
      simp only [Function.comp]
      rw [this, ← crcBits_add]
    rw [hc]
    have hn2 : n / 2 < 2 ^ f := by rw [Nat.pow_succ] at hn; omega
    by_cases h2 : n % 2 = 1
    · rw [if_pos h2, app_colsOf m h hh, ih _ _ _ hn2 (crcBits_lt _ _ hh), ← crcBits_add]
      congr 1
      have : n = 2 * (n / 2) + 1 := by omega
      conv => rhs; rw [this]
      ring
    · rw [if_neg h2, ih _ _ _ hn2 hh]
      congr 1
      have : n = 2 * (n / 2) := by omega
      conv => rhs; rw [this]
      ring

theorem crcBits_run (n h : Nat) (hn : n < 2 ^ 33) (hh : h < 2 ^ 32) : crcBits n h = run 33 n (colsOf (crcBits 1)) h := by
  rw [run_eq 33 n 1 h hn hh, Nat.one_mul]

theorem period_full : run 33 4294967295 (colsOf (crcBits 1)) 1 = 1 := by decide +kernel
theorem period_3 : run 33 1431655765 (colsOf (crcBits 1)) 1 ≠ 1 := by decide +kernel
theorem period_5 : run 33 858993459 (colsOf (crcBits 1)) 1 ≠ 1 := by decide +kernel
theorem period_17 : run 33 252645135 (colsOf (crcBits 1)) 1 ≠ 1 := by decide +kernel
theorem period_257 : run 33 16711935 (colsOf (crcBits 1)) 1 ≠ 1 := by decide +kernel
theorem period_65537 : run 33 65535 (colsOf (crcBits 1)) 1 ≠ 1 := by decide +kernel

theorem crcBits_iterate (n h : Nat) : crcBits n h = crcBit^[n] h := by
  induction n generalizing h with
  | zero => rfl
  | succ n ih => rw [Function.iterate_succ_apply]; exact ih _

theorem minimalPeriod_one : Function.minimalPeriod crcBit 1 = 4294967295 := by
  have per : ∀ n, n < 2 ^ 33 → (Function.IsPeriodicPt crcBit n 1 ↔ run 33 n (colsOf (crcBits 1)) 1 = 1) := by
    intro n hn
    unfold Function.IsPeriodicPt Function.IsFixedPt
    rw [← crcBits_iterate, crcBits_run n 1 hn (by norm_num)]
  have hN : Function.minimalPeriod crcBit 1 ∣ 4294967295 :=
    Function.IsPeriodicPt.minimalPeriod_dvd ((per _ (by norm_num)).2 period_full)
  have key : ∀ p, p * (4294967295 / p) = 4294967295 → run 33 (4294967295 / p) (colsOf (crcBits 1)) 1 ≠ 1 →
      ∀ q, 4294967295 = Function.minimalPeriod crcBit 1 * q → ¬ p ∣ q := by
    rintro p hp hr q hq ⟨r, rfl⟩
    have hp0 : 0 < p := by
      rcases Nat.eq_zero_or_pos p with h | h
      · subst h; simp at hp
      · exact h
    have hlt : 4294967295 / p < 2 ^ 33 := lt_of_le_of_lt (Nat.div_le_self _ _) (by norm_num)
    apply hr
    rw [← per _ hlt]
    have : 4294967295 / p = Function.minimalPeriod crcBit 1 * r := by
      apply Nat.eq_of_mul_eq_mul_left hp0
      rw [hp]
      conv => lhs; rw [hq]
      ring
    rw [this]
    exact (Function.isPeriodicPt_minimalPeriod crcBit 1).mul_const r
  obtain ⟨q, hq⟩ := hN
  have k3 := key 3 (by norm_num) period_3 q hq
  have k5 := key 5 (by norm_num) period_5 q hq
  have k17 := key 17 (by norm_num) period_17 q hq
  have k257 := key 257 (by norm_num) period_257 q hq
  have k65537 := key 65537 (by norm_num) period_65537 q hq
  have hq1 : q = 1 := by
    by_contra hne
    have hq0 : q ≠ 0 := by rintro rfl; simp at hq
    have pm := Nat.minFac_prime hne
    have hd : Nat.minFac q ∣ 3 * (5 * (17 * (257 * 65537))) := by
      have : Nat.minFac q ∣ 4294967295 := (Nat.minFac_dvd q).trans ⟨_, by rw [Nat.mul_comm]; exact hq⟩
      simpa using this
    have hself := Nat.minFac_dvd q
    rcases (Nat.Prime.dvd_mul pm).1 hd with h | hd
    · rw [(Nat.prime_dvd_prime_iff_eq pm (by norm_num)).1 h] at hself; exact k3 hself
    rcases (Nat.Prime.dvd_mul pm).1 hd with h | hd
    · rw [(Nat.prime_dvd_prime_iff_eq pm (by norm_num)).1 h] at hself; exact k5 hself
    rcases (Nat.Prime.dvd_mul pm).1 hd with h | hd
    · rw [(Nat.prime_dvd_prime_iff_eq pm (by norm_num)).1 h] at hself; exact k17 hself
    rcases (Nat.Prime.dvd_mul pm).1 hd with h | h
    · rw [(Nat.prime_dvd_prime_iff_eq pm (by norm_num)).1 h] at hself; exact k257 hself
    · rw [(Nat.prime_dvd_prime_iff_eq pm (by norm_num)).1 h] at hself; exact k65537 hself
  rw [hq1, Nat.mul_one] at hq
  exact hq.symm

theorem crcBits_one_iff (g : Nat) : crcBits g 1 = 1 ↔ 4294967295 ∣ g := by
  rw [crcBits_iterate, ← minimalPeriod_one]
  exact Function.isPeriodicPt_iff_minimalPeriod_dvd

/-! ### bits of byte strings -/

theorem leVal_testBit : ∀ (s : List UInt8) (k : Nat), (leVal s).testBit k = bitOf s k
  | [], k => by simp [leVal, bitOf]
  | b :: s, k => by
    unfold leVal
    rw [show (256 : Nat) = 2 ^ 8 by rfl, Nat.add_comm, Nat.testBit_two_pow_mul_add _ b.toNat_lt]
    by_cases hk : k < 8
    · rw [if_pos hk]
      unfold bitOf
      rw [Nat.div_eq_of_lt hk, Nat.mod_eq_of_lt hk]
      rfl
    · rw [if_neg hk, leVal_testBit s]
      unfold bitOf
      have h1 : k / 8 = (k - 8) / 8 + 1 := by omega
      have h2 : k % 8 = (k - 8) % 8 := by omega
      rw [h1, h2]
      rfl

theorem bitOf_false (s : List UInt8) (k : Nat) (h : 8 * s.length ≤ k) : bitOf s k = false := by
  unfold bitOf
  rw [List.getD_eq_getElem?_getD, List.getElem?_eq_none (by omega)]
  simp

theorem crc32_eq_iff (s s' : List UInt8) (hl : s.length = s'.length) :
    crc32 s = crc32 s' ↔ crcBits (8 * s.length) (leVal s ^^^ leVal s') = 0 := by
  unfold crc32
  rw [foldl_leVal, foldl_leVal, ← hl]
  simp only [crcBits_xor]
  constructor
  · intro h
    have := xor_cancel_l (xor_cancel_r h)
    rw [this, Nat.xor_self]
  · intro h
    rw [xor_zero_eq h]

/-- the difference of two strings that differ only from bit `k` on -/
theorem crcBits_diff (s s' : List UInt8) (hl : s.length = s'.length) (k e : Nat) (hk : k ≤ 8 * s.length)
    (he : leVal s ^^^ leVal s' = e <<< k) : crc32 s = crc32 s' ↔ crcBits (8 * s.length - k) e = 0 := by
  rw [crc32_eq_iff s s' hl, he]
  have : 8 * s.length = k + (8 * s.length - k) := by omega
  conv => lhs; rw [this, crcBits_add, crcBits_shift]

theorem crc32_burst (s s' : List UInt8) (hl : s.length = s'.length) (k : Nat)
    (hd : ∀ i, bitOf s i ≠ bitOf s' i → k ≤ i ∧ i < k + 32) (hne : s ≠ s') : crc32 s ≠ crc32 s' := by
  have hv : leVal s ≠ leVal s' := fun h => hne (leVal_inj s s' hl h)
  obtain ⟨i, hi⟩ := Nat.exists_testBit_ne_of_ne hv
  rw [leVal_testBit, leVal_testBit] at hi
  have hlt : i < 8 * s.length := by
    by_contra hge
    rw [bitOf_false s i (by omega), bitOf_false s' i (by omega)] at hi
    exact hi rfl
  have hki := hd i hi
  let d := leVal s ^^^ leVal s'
  have hbit : ∀ j, d.testBit j = (bitOf s j ^^ bitOf s' j) := fun j => by
    simp only [d, Nat.testBit_xor, leVal_testBit]
  have he : d = (d >>> k) <<< k := by
    apply Nat.eq_of_testBit_eq
    intro j
    rw [Nat.testBit_shiftLeft, Nat.testBit_shiftRight]
    by_cases hj : k ≤ j
    · have : k + (j - k) = j := by omega
      simp [hj, this]
    · have : bitOf s j = bitOf s' j := by
        by_contra hc
        exact hj (hd j hc).1
      rw [hbit, this]
      simp [hj]
  rw [Ne, crcBits_diff s s' hl k (d >>> k) (by omega) he]
  intro h0
  have hlt32 : d >>> k < 2 ^ 32 := by
    apply Nat.lt_pow_two_of_testBit
    intro j hj
    rw [Nat.testBit_shiftRight, hbit]
    have : bitOf s (k + j) = bitOf s' (k + j) := by
      by_contra hc
      have := (hd _ hc).2
      omega
    rw [this]
    simp
  have := crcBits_zero_inj _ _ hlt32 h0
  rw [this] at he
  apply hv
  apply xor_zero_eq
  simpa [d] using he

theorem crc32_two_bits (s s' : List UInt8) (hl : s.length = s'.length) (i j : Nat) (hij : i < j) (hj : j < 8 * s.length)
    (hd : ∀ k, bitOf s k ≠ bitOf s' k ↔ k = i ∨ k = j) : crc32 s = crc32 s' ↔ 4294967295 ∣ j - i := by
  have he : leVal s ^^^ leVal s' = (1 ^^^ (1 <<< (j - i))) <<< i := by
    apply Nat.eq_of_testBit_eq
    intro k
    rw [Nat.testBit_xor, leVal_testBit, leVal_testBit, Nat.testBit_shiftLeft, Nat.testBit_xor, Nat.testBit_shiftLeft]
    have hk := hd k
    have h1 : ∀ n, (1 : Nat).testBit n = decide (n = 0) := by
      intro n
      cases n with
      | zero => rfl
      | succ n => simp [Nat.testBit_succ]
    rw [h1, h1]
    by_cases h : k = i ∨ k = j
    · have := hk.2 h
      have : (bitOf s k ^^ bitOf s' k) = true := by
        cases hs : bitOf s k <;> cases hs' : bitOf s' k <;> simp_all
      rw [this]
      rcases h with h | h
      · have a1 : i ≤ k := by omega
        have a2 : k - i = 0 := by omega
        have a3 : ¬ j - i ≤ 0 := by omega
        simp [a1, a2, a3]
      · have a1 : i ≤ k := by omega
        have a2 : ¬ k - i = 0 := by omega
        have a3 : j - i ≤ k - i := by omega
        have a4 : k - i - (j - i) = 0 := by omega
        simp only [a1, a2, a3, a4, decide_true, decide_false, Bool.true_and, Bool.false_bne]
    · have : bitOf s k = bitOf s' k := by
        by_contra hc
        exact h (hk.1 hc)
      rw [this]
      push Not at h
      by_cases a1 : i ≤ k
      · have a2 : ¬ k - i = 0 := by omega
        have a3 : ¬ (j - i ≤ k - i ∧ k - i - (j - i) = 0) := by omega
        simp only [Bool.xor_self, a1, a2, decide_true, decide_false, Bool.true_and, Bool.false_bne]
        rw [← Bool.decide_and, decide_eq_false a3]
      · simp [a1]
  rw [crcBits_diff s s' hl i _ (by omega) he, crcBits_xor]
  have e1 : 8 * s.length - i = (j - i) + (8 * s.length - j) := by omega
  rw [e1, crcBits_add _ _ (1 <<< (j - i)), crcBits_shift, crcBits_add, ← crcBits_xor, ← crcBits_one_iff]
  constructor
  · intro h
    exact xor_zero_eq (crcBits_zero_inj _ _ (Nat.xor_lt_two_pow (crcBits_lt _ _ (by norm_num)) (by norm_num)) h)
  · intro h
    rw [h, Nat.xor_self, crcBits_zero]

/-! ### four bytes reach every hash -/

theorem leVal_surj : ∀ (k v : Nat), v < 256 ^ k → ∃ w : List UInt8, w.length = k ∧ leVal w = v
  | 0, v, h => ⟨[], rfl, by unfold leVal; omega⟩
  | k + 1, v, h => by
    obtain ⟨w, h1, h2⟩ := leVal_surj k (v / 256) (by rw [Nat.pow_succ] at h; omega)
    refine ⟨UInt8.ofNat (v % 256) :: w, by simp [h1], ?_⟩
    unfold leVal
    rw [h2, UInt8.toNat_ofNat']
    omega

theorem crcBits_surj (n y : Nat) (hy : y < 2 ^ 32) : ∃ x, x < 2 ^ 32 ∧ crcBits n x = y := by
  let f : Fin (2 ^ 32) → Fin (2 ^ 32) := fun x => ⟨crcBits n x, crcBits_lt n x x.isLt⟩
  have inj : Function.Injective f := fun a b h => by
    apply Fin.ext
    exact crcBits_inj n a b a.isLt b.isLt (congrArg Fin.val h)
  obtain ⟨x, hx⟩ := Finite.surjective_of_injective inj ⟨y, hy⟩
  exact ⟨x, x.isLt, congrArg Fin.val hx⟩

theorem crc32_four (p q : List UInt8) (t : Nat) (ht : t < 2 ^ 32) : ∃ w : List UInt8, w.length = 4 ∧ crc32 (p ++ w ++ q) = t := by
  have hp : p.foldl crcByte 0xFFFFFFFF < 2 ^ 32 := foldl_lt p _ (by norm_num)
  have hq : leVal q <<< 0 = leVal q := rfl
  have hT : t ^^^ 0xFFFFFFFF < 2 ^ 32 := Nat.xor_lt_two_pow ht (by norm_num)
  -- the register before `q`
  have hz : ∃ z, z < 2 ^ 32 ∧ q.foldl crcByte z = t ^^^ 0xFFFFFFFF := by
    let c := crcBits (8 * q.length) (leVal q)
    have hc : c < 2 ^ 32 := by
      have := foldl_leVal q 0
      rw [Nat.zero_xor] at this
      show crcBits _ _ < _
      rw [← this]
      exact foldl_lt q 0 (by norm_num)
    obtain ⟨z, hz1, hz2⟩ := crcBits_surj (8 * q.length) ((t ^^^ 0xFFFFFFFF) ^^^ c) (Nat.xor_lt_two_pow hT hc)
    refine ⟨z, hz1, ?_⟩
    rw [foldl_leVal, crcBits_xor, hz2, Nat.xor_assoc, Nat.xor_self, Nat.xor_zero]
  obtain ⟨z, hz1, hz2⟩ := hz
  obtain ⟨x, hx1, hx2⟩ := crcBits_surj 32 z hz1
  obtain ⟨w, hw1, hw2⟩ := leVal_surj 4 (p.foldl crcByte 0xFFFFFFFF ^^^ x)
    (lt_of_lt_of_le (Nat.xor_lt_two_pow hp hx1) (by norm_num))
  refine ⟨w, hw1, ?_⟩
  unfold crc32
  rw [List.foldl_append, List.foldl_append, foldl_leVal w, hw1, hw2, ← Nat.xor_assoc, Nat.xor_self, Nat.zero_xor,
    show 8 * 4 = 32 by rfl, hx2, hz2, Nat.xor_assoc, Nat.xor_self, Nat.xor_zero]

end Verif.Crc32
