import Verif.Proofs.Crc32Logs
import Mathlib.Data.Nat.ModEq

/-! Two changed bytes, and one changed byte with one changed digit of the checksum. -/

namespace Verif.Crc32
open Spec

theorem runAll_eq : ∀ (f m : Nat) (l : List (Nat × Nat)), (∀ x ∈ l, x.1 < 2 ^ f ∧ x.2 < 2 ^ 32) →
    (runAll f (colsOf (crcBits m)) l).map Prod.snd = l.map fun x => crcBits (m * x.1) x.2 := by
  intro f
  induction f with
  | zero =>
    intro m l hl
    unfold runAll
    apply List.map_congr_left
    intro x hx
    have : x.1 = 0 := by have := (hl x hx).1; simpa using this
    rw [this]
    rfl
  | succ f ih =>
    intro m l hl
    simp only [runAll]
    have hc : (colsOf (crcBits m)).map (app (colsOf (crcBits m))) = colsOf (crcBits (m + m)) := by
      unfold colsOf
      rw [List.map_map]
      apply List.map_congr_left
      intro i hi
      rw [List.mem_range] at hi
      have h1 : (1 <<< i : Nat) < 2 ^ 32 := by
        rw [Nat.shiftLeft_eq, Nat.one_mul]
        exact Nat.pow_lt_pow_right (by decide) hi
      have := app_colsOf m (crcBits m (1 <<< i)) (crcBits_lt _ _ h1)
      unfold colsOf at this
      simp only [Function.comp]
      rw [this, ← crcBits_add]
    rw [hc, ih (m + m), List.map_map]
    · apply List.map_congr_left
      intro x hx
      have hb := hl x hx
      simp only [Function.comp]
      by_cases h2 : x.1 % 2 = 1
      · rw [if_pos h2, app_colsOf m _ hb.2, ← crcBits_add]
        congr 1
        have : x.1 = 2 * (x.1 / 2) + 1 := by omega
        conv => rhs; rw [this]
        ring
      · rw [if_neg h2]
        congr 1
        have : x.1 = 2 * (x.1 / 2) := by omega
        conv => rhs; rw [this]
        ring
    · intro y hy
      obtain ⟨x, hx, rfl⟩ := List.mem_map.1 hy
      have hb := hl x hx
      refine ⟨?_, ?_⟩
      · have := hb.1
        rw [Nat.pow_succ] at this
        simp only
        omega
      · simp only
        split
        · rw [app_colsOf m _ hb.2]; exact crcBits_lt _ _ hb.2
        · exact hb.2

theorem logs_lt : ∀ t ∈ byteLogs ++ deltaLogs, t < 4294967295 := by decide +kernel
theorem byteLogs_length : byteLogs.length = 255 := by decide +kernel
theorem deltaLogs_length : deltaLogs.length = deltas.length := by decide +kernel

theorem logs_spec : (byteLogs ++ deltaLogs).map (fun t => crcBits t 1) = (List.range 255).map (· + 1) ++ deltas := by
  have h := runAll_eq 32 1 ((byteLogs ++ deltaLogs).map fun t => (t, 1)) (by
    intro x hx
    obtain ⟨t, ht, rfl⟩ := List.mem_map.1 hx
    have := logs_lt t ht
    exact ⟨by simp only; omega, by norm_num⟩)
  rw [logs_right, List.map_map] at h
  rw [h]
  apply List.map_congr_left
  intro t _
  simp [Function.comp]

theorem byteLogs_spec : byteLogs.map (fun t => crcBits t 1) = (List.range 255).map (· + 1) := by
  have h := logs_spec
  rw [List.map_append] at h
  exact (List.append_inj h (by simp [byteLogs_length])).1

theorem deltaLogs_spec : deltaLogs.map (fun t => crcBits t 1) = deltas := by
  have h := logs_spec
  rw [List.map_append] at h
  exact (List.append_inj h (by simp [byteLogs_length])).2

theorem byte_log (b : Nat) (h0 : 0 < b) (h1 : b < 256) : ∃ t ∈ byteLogs, crcBits t 1 = b := by
  have : b ∈ (List.range 255).map (· + 1) := List.mem_map.2 ⟨b - 1, by rw [List.mem_range]; omega, by omega⟩
  rw [← byteLogs_spec] at this
  exact List.mem_map.1 this

theorem delta_log (d : Nat) (h : d ∈ deltas) : ∃ t ∈ deltaLogs, crcBits t 1 = d := by
  rw [← deltaLogs_spec] at h
  exact List.mem_map.1 h

/-- states are equal only if the numbers of shifts agree modulo the period -/
theorem states_eq {a b : Nat} (h : crcBits a 1 = crcBits b 1) : a % 4294967295 = b % 4294967295 := by
  rw [crcBits_iterate, crcBits_iterate] at h
  have hp : 0 < Function.minimalPeriod crcBit 1 := by rw [minimalPeriod_one]; norm_num
  have ha := Function.iterate_mod_minimalPeriod_eq (f := crcBit) (x := 1) (n := a)
  have hb := Function.iterate_mod_minimalPeriod_eq (f := crcBit) (x := 1) (n := b)
  have := Function.iterate_injOn_Iio_minimalPeriod (f := crcBit) (x := 1) (Set.mem_Iio.2 (Nat.mod_lt a hp)) (Set.mem_Iio.2 (Nat.mod_lt b hp))
    (by simp only [ha, hb]; exact h)
  rwa [minimalPeriod_one] at this

theorem gap_eq {t1 t2 n : Nat} (h1 : t1 < 4294967295) (h2 : t2 < 4294967295) (hn : n < 4294967295)
    (h : (t1 + 8 * n) % 4294967295 = t2 % 4294967295) : gap t1 t2 = n := by
  unfold gap
  have e : (t2 + 4294967295 - t1) % 4294967295 = 8 * n % 4294967295 := by omega
  have : (t2 + 4294967295 - t1) * 536870912 % 4294967295 = 8 * n * 536870912 % 4294967295 := by
    exact Nat.ModEq.mul_right 536870912 e
  rw [this]
  have : 8 * n * 536870912 = n + 4294967295 * n := by ring
  rw [this, Nat.add_mul_mod_self_left, Nat.mod_eq_of_lt hn]

theorem checkGaps_spec {lim : Nat} {T1 T2 : List Nat} (h : checkGaps lim T1 T2 = true) (t1 : Nat) (h1 : t1 ∈ T1) (t2 : Nat)
    (h2 : t2 ∈ T2) : gap t1 t2 = 0 ∨ lim ≤ gap t1 t2 := by
  unfold checkGaps at h
  rw [List.all_eq_true] at h
  have := h t1 h1
  rw [List.all_eq_true] at this
  have := this t2 h2
  rw [Bool.or_eq_true] at this
  rcases this with h | h
  · exact .inl (Nat.eq_of_beq_eq_true h)
  · exact .inr (Nat.le_of_ble_eq_true h)

theorem shifted_gap {t1 t2 n b c : Nat} (h1 : t1 < 4294967295) (h2 : t2 < 4294967295) (hn : n < 4294967295)
    (hb : crcBits t1 1 = b) (hc : crcBits t2 1 = c) (h : crcBits (8 * n) b = c) : gap t1 t2 = n := by
  apply gap_eq h1 h2 hn
  apply states_eq
  rw [crcBits_add, hb, h, hc]

/-- a byte does not become a byte for 145211 further bytes -/
theorem two_bytes (b c n : Nat) (hb : b < 256) (hb0 : 0 < b) (hc : c < 256) (hn0 : 0 < n) (hn : n < 145212) :
    crcBits (8 * n) b ≠ c := by
  intro h
  have hc0 : 0 < c := by
    rcases Nat.eq_zero_or_pos c with h0 | h0
    · rw [h0] at h
      have := crcBits_zero_inj _ _ (by omega) h
      omega
    · exact h0
  obtain ⟨t1, m1, e1⟩ := byte_log b hb0 hb
  obtain ⟨t2, m2, e2⟩ := byte_log c hc0 hc
  have g := shifted_gap (logs_lt t1 (List.mem_append_left _ m1)) (logs_lt t2 (List.mem_append_left _ m2)) (by omega) e1 e2 h
  have := checkGaps_spec gaps_bytes t1 m1 t2 m2
  omega

/-- … nor one changed digit of the checksum for 765942 -/
theorem byte_delta (b d n : Nat) (hb : b < 256) (hb0 : 0 < b) (hd : d ∈ deltas) (hn0 : 0 < n) (hn : n < 765943) :
    crcBits (8 * n) b ≠ d := by
  intro h
  obtain ⟨t1, m1, e1⟩ := byte_log b hb0 hb
  obtain ⟨t2, m2, e2⟩ := delta_log d hd
  have g := shifted_gap (logs_lt t1 (List.mem_append_left _ m1)) (logs_lt t2 (List.mem_append_right _ m2)) (by omega) e1 e2 h
  have := checkGaps_spec gaps_deltas t1 m1 t2 m2
  omega

/-- the same byte comes back after a whole period only -/
theorem byte_back (b n : Nat) (hb : b < 256) (hb0 : 0 < b) : crcBits (8 * n) b = b ↔ 4294967295 ∣ n := by
  obtain ⟨t, m, e⟩ := byte_log b hb0 hb
  constructor
  · intro h
    have : crcBits (t + 8 * n) 1 = crcBits t 1 := by rw [crcBits_add, e, h]
    have := states_eq this
    have h8 : 4294967295 ∣ 8 * n := by
      rw [← Nat.modEq_zero_iff_dvd]
      exact Nat.ModEq.add_left_cancel' t this
    exact (Nat.Coprime.dvd_of_dvd_mul_left (by decide) h8)
  · intro h
    have h8 : 4294967295 ∣ 8 * n := Dvd.dvd.mul_left h 8
    have := (crcBits_one_iff _).2 h8
    have e2 : crcBits (8 * n) b = crcBits t (crcBits (8 * n) 1) := by rw [← crcBits_add, Nat.add_comm, crcBits_add, e]
    rw [e2, this, e]

/-! ### strings that differ in two bytes -/

theorem leVal_two (s s' : List UInt8) (p q : Nat) (hpq : p < q)
    (hd : ∀ i, i ≠ p → i ≠ q → s.getD i 0 = s'.getD i 0) :
    leVal s ^^^ leVal s' = (((s.getD p 0).toNat ^^^ (s'.getD p 0).toNat) ^^^
      (((s.getD q 0).toNat ^^^ (s'.getD q 0).toNat) <<< (8 * (q - p)))) <<< (8 * p) := by
  have small : ∀ (x y : UInt8) (r : Nat), 8 ≤ r → (x.toNat ^^^ y.toNat).testBit r = false := by
    intro x y r hr
    apply Nat.testBit_lt_two_pow
    refine lt_of_lt_of_le (Nat.xor_lt_two_pow (n := 8) x.toNat_lt y.toNat_lt) ?_
    exact Nat.pow_le_pow_right (by decide) hr
  apply Nat.eq_of_testBit_eq
  intro t
  rw [Nat.testBit_xor, leVal_testBit, leVal_testBit, Nat.testBit_shiftLeft, Nat.testBit_xor, Nat.testBit_shiftLeft]
  have key : ∀ i, t / 8 = i → (bitOf s t ^^ bitOf s' t) = ((s.getD i 0).toNat ^^^ (s'.getD i 0).toNat).testBit (t % 8) := by
    rintro i rfl
    rw [Nat.testBit_xor]
    rfl
  by_cases c1 : t / 8 = p
  · rw [key p c1]
    have a1 : 8 * p ≤ t := by omega
    have a2 : t - 8 * p = t % 8 := by omega
    have a3 : ¬ (8 * (q - p) ≤ t % 8) := by omega
    simp [a1, a2, a3]
  · by_cases c2 : t / 8 = q
    · rw [key q c2]
      have a1 : 8 * p ≤ t := by omega
      have a2 : 8 ≤ t - 8 * p := by omega
      have a3 : 8 * (q - p) ≤ t - 8 * p := by omega
      have a4 : t - 8 * p - 8 * (q - p) = t % 8 := by omega
      rw [small _ _ _ a2]
      simp [a1, a3, a4]
    · have e : bitOf s t = bitOf s' t := by
        unfold bitOf
        rw [hd _ c1 c2]
      rw [e, Bool.xor_self]
      by_cases a1 : 8 * p ≤ t
      · have a2 : 8 ≤ t - 8 * p := by omega
        rw [small _ _ _ a2]
        by_cases a3 : 8 * (q - p) ≤ t - 8 * p
        · have a4 : 8 ≤ t - 8 * p - 8 * (q - p) := by omega
          rw [small _ _ _ a4]
          simp
        · simp [a3]
      · simp [a1]

theorem xor_toNat_ne {x y : UInt8} (h : x ≠ y) : 0 < x.toNat ^^^ y.toNat := by
  rcases Nat.eq_zero_or_pos (x.toNat ^^^ y.toNat) with h0 | h0
  · exact absurd (UInt8.toNat_inj.1 (xor_zero_eq h0)) h
  · exact h0

theorem xor_toNat_lt (x y : UInt8) : x.toNat ^^^ y.toNat < 256 := Nat.xor_lt_two_pow (n := 8) x.toNat_lt y.toNat_lt

/-- two changed bytes are missed exactly when the first change, shifted to the second, equals it -/
theorem crc32_two_bytes_iff (s s' : List UInt8) (hl : s.length = s'.length) (p q : Nat) (hpq : p < q) (hq : q < s.length)
    (hd : ∀ i, i ≠ p → i ≠ q → s.getD i 0 = s'.getD i 0) :
    crc32 s = crc32 s' ↔
      crcBits (8 * (q - p)) ((s.getD p 0).toNat ^^^ (s'.getD p 0).toNat) = (s.getD q 0).toNat ^^^ (s'.getD q 0).toNat := by
  rw [crcBits_diff s s' hl (8 * p) _ (by omega) (leVal_two s s' p q hpq hd)]
  have e1 : 8 * s.length - 8 * p = 8 * (q - p) + (8 * s.length - 8 * q) := by omega
  rw [e1, crcBits_add, crcBits_xor, crcBits_shift]
  constructor
  · intro h
    exact xor_zero_eq (crcBits_zero_inj _ _ (Nat.xor_lt_two_pow (crcBits_lt _ _ (lt_trans (xor_toNat_lt _ _) (by norm_num)))
      (lt_trans (xor_toNat_lt _ _) (by norm_num))) h)
  · intro h
    rw [h, Nat.xor_self, crcBits_zero]

/-- one changed byte: the change of the hash -/
theorem crc32_one_byte (s s' : List UInt8) (hl : s.length = s'.length) (p : Nat) (hp : p < s.length)
    (hd : ∀ i, i ≠ p → s.getD i 0 = s'.getD i 0) :
    crc32 s ^^^ crc32 s' = crcBits (8 * (s.length - p)) ((s.getD p 0).toNat ^^^ (s'.getD p 0).toNat) := by
  have he : leVal s ^^^ leVal s' = ((s.getD p 0).toNat ^^^ (s'.getD p 0).toNat) <<< (8 * p) := by
    apply Nat.eq_of_testBit_eq
    intro t
    rw [Nat.testBit_xor, leVal_testBit, leVal_testBit, Nat.testBit_shiftLeft]
    have small : ∀ (x y : UInt8) (r : Nat), 8 ≤ r → (x.toNat ^^^ y.toNat).testBit r = false := by
      intro x y r hr
      apply Nat.testBit_lt_two_pow
      exact lt_of_lt_of_le (xor_toNat_lt x y) (by rw [show 256 = 2 ^ 8 by rfl]; exact Nat.pow_le_pow_right (by decide) hr)
    by_cases c1 : t / 8 = p
    · have a1 : 8 * p ≤ t := by omega
      have a2 : t - 8 * p = t % 8 := by omega
      unfold bitOf
      rw [c1, a2, Nat.testBit_xor]
      simp [a1]
    · have e : bitOf s t = bitOf s' t := by
        unfold bitOf
        rw [hd _ c1]
      rw [e, Bool.xor_self]
      by_cases a1 : 8 * p ≤ t
      · rw [small _ _ _ (by omega)]; simp
      · simp [a1]
  unfold crc32
  rw [foldl_leVal, foldl_leVal, ← hl, xor4, Nat.xor_self, Nat.xor_zero, ← crcBits_xor]
  have : (4294967295 ^^^ leVal s) ^^^ (4294967295 ^^^ leVal s') = leVal s ^^^ leVal s' := by
    rw [xor4, Nat.xor_self, Nat.zero_xor]
  rw [this, he]
  have : 8 * s.length = 8 * p + 8 * (s.length - p) := by omega
  rw [this, crcBits_add, crcBits_shift]

end Verif.Crc32
