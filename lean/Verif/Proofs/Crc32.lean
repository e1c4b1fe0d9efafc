import Verif.Model.Crc32
import Verif.Spec.Crc32
import Verif.Spec.Serialize
import Mathlib.Tactic.NormNum
import Mathlib.Tactic.Ring

namespace Verif.Crc32
open Spec

theorem xor_cancel_r {a b c : Nat} (h : a ^^^ c = b ^^^ c) : a = b := by
  have := congrArg (· ^^^ c) h
  simpa [Nat.xor_assoc] using this

theorem xor_cancel_l {a b c : Nat} (h : c ^^^ a = c ^^^ b) : a = b :=
  xor_cancel_r (c := c) (by rw [Nat.xor_comm a, Nat.xor_comm b]; exact h)

theorem xor_zero_eq {a b : Nat} (h : a ^^^ b = 0) : a = b :=
  xor_cancel_r (c := b) (by rw [h, Nat.xor_self])

theorem crcTable_length : crcTable.length = 256 := by decide +kernel

theorem crcBit_eq (h : Nat) : crcBit h = (h >>> 1) ^^^ (if h % 2 = 1 then 0xEDB88320 else 0) := by
  unfold crcBit; rw [Nat.shiftRight_one]; split <;> simp

theorem xor_mod2 (a b : Nat) : (a ^^^ b) % 2 = (a % 2 + b % 2) % 2 := by
  have h := Nat.testBit_xor a b 0
  simp only [Nat.testBit_zero] at h
  have h1 : (a ^^^ b) % 2 = 0 ∨ (a ^^^ b) % 2 = 1 := by omega
  have h2 : a % 2 = 0 ∨ a % 2 = 1 := by omega
  have h3 : b % 2 = 0 ∨ b % 2 = 1 := by omega
  rcases h1 with h1 | h1 <;> rcases h2 with h2 | h2 <;> rcases h3 with h3 | h3 <;>
    simp [h1, h2, h3] at h ⊢

theorem xor4 (a b c d : Nat) : (a ^^^ b) ^^^ (c ^^^ d) = (a ^^^ c) ^^^ (b ^^^ d) := by
  apply Nat.eq_of_testBit_eq; intro i
  simp only [Nat.testBit_xor]
  cases a.testBit i <;> cases b.testBit i <;> cases c.testBit i <;> cases d.testBit i <;> rfl

theorem crcBit_xor (a b : Nat) : crcBit (a ^^^ b) = crcBit a ^^^ crcBit b := by
  rw [crcBit_eq, crcBit_eq, crcBit_eq, xor4, Nat.shiftRight_xor_distrib]
  congr 1
  rw [xor_mod2]
  have h2 : a % 2 = 0 ∨ a % 2 = 1 := by omega
  have h3 : b % 2 = 0 ∨ b % 2 = 1 := by omega
  rcases h2 with h2 | h2 <;> rcases h3 with h3 | h3 <;> simp [h2, h3]

theorem crcBits_xor (n a b : Nat) : crcBits n (a ^^^ b) = crcBits n a ^^^ crcBits n b := by
  induction n generalizing a b with
  | zero => rfl
  | succ n ih => simp only [crcBits]; rw [crcBit_xor, ih]

theorem crcBits_add (n m a : Nat) : crcBits (n + m) a = crcBits m (crcBits n a) := by
  induction n generalizing a with
  | zero => simp [crcBits]
  | succ n ih => rw [Nat.succ_add]; simp only [crcBits]; rw [ih]

theorem crcBits_shift (n y : Nat) : crcBits n (y <<< n) = y := by
  induction n with
  | zero => simp [crcBits]
  | succ n ih =>
    simp only [crcBits]
    have : crcBit (y <<< (n + 1)) = y <<< n := by
      rw [Nat.shiftLeft_succ]
      unfold crcBit
      rw [if_neg (by omega)]; omega
    rw [this, ih]

theorem split_byte (h : Nat) : h = (h % 256) ^^^ ((h >>> 8) <<< 8) := by
  apply Nat.eq_of_testBit_eq; intro i
  simp only [Nat.testBit_xor, Nat.testBit_shiftLeft, Nat.testBit_shiftRight]
  rw [show 256 = 2 ^ 8 by rfl, Nat.testBit_mod_two_pow]
  by_cases hi : i < 8
  · have : ¬ 8 ≤ i := by omega
    simp [hi, this]
  · have : 8 ≤ i := by omega
    have e : 8 + (i - 8) = i := by omega
    simp [hi, this, e]

theorem table_eq : ∀ i, i < 256 → crcTable.getD i 0 = crcBits 8 i := by decide +kernel

theorem xor_shift8 (h : Nat) (b : UInt8) : (h ^^^ b.toNat) >>> 8 = h >>> 8 := by
  rw [Nat.shiftRight_xor_distrib]
  have : b.toNat >>> 8 = 0 := by
    rw [Nat.shiftRight_eq_div_pow]; exact Nat.div_eq_of_lt b.toNat_lt
  simp [this]

theorem step_eq (h : Nat) (b : UInt8) : step h b = crcByte h b := by
  unfold step crcByte
  rw [table_eq _ (Nat.mod_lt _ (by decide))]
  conv => rhs; rw [split_byte (h ^^^ b.toNat), crcBits_xor, crcBits_shift, xor_shift8]

theorem foldl_step (s : List UInt8) (h : Nat) : s.foldl step h = s.foldl crcByte h := by
  induction s generalizing h with
  | nil => rfl
  | cons b s ih => simp only [List.foldl_cons, step_eq, ih]

theorem calcHash_eq (s : List UInt8) (h : s ≠ []) :
    calcHash (some s) s.length = .ok (crc32 s) := by
  have : s.length ≠ 0 := by simpa using h
  simp [calcHash, this, crc32, foldl_step]

/-! ### injectivity -/

theorem crcBit_lt (h : Nat) (hh : h < 2 ^ 32) : crcBit h < 2 ^ 32 := by
  unfold crcBit
  split
  · exact Nat.xor_lt_two_pow (by omega) (by norm_num)
  · omega

theorem crcBits_lt (n h : Nat) (hh : h < 2 ^ 32) : crcBits n h < 2 ^ 32 := by
  induction n generalizing h with
  | zero => exact hh
  | succ n ih => exact ih _ (crcBit_lt h hh)

theorem crcBit_zero_inj (h : Nat) (hh : h < 2 ^ 32) (e : crcBit h = 0) : h = 0 := by
  unfold crcBit at e
  split at e
  · have := xor_zero_eq e
    omega
  · omega

theorem crcBits_zero (n : Nat) : crcBits n 0 = 0 := by
  induction n with
  | zero => rfl
  | succ n ih => simp only [crcBits]; exact ih

theorem crcBits_zero_inj (n h : Nat) (hh : h < 2 ^ 32) (e : crcBits n h = 0) : h = 0 := by
  induction n generalizing h with
  | zero => exact e
  | succ n ih => exact crcBit_zero_inj h hh (ih _ (crcBit_lt h hh) e)

theorem crcBits_inj (n a b : Nat) (ha : a < 2 ^ 32) (hb : b < 2 ^ 32) (e : crcBits n a = crcBits n b) :
    a = b := by
  have : crcBits n (a ^^^ b) = 0 := by rw [crcBits_xor, e, Nat.xor_self]
  exact xor_zero_eq (crcBits_zero_inj n _ (Nat.xor_lt_two_pow ha hb) this)

theorem crcByte_lt (h : Nat) (b : UInt8) (hh : h < 2 ^ 32) : crcByte h b < 2 ^ 32 :=
  crcBits_lt _ _ (Nat.xor_lt_two_pow hh (lt_of_lt_of_le b.toNat_lt (by norm_num)))

theorem foldl_lt (s : List UInt8) (h : Nat) (hh : h < 2 ^ 32) : s.foldl crcByte h < 2 ^ 32 := by
  induction s generalizing h with
  | nil => exact hh
  | cons b s ih => exact ih _ (crcByte_lt h b hh)

theorem crcByte_inj (a b : Nat) (x : UInt8) (ha : a < 2 ^ 32) (hb : b < 2 ^ 32)
    (e : crcByte a x = crcByte b x) : a = b := by
  have hx : x.toNat < 2 ^ 32 := lt_of_lt_of_le x.toNat_lt (by norm_num)
  have := crcBits_inj 8 _ _ (Nat.xor_lt_two_pow ha hx) (Nat.xor_lt_two_pow hb hx) e
  exact xor_cancel_r this

theorem foldl_inj (s : List UInt8) (a b : Nat) (ha : a < 2 ^ 32) (hb : b < 2 ^ 32)
    (e : s.foldl crcByte a = s.foldl crcByte b) : a = b := by
  induction s generalizing a b with
  | nil => exact e
  | cons x s ih =>
    exact crcByte_inj a b x ha hb (ih _ _ (crcByte_lt a x ha) (crcByte_lt b x hb) e)

/-- feeding at most four bytes = feeding their little-endian value at once -/
theorem foldl_leVal (w : List UInt8) (h : Nat) :
    w.foldl crcByte h = crcBits (8 * w.length) (h ^^^ leVal w) := by
  induction w generalizing h with
  | nil => simp [crcBits, leVal]
  | cons b w ih =>
    simp only [List.foldl_cons, ih, crcByte, leVal, List.length_cons]
    rw [show 8 * (w.length + 1) = 8 + 8 * w.length by ring, crcBits_add]
    congr 1
    have e : b.toNat + 256 * leVal w = b.toNat ^^^ (leVal w <<< 8) := by
      have h1 : leVal w <<< 8 = 2 ^ 8 * leVal w := by rw [Nat.shiftLeft_eq]; ring
      rw [h1, show (256 : Nat) = 2 ^ 8 by rfl]
      apply Nat.eq_of_testBit_eq; intro i
      rw [Nat.testBit_xor, Nat.add_comm, Nat.testBit_two_pow_mul_add _ b.toNat_lt,
        Nat.testBit_two_pow_mul]
      by_cases hi : i < 8
      · have : ¬ 8 ≤ i := by omega
        simp [hi, this]
      · have h8 : 8 ≤ i := by omega
        have : b.toNat.testBit i = false :=
          Nat.testBit_lt_two_pow (Nat.lt_of_lt_of_le b.toNat_lt (Nat.pow_le_pow_right (by decide) h8))
        simp [hi, h8, this]
    rw [e, ← Nat.xor_assoc, crcBits_xor 8 (h ^^^ b.toNat), crcBits_shift]

theorem leVal_inj : ∀ (a b : List UInt8), a.length = b.length → leVal a = leVal b → a = b
  | [], [], _, _ => rfl
  | x :: a, y :: b, hl, hv => by
    have h1 := x.toNat_lt
    have h2 := y.toNat_lt
    simp only [leVal] at hv
    have hx : x.toNat = y.toNat := by omega
    have ht : leVal a = leVal b := by omega
    rw [UInt8.toNat_inj.mp hx, leVal_inj a b (by simpa using hl) ht]
  | [], _ :: _, hl, _ => by simp at hl
  | _ :: _, [], hl, _ => by simp at hl

theorem leVal_lt' (l : List UInt8) : leVal l < 256 ^ l.length := by
  induction l with
  | nil => simp [leVal]
  | cons b bs ih =>
    have hb := b.toNat_lt
    simp only [leVal, List.length_cons, Nat.pow_succ]
    omega

theorem window_inj (h : Nat) (hh : h < 2 ^ 32) (w w' : List UInt8) (hl : w.length = w'.length)
    (h4 : w.length ≤ 4) (e : w.foldl crcByte h = w'.foldl crcByte h) : w = w' := by
  rw [foldl_leVal, foldl_leVal, ← hl] at e
  have b1 : leVal w < 2 ^ 32 := lt_of_lt_of_le (leVal_lt' w)
    (le_trans (Nat.pow_le_pow_right (by norm_num) h4) (by norm_num))
  have b2 : leVal w' < 2 ^ 32 := lt_of_lt_of_le (leVal_lt' w')
    (le_trans (Nat.pow_le_pow_right (by norm_num) (hl ▸ h4)) (by norm_num))
  have := crcBits_inj _ _ _ (Nat.xor_lt_two_pow hh b1) (Nat.xor_lt_two_pow hh b2) e
  exact leVal_inj _ _ hl (xor_cancel_l this)

theorem crc32_window (p w w' q : List UInt8) (hl : w.length = w'.length) (h4 : w.length ≤ 4)
    (hne : w ≠ w') : crc32 (p ++ w ++ q) ≠ crc32 (p ++ w' ++ q) := by
  intro e
  unfold crc32 at e
  have e := xor_cancel_r e
  simp only [List.foldl_append] at e
  have hp : p.foldl crcByte 0xFFFFFFFF < 2 ^ 32 := foldl_lt p _ (by norm_num)
  exact hne (window_inj _ hp w w' hl h4 (foldl_inj q _ _ (foldl_lt w _ hp) (foldl_lt w' _ hp) e))

theorem crc32_lt (s : List UInt8) : crc32 s < 2 ^ 32 :=
  Nat.xor_lt_two_pow (foldl_lt s _ (by norm_num)) (by norm_num)

end Verif.Crc32
