import Verif.Proofs.ByteHandler

/-!
Properties C01, C02, C03: `ByteHandler`.

Specification vocabulary: bit `k` of a byte is `b.toNat.testBit k` (core library).
-/

namespace Verif.Props
open Verif.ByteHandler

/-- **C01** (in range).  After `SetBit(b,p,v)` with `p < 8` the call returned normally, reading the same
position returns `v`, and reading any other position returns what it returned before. -/
theorem C01_setBit_getBit (b : UInt8) (p : Nat) (v : Bool) (hp : p < 8) :
    ∃ b', setBit b p v = .ok b' ∧ getBit b' p = .ok v ∧
      ∀ q, q < 8 → q ≠ p → getBit b' q = getBit b q := by
  obtain ⟨b', h1, h2⟩ := setBit_ok b p v hp
  refine ⟨b', h1, ?_, ?_⟩
  · rw [getBit_eq _ _ hp, h2 p hp]; simp
  · intro q hq hne
    rw [getBit_eq _ _ hq, getBit_eq _ _ hq, h2 q hq]; simp [hne]

/-- **C01** (`GetBit` is the mathematical bit; both calls are total on valid positions, and throw
`invalid_argument` on all others; never UB). -/
theorem C01_getBit_spec (b : UInt8) (p : Nat) :
    getBit b p = if p < 8 then .ok (b.toNat.testBit p) else .throw .invalidArgument := by
  by_cases h : p < 8
  · simp [h, getBit_eq]
  · have : 8 ≤ p := by omega
    simp [h, getBit, this]

/-- **C01** (out of range): `SetBit` throws for every position ≥ 8. -/
theorem C01_setBit_out_of_range (b : UInt8) (p : Nat) (v : Bool) (hp : 8 ≤ p) :
    setBit b p v = .throw .invalidArgument := by simp [setBit, hp]

example : setBit 0b10110001 3 true = .ok 0b10111001 ∧ setBit 0b10110001 7 false = .ok 0b00110001 := by
  decide

/-- **C02** (errors).  A null pointer, fewer than 8 bytes, or a position beyond the last bit throws.
(`arrSz < 2^61` is every size whose bit count fits in `size_t`.) -/
theorem C02_arr_throws (arr : Option (List UInt8)) (n p : Nat) (v : Bool)
    (h : arr = none ∨ n < 8 ∨ n < 2 ^ 61 ∧ 8 * n ≤ p) :
    setBitArr arr n p v = .throw .invalidArgument ∧ getBitArr arr n p = .throw .invalidArgument := by
  have hg : arrGuardFails arr n p = true := by
    simp only [arrGuardFails, Bool.or_eq_true, decide_eq_true_eq]
    rcases h with h | h | h
    · left; left; simp [h]
    · left; right; omega
    · obtain ⟨hn, h⟩ := h
      by_cases h8 : n < 8
      · left; right; omega
      · right
        rw [mulSz_eq _ _ (by omega), subSz_eq _ _ (by omega) (by omega)]; omega
  simp [setBitArr, getBitArr, hg]

/-- **C02** (what happens in the accepted range).  For an array of `n ≥ 8` bytes and any position
`p < 8n`: positions 0..8 are UB for both calls (division by zero at 0, out-of-bounds access at 1..8);
at every other position `SetBit` changes nothing, whatever the value, and `GetBit` returns `false`.
So no position at all works. -/
theorem C02_arr_accepted (a : List UInt8) (p : Nat) (v : Bool) (hn : 8 ≤ a.length)
    (hn' : a.length < 2 ^ 61) (hp : p < 8 * a.length) :
    (p ≤ 8 → setBitArr (some a) a.length p v = .ub ∧ getBitArr (some a) a.length p = .ub) ∧
    (8 < p → setBitArr (some a) a.length p v = .ok a ∧ getBitArr (some a) a.length p = .ok false) := by
  have hg : arrGuardFails (some a) a.length p = false := by
    simp only [arrGuardFails, Option.isNone_some, Bool.false_or,
      Bool.or_eq_false_iff, decide_eq_false_iff_not]
    rw [mulSz_eq _ _ (by omega), subSz_eq _ _ (by omega) (by omega)]
    omega
  have hm : mulSz a.length 8 = a.length * 8 := mulSz_eq _ _ (by omega)
  constructor
  · intro h8
    by_cases h0 : p = 0
    · subst h0; simp [setBitArr, getBitArr, hg]
    · have hi : a.length ≤ a.length * 8 / p := by
        rw [Nat.le_div_iff_mul_le (by omega)]
        exact Nat.mul_le_mul_left _ h8
      simp [setBitArr, getBitArr, hg, h0, hm, hi]
  · intro h8
    have h0 : p ≠ 0 := by omega
    have hi : a.length * 8 / p < a.length := by
      rw [Nat.div_lt_iff_lt_mul (by omega)]
      exact (Nat.mul_lt_mul_left (by omega)).mpr h8
    have hb : 8 % p = 8 := Nat.mod_eq_of_lt h8
    have hor : ∀ b : UInt8, orAssign b (BIT 8) = b := by
      intro b; apply byte_ext; intro k hk
      rw [orAssign_testBit _ _ _ hk, BIT_eq, Nat.testBit_two_pow]
      have : ¬ 8 = k := by omega
      simp [this]
    have hand : ∀ b : UInt8, andAssign b (not32 (BIT 8)) = b := by
      intro b; apply byte_ext; intro k hk
      rw [andAssign_testBit _ _ _ hk, not32_testBit _ _ (by decide) (by omega), BIT_eq,
        Nat.testBit_two_pow]
      have : ¬ 8 = k := by omega
      simp [this]
    have hget : ∀ b : UInt8, (b.toNat &&& 8) >>> 8 = 0 := by
      intro b
      rw [Nat.shiftRight_eq_div_pow]
      have : b.toNat &&& 8 ≤ 8 := Nat.and_le_right
      omega
    constructor
    · simp only [setBitArr, hg, h0, hm, hb, if_false, List.getElem?_eq_getElem hi, Bool.false_eq_true]
      have e : (if v = true then orAssign a[a.length * 8 / p] (BIT 8) else a[a.length * 8 / p]) =
          a[a.length * 8 / p] := by
        cases v <;> simp [hor]
      rw [e, hand]
      simp
    · simp only [getBitArr, hg, h0, hm, hb, if_false, List.getElem?_eq_getElem hi, Bool.false_eq_true,
        hget]
      rfl

/-- **C02** (refutation of the user's expectation): writing `true` and reading back gives `false`. -/
theorem C02_expected_roundtrip_fails :
    ∃ (a : List UInt8) (p : Nat), 8 ≤ a.length ∧ p < 8 * a.length ∧
      setBitArr (some a) a.length p true = .ok a ∧ getBitArr (some a) a.length p = .ok false :=
  ⟨List.replicate 8 0, 17, by decide, by decide, by decide +kernel, by decide +kernel⟩

example : (8 : Nat) ≤ (List.replicate 9 (255 : UInt8)).length ∧
    setBitArr (some (List.replicate 9 255)) 9 5 false = .ub ∧
    getBitArr (some (List.replicate 9 255)) 9 71 = .ok false := by decide +kernel

/-- **C03** highest set bit: `2^r ≤ b < 2^(r+1)`; 0 for the zero byte. -/
theorem C03_getHigherBitPos (b : UInt8) (hb : b ≠ 0) :
    2 ^ (getHigherBitPos b).toNat ≤ b.toNat ∧ b.toNat < 2 ^ ((getHigherBitPos b).toNat + 1) := by
  have hb' : b.toNat ≠ 0 := fun h => hb (UInt8.toNat_inj.mp h)
  have h1 := Nat.log2_self_le hb'
  have h2 := @Nat.lt_log2_self b.toNat
  have h3 : b.toNat.log2 < 256 := by
    have := (Nat.log2_lt hb').mpr (show b.toNat < 2 ^ 8 from b.toNat_lt)
    omega
  have : (getHigherBitPos b).toNat = b.toNat.log2 := by
    simp only [getHigherBitPos, shiftCount_eq_log2, UInt8.toNat_ofNat']
    exact Nat.mod_eq_of_lt h3
  rw [this]
  exact ⟨h1, h2⟩

/-- **C03** lowest set bit: the returned position is set and every lower one is clear. -/
theorem C03_getLowerBitPos (b : UInt8) (hb : b ≠ 0) :
    (getLowerBitPos b).toNat < 8 ∧ b.toNat.testBit (getLowerBitPos b).toNat = true ∧
      ∀ k, k < (getLowerBitPos b).toNat → b.toNat.testBit k = false := by
  have hb' : b.toNat ≠ 0 := fun h => hb (UInt8.toNat_inj.mp h)
  obtain ⟨h1, h2⟩ := lowCount_spec b.toNat hb'
  have h3 : lowCount b.toNat < 8 := by
    apply Nat.lt_of_not_le
    intro hge
    rw [testBit_ge_of_byte b _ hge] at h1
    exact Bool.noConfusion h1
  have : (getLowerBitPos b).toNat = lowCount b.toNat := by
    simp only [getLowerBitPos, hb, if_false, UInt8.toNat_ofNat']
    exact Nat.mod_eq_of_lt (by omega)
  rw [this]
  exact ⟨h3, h1, h2⟩

/-- **C03** zero byte: the two position functions return 0 and 255 ("no such bit"). -/
theorem C03_zero_byte : getHigherBitPos 0 = 0 ∧ getLowerBitPos 0 = 255 := by
  constructor
  · simp [getHigherBitPos, shiftCount]
  · decide

/-- **C03** `CalcRealByteCnt` of every 64-bit number is the least `k ≥ 1` with `n < 256^k`. -/
theorem C03_calcRealByteCnt (n : Nat) (hn : n < 2 ^ 64) :
    1 ≤ (calcRealByteCnt n).toNat ∧ n < 256 ^ (calcRealByteCnt n).toNat ∧
      ∀ k, 1 ≤ k → n < 256 ^ k → (calcRealByteCnt n).toNat ≤ k := by
  by_cases h : n ≤ 255
  · have : (calcRealByteCnt n).toNat = 1 := by simp [calcRealByteCnt, h]
    rw [this]
    exact ⟨Nat.le_refl _, by omega, fun k hk _ => hk⟩
  · have h0 : n ≠ 0 := by omega
    have h1 := Nat.log2_self_le h0
    have h2 := @Nat.lt_log2_self n
    have h3 : n.log2 < 64 := (Nat.log2_lt h0).mpr hn
    have : (calcRealByteCnt n).toNat = n.log2 / 8 + 1 := by
      simp only [calcRealByteCnt, h, if_false, shiftCount_eq_log2, UInt8.toNat_ofNat']
      omega
    rw [this]
    refine ⟨by omega, ?_, ?_⟩
    · rw [show (256 : Nat) = 2 ^ 8 by decide, ← Nat.pow_mul]
      exact Nat.lt_of_lt_of_le h2 (Nat.pow_le_pow_right (by decide) (by omega))
    · intro k hk hlt
      rw [show (256 : Nat) = 2 ^ 8 by decide, ← Nat.pow_mul] at hlt
      have := (Nat.pow_lt_pow_iff_right (a := 2) (by decide)).mp (Nat.lt_of_le_of_lt h1 hlt)
      omega

example : (calcRealByteCnt 65536).toNat = 3 ∧ (getHigherBitPos 0x50).toNat = 6 ∧
    (getLowerBitPos 0x50).toNat = 4 := by
  refine ⟨?_, ?_, ?_⟩ <;>
    simp [calcRealByteCnt, getHigherBitPos, getLowerBitPos, shiftCount, lowCount, BIT]

end Verif.Props
