import Verif.Proofs.GdsiiReal

/-!
C44 and C45: the number conversions of the GDSII reader.  A 16- or 32-bit integer read from a file is the bit vector
whose bytes in memory are the bytes of the file (little-endian host); a real is its eight bytes.
-/

namespace Verif.Props
open Verif Gds Spec.Gdsii Ieee

/-! ### C44 -/

/-- **C44** `Normalize_WORD` turns every two bytes of a file into the signed big-endian number they stand for. -/
theorem C44_normalize_word (v : BitVec 16) (b0 b1 : UInt8) (h : v.toNat = b0.toNat + 256 * b1.toNat) :
    (normalizeWord v).toInt = signed 16 (bigEndian [b0, b1]) := by
  rw [normalizeWord_eq, toInt_signed _ (by omega), word_toNat, byte_toNat, byte_toNat, h]
  have := b0.toNat_lt
  have := b1.toNat_lt
  simp only [bigEndian, List.foldl_cons, List.foldl_nil]
  congr 1
  omega

/-- **C44** `DeNormalize_WORD` is the inverse, in both orders. -/
theorem C44_word_inverse (v : BitVec 16) : deNormalizeWord (normalizeWord v) = v ∧ normalizeWord (deNormalizeWord v) = v := by
  rw [normalizeWord_eq, normalizeWord_eq]
  unfold deNormalizeWord
  have e : word (byte (word (byte v 1) (byte v 0)) 1) (byte (word (byte v 1) (byte v 0)) 0) = v := by
    rw [(byte_word _ _).1, (byte_word _ _).2, word_byte]
  exact ⟨e, e⟩

/-- **C44** `Normalize_DWORD` turns every four bytes into the signed big-endian number they stand for — except that
the bytes of -2147483648 overflow. -/
theorem C44_normalize_dword (v : BitVec 32) (b0 b1 b2 b3 : UInt8)
    (h : v.toNat = b0.toNat + 256 * b1.toNat + 65536 * b2.toNat + 16777216 * b3.toNat) :
    (signed 32 (bigEndian [b0, b1, b2, b3]) = -2147483648 → normalizeDword v = .ub) ∧
    (signed 32 (bigEndian [b0, b1, b2, b3]) ≠ -2147483648 →
      ∃ w, normalizeDword v = .ok w ∧ w.toInt = signed 32 (bigEndian [b0, b1, b2, b3])) := by
  have k0 := b0.toNat_lt
  have k1 := b1.toNat_lt
  have k2 := b2.toNat_lt
  have k3 := b3.toNat_lt
  have e : (dword (byte v 3) (byte v 2) (byte v 1) (byte v 0)).toNat = bigEndian [b0, b1, b2, b3] := by
    rw [dword_toNat, byte_toNat, byte_toNat, byte_toNat, byte_toNat, h]
    simp only [bigEndian, List.foldl_cons, List.foldl_nil, Nat.reducePow, Nat.pow_zero, Nat.div_one]
    have e1 : (b0.toNat + 256 * b1.toNat + 65536 * b2.toNat + 16777216 * b3.toNat) / 256 =
      b1.toNat + 256 * b2.toNat + 65536 * b3.toNat := by omega
    have e2 : (b0.toNat + 256 * b1.toNat + 65536 * b2.toNat + 16777216 * b3.toNat) / 65536 =
      b2.toNat + 256 * b3.toNat := by omega
    have e3 : (b0.toNat + 256 * b1.toNat + 65536 * b2.toNat + 16777216 * b3.toNat) / 16777216 = b3.toNat := by omega
    have m0 : (b0.toNat + 256 * b1.toNat + 65536 * b2.toNat + 16777216 * b3.toNat) % 256 = b0.toNat := by omega
    have m1 : (b1.toNat + 256 * b2.toNat + 65536 * b3.toNat) % 256 = b1.toNat := by omega
    have m2 : (b2.toNat + 256 * b3.toNat) % 256 = b2.toNat := by omega
    have m3 : b3.toNat % 256 = b3.toNat := by omega
    rw [e1, e2, e3, m0, m1, m2, m3]
    omega
  have hs : (dword (byte v 3) (byte v 2) (byte v 1) (byte v 0)).toInt = signed 32 (bigEndian [b0, b1, b2, b3]) := by
    rw [toInt_signed _ (by omega), e]
  rw [normalizeDword_eq]
  dsimp only
  constructor
  · intro hm
    rw [if_pos]
    apply BitVec.eq_of_toInt_eq
    rw [hs, hm]; decide
  · intro hm
    refine ⟨_, if_neg ?_, hs⟩
    intro hc
    rw [hc] at hs
    exact hm (by rw [← hs]; decide)

/-- **C44** `DeNormalize_DWORD` produces the big-endian bytes of every number. -/
theorem C44_denormalize_dword (w : BitVec 32) (b0 b1 b2 b3 : UInt8) (h : w.toNat = bigEndian [b0, b1, b2, b3]) :
    (deNormalizeDword w).toNat = b0.toNat + 256 * b1.toNat + 65536 * b2.toNat + 16777216 * b3.toNat := by
  have k0 := b0.toNat_lt
  have k1 := b1.toNat_lt
  have k2 := b2.toNat_lt
  have k3 := b3.toNat_lt
  simp only [bigEndian, List.foldl_cons, List.foldl_nil] at h
  unfold deNormalizeDword
  rw [dword_toNat, byte_toNat, byte_toNat, byte_toNat, byte_toNat, h]
  omega

/-- **C44** `DeNormalize_DWORD` is inverse to `Normalize_DWORD` wherever the latter is defined. -/
theorem C44_dword_inverse (v w : BitVec 32) :
    (normalizeDword v = .ok w → deNormalizeDword w = v) ∧ (w.toInt ≠ -2147483648 → normalizeDword (deNormalizeDword w) = .ok w) := by
  have sw : ∀ u : BitVec 32, deNormalizeDword (deNormalizeDword u) = u := by
    intro u
    unfold deNormalizeDword
    obtain ⟨h0, h1, h2, h3⟩ := byte_dword (byte u 3) (byte u 2) (byte u 1) (byte u 0)
    rw [h0, h1, h2, h3, dword_byte]
  have nz : ∀ u : BitVec 32, normalizeDword u = if deNormalizeDword u = 0x80000000#32 then .ub else .ok (deNormalizeDword u) := by
    intro u
    rw [normalizeDword_eq]
    unfold deNormalizeDword
    rfl
  constructor
  · intro h
    rw [nz] at h
    by_cases hc : deNormalizeDword v = 0x80000000#32
    · rw [if_pos hc] at h
      cases h
    · rw [if_neg hc] at h
      have h' : deNormalizeDword v = w := Res.ok.inj h
      rw [← h', sw]
  · intro h
    have hc : w ≠ 0x80000000#32 := by
      intro hc
      rw [hc] at h
      exact h (by decide)
    rw [nz, sw, if_neg hc]

/-- C44 at work: `ff fe` is -2, `80 00 00 00` overflows, `ff ff ff fd` is -3. -/
example : (normalizeWord 0xfeff#16).toInt = -2 ∧ normalizeDword 0x80#32 = .ub ∧ normalizeDword 0xfdffffff#32 = .ok (-3) := by
  refine ⟨?_, ?_, by decide⟩
  · rw [C44_normalize_word 0xfeff#16 0xff 0xfe (by decide)]; decide
  · exact (C44_normalize_dword 0x80#32 0x80 0 0 0 (by decide)).1 (by decide)

/-! ### C45 -/

/-- **C45** `Normalize_DOUBLE` returns, for every eight bytes, the value they stand for correctly rounded to 53 bits;
so it is exact whenever that value has at most 53 significant bits. -/
theorem C45_normalize (b0 b1 b2 b3 b4 b5 b6 b7 : UInt8) :
    normalizeDouble rne [b0, b1, b2, b3, b4, b5, b6, b7] = .ok (.fin (rne (realValue b0 [b1, b2, b3, b4, b5, b6, b7]))) ∧
    (Is53 (realValue b0 [b1, b2, b3, b4, b5, b6, b7]) →
      normalizeDouble rne [b0, b1, b2, b3, b4, b5, b6, b7] = .ok (.fin (realValue b0 [b1, b2, b3, b4, b5, b6, b7]))) := by
  refine ⟨normalizeDouble_eq .., fun h => ?_⟩
  rw [normalizeDouble_eq, rnd_is53 rne_rounding h]

/-- what `DeNormalize_DOUBLE` returns once the search has ended -/
theorem denorm_eq {rnd : ℚ → ℚ} (hr : Rounding rnd) {q : ℚ} {E : Int} {m : ℚ}
    (hem : (if Fl.le (.fin (2 ^ (-52 : Int))) (fabs (fabs (.fin q))) then findExponent rnd (fabs (.fin q)) 128 (-64) (.fin 0)
      else (0, .fin 0)) = (E, .fin m)) (hm : Is53 m) (h0 : 0 ≤ m) :
    deNormalizeDouble rnd (.fin q) =
      .ok (real8 (UInt8.ofNat (if q < 0 then (E + 64).toNat ||| 0x80 else (E + 64).toNat)) ⌊m * 2 ^ 56⌋.toNat) := by
  unfold deNormalizeDouble
  dsimp only
  rw [hem]
  dsimp only
  have e : (2 : ℚ) ^ (56 : Int) = 2 ^ 56 := by norm_num
  have hx : Is53 (m * 2 ^ 56) := e ▸ is53_scale hm 56
  have : Fl.mul rnd (.fin m) (powFl 2 56) = .fin (m * 2 ^ 56) := by
    simp only [Fl.mul, powFl]
    rw [e, rnd_is53 hr hx]
  rw [this, bytes_eq hr hx (by positivity)]
  simp only [Fl.lt, decide_eq_true_eq]

theorem le_eps (q : ℚ) : Fl.le (.fin (2 ^ (-52 : Int))) (fabs (fabs (.fin q))) = true ↔ (2 : ℚ) ^ (-52 : Int) ≤ |q| := by
  simp only [Fl.le, fabs, abs_abs, decide_eq_true_eq]

/-- every number in range lies in one hexadecimal decade -/
theorem decade {a : ℚ} (h1 : (2 : ℚ) ^ (-52 : Int) ≤ a) (h2 : a ≤ 16 ^ (63 : Int)) :
    ∃ E : Int, -13 ≤ E ∧ E ≤ 63 ∧ (16 : ℚ) ^ (E - 1) < a ∧ a ≤ 16 ^ E := by
  have h1' : (16 : ℚ) ^ (-13 : Int) ≤ a := by rw [pow16]; exact h1
  have key : ∀ n : Nat, a ≤ 16 ^ (-13 + (n : Int)) → ∃ E : Int, -13 ≤ E ∧ E ≤ -13 + n ∧ (16 : ℚ) ^ (E - 1) < a ∧ a ≤ 16 ^ E := by
    intro n
    induction n with
    | zero =>
      intro h
      refine ⟨-13, by omega, by omega, ?_, by simpa using h⟩
      have : (16 : ℚ) ^ (-13 - 1 : Int) < 16 ^ (-13 : Int) := zpow_lt_zpow_right₀ (by norm_num) (by omega)
      linarith
    | succ n ih =>
      intro h
      by_cases hn : a ≤ 16 ^ (-13 + (n : Int))
      · obtain ⟨E, e1, e2, e3⟩ := ih hn
        exact ⟨E, e1, by omega, e3⟩
      · refine ⟨-13 + (n + 1 : Nat), by omega, by omega, ?_, h⟩
        have : (-13 + ((n + 1 : Nat) : Int) - 1) = -13 + n := by push_cast; ring
        rw [this]
        exact not_le.mp hn
  obtain ⟨E, e1, e2, e3⟩ := key 76 (by norm_num at h2 ⊢; exact h2)
  exact ⟨E, e1, by omega, e3⟩

/-- in range, `DeNormalize_DOUBLE` yields this exponent byte and mantissa -/
theorem denorm_range {q : ℚ} (hq : Is53 q) (h52 : (2 : ℚ) ^ (-52 : Int) ≤ |q|) {E : Int} (hE1 : -13 ≤ E) (hE2 : E ≤ 63)
    (h1 : (16 : ℚ) ^ (E - 1) < |q|) (h2 : |q| ≤ 16 ^ E) :
    deNormalizeDouble rne (.fin q) =
      .ok (real8 (UInt8.ofNat (if q < 0 then (E + 64).toNat ||| 0x80 else (E + 64).toNat)) ⌊|q| / 16 ^ E * 2 ^ 56⌋.toNat) := by
  have hp : (0 : ℚ) < 16 ^ E := zpow_pos (by norm_num) _
  apply denorm_eq rne_rounding _ (is53_div16 (is53_abs hq) E) (by positivity)
  rw [if_pos ((le_eps q).mpr h52)]
  exact findExponent_found rne_rounding (is53_abs hq) E h1 h2 128 (-64) _ (by omega) (by omega)

/-- sign and exponent of the first byte -/
theorem first_byte (n : Nat) (hn : n < 128) (q : ℚ) :
    let b := UInt8.ofNat (if q < 0 then n ||| 0x80 else n)
    b.toNat % 128 = n ∧ (128 ≤ b.toNat ↔ q < 0) := by
  have key : ∀ n : Fin 128, (UInt8.ofNat (n.val ||| 0x80)).toNat % 128 = n.val ∧ 128 ≤ (UInt8.ofNat (n.val ||| 0x80)).toNat ∧
      (UInt8.ofNat n.val).toNat = n.val := by decide +kernel
  obtain ⟨k1, k2, k3⟩ := key ⟨n, hn⟩
  dsimp only at k1 k2 k3 ⊢
  by_cases h : q < 0
  · simp only [h, if_true, iff_true]; exact ⟨k1, k2⟩
  · simp only [h, if_false, iff_false, k3]; omega

/-- an integer above 2^52 among the 53-bit numbers -/
theorem integral {x : ℚ} (hx : Is53 x) (h : 2 ^ 52 < x) : ∃ n : Int, x = n := by
  obtain ⟨k, e, hk, rfl⟩ := hx
  rcases le_or_gt 0 e with he | he
  · refine ⟨k * 2 ^ e.toNat, ?_⟩
    push_cast
    rw [← zpow_natCast, Int.toNat_of_nonneg he]
  · exfalso
    have h1 : (2 : ℚ) ^ e ≤ 2 ^ (-1 : Int) := zpow_le_zpow_right₀ (by norm_num) (by omega)
    have h2 : (k : ℚ) ≤ 2 ^ 53 := by
      have : k ≤ 2 ^ 53 := le_trans (le_abs_self k) hk
      exact_mod_cast this
    have h3 : (0 : ℚ) < 2 ^ e := zpow_pos (by norm_num) _
    have h4 : (k : ℚ) * 2 ^ e ≤ 2 ^ 53 * 2 ^ (-1 : Int) := by
      have : (k : ℚ) * 2 ^ e ≤ 2 ^ 53 * 2 ^ e := mul_le_mul_of_nonneg_right h2 h3.le
      have : (2 : ℚ) ^ 53 * 2 ^ e ≤ 2 ^ 53 * 2 ^ (-1 : Int) := mul_le_mul_of_nonneg_left h1 (by norm_num)
      linarith
    norm_num at h4
    linarith

/-- **C45** Round trip: every number with at most 53 significant bits from 2^-52 up to 16^63 in magnitude that is not
a power of 16 is written as eight bytes that stand for exactly that number, and reads back as that number. -/
theorem C45_roundtrip (q : ℚ) (hq : Is53 q) (h1 : (2 : ℚ) ^ (-52 : Int) ≤ |q|) (h2 : |q| ≤ 16 ^ (63 : Int)) (hp : ¬ PowerOf16 q) :
    ∃ b0 b1 b2 b3 b4 b5 b6 b7, deNormalizeDouble rne (.fin q) = .ok [b0, b1, b2, b3, b4, b5, b6, b7] ∧
      realValue b0 [b1, b2, b3, b4, b5, b6, b7] = q ∧ normalizeDouble rne [b0, b1, b2, b3, b4, b5, b6, b7] = .ok (.fin q) := by
  obtain ⟨E, e1, e2, e3, e4⟩ := decade h1 h2
  have hd := denorm_range hq h1 e1 e2 e3 e4
  have h16 : (0 : ℚ) < 16 ^ E := zpow_pos (by norm_num) _
  have hlt : |q| < 16 ^ E := lt_of_le_of_ne e4 fun h => hp ⟨E, h⟩
  have hx53 : Is53 (|q| / 16 ^ E * 2 ^ 56) := by
    have e : (2 : ℚ) ^ (56 : Int) = 2 ^ 56 := by norm_num
    exact e ▸ is53_scale (is53_div16 (is53_abs hq) E) 56
  have hx1 : 2 ^ 52 < |q| / 16 ^ E * 2 ^ 56 := by
    have : (1 : ℚ) / 16 < |q| / 16 ^ E := by
      rw [lt_div_iff₀ h16]
      have : (16 : ℚ) ^ (E - 1) = 1 / 16 * 16 ^ E := by rw [zpow_sub₀ (by norm_num)]; norm_num; ring
      rw [← this]; exact e3
    linarith
  have hx2 : |q| / 16 ^ E * 2 ^ 56 < 2 ^ 56 := by
    have : |q| / 16 ^ E < 1 := by rw [div_lt_one h16]; exact hlt
    linarith
  obtain ⟨n, hn⟩ := integral hx53 hx1
  have hnl : n < 2 ^ 56 := by rw [hn] at hx2; exact_mod_cast hx2
  have hnp : 0 ≤ n := by
    have : (0 : ℚ) < n := by rw [← hn]; linarith
    exact_mod_cast this.le
  have hfl : ⌊|q| / 16 ^ E * 2 ^ 56⌋.toNat = n.toNat := by rw [hn, Int.floor_intCast]
  rw [hfl] at hd
  have hbe := bigEndian_seven n.toNat
  have hfb := first_byte (E + 64).toNat (by omega) q
  dsimp only at hfb
  have hv : realValue (UInt8.ofNat (if q < 0 then (E + 64).toNat ||| 0x80 else (E + 64).toNat))
      [UInt8.ofNat (n.toNat / 256 ^ 6 % 256), UInt8.ofNat (n.toNat / 256 ^ 5 % 256), UInt8.ofNat (n.toNat / 256 ^ 4 % 256),
        UInt8.ofNat (n.toNat / 256 ^ 3 % 256), UInt8.ofNat (n.toNat / 256 ^ 2 % 256), UInt8.ofNat (n.toNat / 256 % 256),
        UInt8.ofNat (n.toNat % 256)] = q := by
    unfold realValue
    rw [hbe, Nat.mod_eq_of_lt (by omega)]
    have hc : ((n.toNat : Nat) : ℚ) = n := by
      have : ((n.toNat : Nat) : Int) = n := Int.toNat_of_nonneg hnp
      exact_mod_cast this
    have he : ((UInt8.ofNat (if q < 0 then (E + 64).toNat ||| 0x80 else (E + 64).toNat)).toNat % 128 : Int) - 64 = E := by
      have := hfb.1
      omega
    rw [hc, he, ← hn]
    have hz : |q| / 16 ^ E * 2 ^ 56 / 2 ^ 56 = |q| / 16 ^ E := by field_simp
    rw [hz, mul_assoc, div_mul_cancel₀ _ h16.ne']
    by_cases hneg : q < 0
    · rw [if_pos (hfb.2.mpr hneg), abs_of_neg hneg]; ring
    · rw [if_neg (fun h => hneg (hfb.2.mp h)), abs_of_nonneg (not_lt.mp hneg)]; ring
  refine ⟨_, _, _, _, _, _, _, _, hd, hv, ?_⟩
  rw [normalizeDouble_eq, hv, rnd_is53 rne_rounding hq]

/-- eight bytes with an all-zero mantissa read as zero -/
theorem zero_mantissa (b0 : UInt8) (N : Nat) (h : N % 2 ^ 56 = 0) :
    normalizeDouble rne (real8 b0 N) = .ok (.fin 0) := by
  have hbe := bigEndian_seven N
  unfold real8
  rw [normalizeDouble_eq]
  unfold realValue
  rw [hbe, h]
  simp [rne_zero]

/-- **C45** Powers of 16 are lost: they are written with a zero mantissa and read back as 0 (1.0 among them). -/
theorem C45_power_lost (q : ℚ) (n : Int) (hn : -13 ≤ n ∧ n ≤ 63) (hq : |q| = (16 : ℚ) ^ n) :
    ∃ bs, deNormalizeDouble rne (.fin q) = .ok bs ∧ normalizeDouble rne bs = .ok (.fin 0) := by
  have hp : (0 : ℚ) < 16 ^ n := zpow_pos (by norm_num) _
  have h53 : Is53 q := by
    rcases abs_choice q with h | h
    · exact ⟨1, 4 * n, by norm_num, by rw [h] at hq; rw [hq, pow16]; push_cast; ring⟩
    · exact ⟨-1, 4 * n, by norm_num, by rw [h] at hq; rw [← pow16, ← hq]; push_cast; ring⟩
  have h52 : (2 : ℚ) ^ (-52 : Int) ≤ |q| := by
    rw [hq, pow16]
    exact zpow_le_zpow_right₀ (by norm_num) (by omega)
  refine ⟨_, denorm_range h53 h52 hn.1 hn.2 ?_ hq.le, ?_⟩
  · rw [hq]; exact zpow_lt_zpow_right₀ (by norm_num) (by omega)
  · apply zero_mantissa
    rw [hq, div_self hp.ne', one_mul]
    have : ⌊(2 : ℚ) ^ 56⌋ = 2 ^ 56 := by
      have := Int.floor_intCast (R := ℚ) (2 ^ 56)
      push_cast at this
      exact this
    rw [this]
    decide

/-- **C45** Numbers below 2^-52 in magnitude are lost, too. -/
theorem C45_small_lost (q : ℚ) (h : |q| < (2 : ℚ) ^ (-52 : Int)) :
    ∃ bs, deNormalizeDouble rne (.fin q) = .ok bs ∧ normalizeDouble rne bs = .ok (.fin 0) := by
  refine ⟨_, denorm_eq rne_rounding (E := 0) (m := 0) ?_ ⟨0, 0, by norm_num, by norm_num⟩ le_rfl, ?_⟩
  · rw [if_neg]
    rw [le_eps]
    exact not_le.mpr h
  · apply zero_mantissa
    simp

/-- **C45** Numbers above 16^63 in magnitude are written as tiny negative ones, whatever their sign. -/
theorem C45_large_lost (q : ℚ) (hq : Is53 q) (h : (16 : ℚ) ^ (63 : Int) < |q|) :
    ∃ b1 b2 b3 b4 b5 b6 b7, deNormalizeDouble rne (.fin q) = .ok [128, b1, b2, b3, b4, b5, b6, b7] ∧
      realValue 128 [b1, b2, b3, b4, b5, b6, b7] ≤ 0 ∧ -(16 : ℚ) ^ (-64 : Int) < realValue 128 [b1, b2, b3, b4, b5, b6, b7] := by
  have hem : (if Fl.le (.fin (2 ^ (-52 : Int))) (fabs (fabs (.fin q))) then findExponent rne (fabs (.fin q)) 128 (-64) (.fin 0)
      else (0, .fin 0)) = (64, .fin (|q| / 16 ^ (63 : Int))) := by
    rw [if_pos]
    · have := findExponent_large rne_rounding (is53_abs hq) 127 (-64) (.fin 0) (by norm_num at h ⊢; exact h)
      norm_num at this ⊢
      exact this
    · rw [le_eps]
      have : (2 : ℚ) ^ (-52 : Int) ≤ 16 ^ (63 : Int) := by rw [pow16]; exact zpow_le_zpow_right₀ (by norm_num) (by omega)
      linarith
  have hd := denorm_eq rne_rounding hem (is53_div16 (is53_abs hq) 63) (by positivity)
  have h128 : UInt8.ofNat (if q < 0 then (64 + 64 : Int).toNat ||| 0x80 else (64 + 64 : Int).toNat) = 128 := by
    split <;> decide
  rw [h128] at hd
  refine ⟨_, _, _, _, _, _, _, hd, ?_⟩
  have hbe := bigEndian_seven ⌊|q| / 16 ^ (63 : Int) * 2 ^ 56⌋.toNat
  unfold realValue
  rw [hbe]
  generalize ⌊|q| / 16 ^ (63 : Int) * 2 ^ 56⌋.toNat = N
  have e1 : (128 : UInt8).toNat = 128 := rfl
  have e2 : (((128 : UInt8).toNat % 128 : Nat) : Int) = 0 := rfl
  have e3 : ((128 : UInt8).toNat % 128 : Int) - 64 = -64 := by rw [e1]; rfl
  rw [e3, if_pos (by rw [e1])]
  have hN : ((N % 2 ^ 56 : Nat) : ℚ) / 2 ^ 56 < 1 := by
    rw [div_lt_one (by norm_num)]
    have : N % 2 ^ 56 < 2 ^ 56 := Nat.mod_lt _ (by norm_num)
    exact_mod_cast this
  have hN0 : (0 : ℚ) ≤ ((N % 2 ^ 56 : Nat) : ℚ) / 2 ^ 56 := by positivity
  have hp : (0 : ℚ) < 16 ^ (-64 : Int) := zpow_pos (by norm_num) _
  constructor <;> nlinarith

/-- **C45** Infinities are undefined (a NaN is converted to a byte); NaN is written as zero. -/
theorem C45_special : deNormalizeDouble rne .pinf = .ub ∧ deNormalizeDouble rne .ninf = .ub ∧
    ∃ bs, deNormalizeDouble rne .nan = .ok bs ∧ normalizeDouble rne bs = .ok (.fin 0) := by
  have hf : ∀ (fuel : Nat) (e : Int), (findExponent rne .pinf (fuel + 1) e (.fin 0)).2 = .pinf := by
    have : ∀ (fuel : Nat) (e : Int) (m : Fl), m = .pinf → (findExponent rne .pinf fuel e m).2 = .pinf := by
      intro fuel
      induction fuel with
      | zero => intro e m h; exact h
      | succ fuel ih =>
        intro e m h
        have hp : ¬ (16 : ℚ) ^ e < 0 := not_lt.mpr (zpow_pos (by norm_num) _).le
        unfold findExponent
        simp only [Fl.div, powFl, hp, if_false, Fl.le, Bool.false_eq_true]
        exact ih _ _ rfl
    intro fuel e
    have hp : ¬ (16 : ℚ) ^ e < 0 := not_lt.mpr (zpow_pos (by norm_num) _).le
    unfold findExponent
    simp only [Fl.div, powFl, hp, if_false, Fl.le, Bool.false_eq_true]
    exact this _ _ _ rfl
  have hs : ∀ n, shiftDown rne n .pinf = .pinf := by
    intro n
    induction n with
    | zero => rfl
    | succ n ih =>
      unfold shiftDown
      have hp : ¬ (2 : ℚ) ^ (8 : Int) < 0 := by norm_num
      simp only [Fl.div, powFl, hp, if_false]
      exact ih
  have hm : Fl.mul rne .pinf (powFl 2 56) = .pinf := by
    have : (0 : ℚ) < 2 ^ (56 : Int) := by norm_num
    simp only [Fl.mul, powFl, Fl.infOf, this, if_true]
  have hle : ∀ q, Fl.le (.fin q) .pinf = true := fun q => rfl
  refine ⟨?_, ?_, ?_⟩
  · unfold deNormalizeDouble
    simp only [fabs, hle, if_true, hf 127 (-64), hm, List.foldl_cons, hs, fmod256, toU8]
    rfl
  · unfold deNormalizeDouble
    simp only [fabs, hle, if_true, hf 127 (-64), hm, List.foldl_cons, hs, fmod256, toU8]
    rfl
  · have := C45_small_lost 0 (by norm_num)
    have e : deNormalizeDouble rne .nan = deNormalizeDouble rne (.fin 0) := by
      unfold deNormalizeDouble
      have h1 : Fl.le (.fin (2 ^ (-52 : Int))) (fabs (fabs .nan)) = false := rfl
      have h2 : Fl.le (.fin (2 ^ (-52 : Int))) (fabs (fabs (.fin 0))) = false := by
        rw [← Bool.not_eq_true, le_eps]; norm_num
      have h3 : Fl.lt (.fin 0) (.fin 0) = false := by simp [Fl.lt]
      have h4 : Fl.lt .nan (.fin 0) = false := rfl
      simp only [h1, h2, h3, h4, Bool.false_eq_true, if_false]
    rw [e]; exact this

/-- C45 at work: 3/2 survives a round trip, 1 does not. -/
example : (∃ b0 b1 b2 b3 b4 b5 b6 b7, deNormalizeDouble rne (.fin (3 / 2)) = .ok [b0, b1, b2, b3, b4, b5, b6, b7] ∧
      normalizeDouble rne [b0, b1, b2, b3, b4, b5, b6, b7] = .ok (.fin (3 / 2))) ∧
    ∃ bs, deNormalizeDouble rne (.fin 1) = .ok bs ∧ normalizeDouble rne bs = .ok (.fin 0) := by
  constructor
  · obtain ⟨b0, b1, b2, b3, b4, b5, b6, b7, h1, _, h2⟩ := C45_roundtrip (3 / 2) ⟨3, -1, by norm_num, by norm_num⟩ (by norm_num)
      (by norm_num) (by
        rintro ⟨n, hn⟩
        rw [abs_of_pos (by norm_num)] at hn
        rcases le_or_gt n 0 with h | h
        · have : (16 : ℚ) ^ n ≤ 16 ^ (0 : Int) := zpow_le_zpow_right₀ (by norm_num) h
          rw [← hn] at this; norm_num at this
        · have : (16 : ℚ) ^ (1 : Int) ≤ 16 ^ n := zpow_le_zpow_right₀ (by norm_num) h
          rw [← hn] at this; norm_num at this)
    exact ⟨_, _, _, _, _, _, _, _, h1, h2⟩
  · exact C45_power_lost 1 0 (by norm_num) (by norm_num)

/-- C45_small_lost and C45_large_lost at work. -/
example : |(2 : ℚ) ^ (-60 : Int)| < 2 ^ (-52 : Int) ∧ Is53 (16 ^ (64 : Int)) ∧ (16 : ℚ) ^ (63 : Int) < |16 ^ (64 : Int)| :=
  ⟨by norm_num, ⟨1, 256, by norm_num, by norm_num⟩, by norm_num⟩

/-- C45_normalize at work: the bytes 41 10 00 … stand for 1 (16 · 1/16). -/
example : normalizeDouble rne [0x41, 0x10, 0, 0, 0, 0, 0, 0] = .ok (.fin 1) := by
  have h : realValue 0x41 [0x10, 0, 0, 0, 0, 0, 0] = 1 := by
    have e1 : (0x41 : UInt8).toNat = 65 := rfl
    have e2 : bigEndian [0x10, 0, 0, 0, 0, 0, 0] = 2 ^ 52 := by decide
    unfold realValue
    rw [e2, e1]; norm_num
  rw [(C45_normalize _ _ _ _ _ _ _ _).2 ⟨1, 0, by norm_num, by rw [h]; norm_num⟩, h]

end Verif.Props
