import Verif.Proofs.GdsiiHelpers

namespace Verif.Ieee

/-- rounding commutes with scaling by a power of two -/
theorem rne_scale (q : ℚ) (e : ℤ) : rne (q * 2 ^ e) = rne q * 2 ^ e := by
  by_cases h : q = 0
  · simp [h, rne_zero]
  · have h2 : (2 : ℚ) ^ e ≠ 0 := zpow_ne_zero _ (by norm_num)
    have h2p : (0 : ℚ) < 2 ^ e := zpow_pos (by norm_num) _
    have hq : 0 < |q| := abs_pos.mpr h
    have hqe : q * 2 ^ e ≠ 0 := mul_ne_zero h h2
    have hl : Int.log 2 |q * 2 ^ e| = Int.log 2 |q| + e := by
      rw [abs_mul, abs_of_pos h2p]
      have lx : (2 : ℚ) ^ (Int.log 2 |q|) ≤ |q| := by exact_mod_cast Int.zpow_log_le_self (by norm_num) hq
      have ux : |q| < (2 : ℚ) ^ (Int.log 2 |q| + 1) := by
        exact_mod_cast Int.lt_zpow_succ_log_self (b := 2) (by norm_num) |q|
      have hqp : 0 < |q| * 2 ^ e := mul_pos hq h2p
      apply le_antisymm
      · have : (2 : ℚ) ^ (Int.log 2 (|q| * 2 ^ e)) < 2 ^ (Int.log 2 |q| + 1 + e) := by
          have h1 : (2 : ℚ) ^ (Int.log 2 (|q| * 2 ^ e)) ≤ |q| * 2 ^ e := by
            exact_mod_cast Int.zpow_log_le_self (by norm_num) hqp
          refine lt_of_le_of_lt h1 ?_
          rw [zpow_add₀ (by norm_num)]
          exact mul_lt_mul_of_pos_right ux h2p
        have := (zpow_lt_zpow_iff_right₀ (by norm_num : (1 : ℚ) < 2)).mp this
        omega
      · have : (2 : ℚ) ^ (Int.log 2 |q| + e) < 2 ^ (Int.log 2 (|q| * 2 ^ e) + 1) := by
          have h1 : |q| * 2 ^ e < (2 : ℚ) ^ (Int.log 2 (|q| * 2 ^ e) + 1) := by
            exact_mod_cast Int.lt_zpow_succ_log_self (b := 2) (by norm_num) (|q| * 2 ^ e)
          refine lt_of_le_of_lt ?_ h1
          rw [zpow_add₀ (by norm_num)]
          exact mul_le_mul_of_nonneg_right lx h2p.le
        have := (zpow_lt_zpow_iff_right₀ (by norm_num : (1 : ℚ) < 2)).mp this
        omega
    have hu : ulp (q * 2 ^ e) = ulp q * 2 ^ e := by
      unfold ulp
      rw [hl, ← zpow_add₀ (by norm_num)]
      congr 1; ring
    simp only [rne, h, hqe, if_false, hu]
    rw [mul_div_mul_right _ _ h2, mul_assoc]

theorem rne_idem (q : ℚ) : rne (rne q) = rne q := by
  by_cases h : q = 0
  · rw [h, rne_zero, rne_zero]
  · have e : rne q = (roundEven (q / ulp q) : ℚ) * 2 ^ (Int.log 2 |q| - 52) := by simp only [rne, h, if_false]; rfl
    rw [e]
    apply rne_exact
    have hq : 0 < |q| := abs_pos.mpr h
    have ux : |q| < (2 : ℚ) ^ (Int.log 2 |q| + 1) := by
      exact_mod_cast Int.lt_zpow_succ_log_self (b := 2) (by norm_num) |q|
    have hb : |q / ulp q| < 2 ^ 53 := by
      rw [abs_div, abs_of_pos (ulp_pos q), div_lt_iff₀ (ulp_pos q)]
      have : (2 : ℚ) ^ 53 * ulp q = 2 ^ (Int.log 2 |q| + 1) := by
        unfold ulp
        rw [← zpow_natCast, ← zpow_add₀ (by norm_num)]
        congr 1; push_cast; ring
      rw [this]; exact ux
    obtain ⟨h1, h2⟩ := abs_lt.mp hb
    have l1 := roundEven_mono h1.le
    have l2 := roundEven_mono h2.le
    have c1 : roundEven (-2 ^ 53 : ℚ) = -2 ^ 53 := by have := roundEven_int (-2 ^ 53); push_cast at this; exact this
    have c2 : roundEven (2 ^ 53 : ℚ) = 2 ^ 53 := by have := roundEven_int (2 ^ 53); push_cast at this; exact this
    rw [c1] at l1
    rw [c2] at l2
    exact abs_le.mpr ⟨l1, l2⟩

end Verif.Ieee

namespace Verif.Gds
open Verif Spec.Gdsii Ieee

/-! ### reading reals -/

theorem bigEndian_append (bs : List UInt8) (b : UInt8) : bigEndian (bs ++ [b]) = 256 * bigEndian bs + b.toNat := by
  simp [bigEndian]

theorem bigEndian_lt (bs : List UInt8) : bigEndian bs < 256 ^ bs.length := by
  induction bs using List.reverseRecOn with
  | nil => simp [bigEndian]
  | append_singleton bs b ih =>
    rw [bigEndian_append, List.length_append, List.length_singleton, Nat.pow_succ]
    have := b.toNat_lt
    omega

theorem mantissaLoop_append (rnd : ℚ → ℚ) (bs : List UInt8) (b : UInt8) :
    mantissaLoop rnd (bs ++ [b]) = Fl.add rnd (Fl.mul rnd (mantissaLoop rnd bs) (.fin 0x100)) (.fin b.toNat) := by
  simp [mantissaLoop]

theorem mantissaLoop_exact {rnd : ℚ → ℚ} (hr : Rounding rnd) (bs : List UInt8) (hl : bs.length ≤ 6) :
    mantissaLoop rnd bs = .fin (bigEndian bs) := by
  induction bs using List.reverseRecOn with
  | nil => simp [mantissaLoop, bigEndian]
  | append_singleton bs b ih =>
    rw [List.length_append, List.length_singleton] at hl
    rw [mantissaLoop_append, ih (by omega)]
    have h1 := bigEndian_lt (bs ++ [b])
    have h2 : 256 ^ (bs ++ [b]).length ≤ 256 ^ 6 := Nat.pow_le_pow_right (by norm_num) (by simp; omega)
    rw [bigEndian_append] at h1
    have e1 : rnd ((bigEndian bs : ℚ) * 256) = ((256 * bigEndian bs : Nat) : ℚ) := by
      have := hr.nat (256 * bigEndian bs) (by omega)
      rw [← this]; congr 1; push_cast; ring
    have e2 : rnd (((256 * bigEndian bs : Nat) : ℚ) + (b.toNat : ℚ)) = ((256 * bigEndian bs + b.toNat : Nat) : ℚ) := by
      have := hr.nat (256 * bigEndian bs + b.toNat) (by omega)
      rw [← this]; congr 1; push_cast; ring
    simp only [Fl.mul, Fl.add]
    rw [e1, e2, bigEndian_append]

theorem mantissaLoop_seven {rnd : ℚ → ℚ} (hr : Rounding rnd) (bs : List UInt8) (hl : bs.length = 7) :
    mantissaLoop rnd bs = .fin (rnd (bigEndian bs)) := by
  obtain ⟨init, b, rfl⟩ : ∃ init b, bs = init ++ [b] := by
    cases bs using List.reverseRecOn with
    | nil => simp at hl
    | append_singleton i b => exact ⟨i, b, rfl⟩
  rw [List.length_append, List.length_singleton] at hl
  rw [mantissaLoop_append, mantissaLoop_exact hr init (by omega)]
  have h1 := bigEndian_lt init
  have h2 : 256 ^ init.length ≤ 256 ^ 6 := Nat.pow_le_pow_right (by norm_num) (by omega)
  have e1 : rnd ((bigEndian init : ℚ) * 256) = (bigEndian init : ℚ) * 256 := by
    have := hr.exact (bigEndian init) 8 (by rw [abs_of_nonneg (by omega)]; omega)
    have e : ((bigEndian init : ℤ) : ℚ) * 2 ^ (8 : ℤ) = (bigEndian init : ℚ) * 256 := by push_cast; norm_num
    rwa [e] at this
  simp only [Fl.mul, Fl.add]
  rw [e1, bigEndian_append]
  congr 2
  push_cast; ring

theorem byte_bits (b : UInt8) : (b.toNat &&& 0x80 ≠ 0 ↔ 128 ≤ b.toNat) ∧ b.toNat &&& 0x7f = b.toNat % 128 := by
  have key : ∀ n : Fin 256, (n.val &&& 0x80 ≠ 0 ↔ 128 ≤ n.val) ∧ n.val &&& 0x7f = n.val % 128 := by decide +kernel
  exact key ⟨b.toNat, b.toNat_lt⟩

theorem pow16 (n : Int) : (16 : ℚ) ^ n = 2 ^ (4 * n) := by
  rw [zpow_mul]; norm_num

theorem normalizeDouble_eq (b0 b1 b2 b3 b4 b5 b6 b7 : UInt8) :
    normalizeDouble rne [b0, b1, b2, b3, b4, b5, b6, b7] = .ok (.fin (rne (realValue b0 [b1, b2, b3, b4, b5, b6, b7]))) := by
  obtain ⟨hs, he⟩ := byte_bits b0
  unfold normalizeDouble
  dsimp only
  rw [mantissaLoop_seven rne_rounding _ rfl, he]
  generalize hM : bigEndian [b1, b2, b3, b4, b5, b6, b7] = M
  unfold powFl
  have hp : ((2 : ℚ) ^ ((7 : Int) * 8)) ≠ 0 := zpow_ne_zero _ (by norm_num)
  simp only [Fl.div, Fl.mul, hp, if_false]
  have e1 : rne ((M : ℕ) : ℚ) / 2 ^ ((7 : Int) * 8) = rne ((M : ℚ) * 2 ^ (-56 : Int)) := by
    rw [rne_scale, div_eq_mul_inv, ← zpow_neg]; norm_num
  have e2 : ∀ n : Int, rne (rne ((M : ℚ) * 2 ^ (-56 : Int)) * 16 ^ n) = rne ((M : ℚ) * 2 ^ (-56 : Int) * 16 ^ n) := by
    intro n
    rw [pow16, ← rne_scale, rne_idem]
  have e3 : (M : ℚ) * 2 ^ (-56 : Int) = (M : ℚ) / 2 ^ 56 := by
    rw [div_eq_mul_inv, zpow_neg]; norm_num
  rw [e1, rne_idem, e2, e3]
  unfold realValue
  have hc : ((b0.toNat % 128 : Nat) : Int) - 64 = (b0.toNat % 128 : Int) - 64 := by push_cast; rfl
  by_cases h : 128 ≤ b0.toNat
  · rw [if_pos (hs.mpr h), if_pos h]
    have e4 : ∀ x : ℚ, rne (rne x * -1) = rne (-1 * x) := by
      intro x
      rw [mul_neg_one, rne_neg, rne_idem, neg_one_mul, rne_neg]
    rw [e4, hc, hM, mul_assoc]
  · rw [if_neg (fun h' => h (hs.mp h')), if_neg h, hc, hM, one_mul]

/-! ### writing reals -/

theorem rnd_is53 {rnd : ℚ → ℚ} (hr : Rounding rnd) {q : ℚ} (h : Is53 q) : rnd q = q := by
  obtain ⟨k, e, hk, rfl⟩ := h
  exact hr.exact k e hk

theorem is53_scale {q : ℚ} (h : Is53 q) (e : Int) : Is53 (q * 2 ^ e) := by
  obtain ⟨k, f, hk, rfl⟩ := h
  exact ⟨k, f + e, hk, by rw [zpow_add₀ (by norm_num)]; ring⟩

theorem is53_abs {q : ℚ} (h : Is53 q) : Is53 |q| := by
  obtain ⟨k, f, hk, rfl⟩ := h
  refine ⟨|k|, f, by rwa [abs_abs], ?_⟩
  rw [abs_mul, abs_of_pos (show (0 : ℚ) < 2 ^ f from zpow_pos (by norm_num) _)]; push_cast; rfl

theorem is53_div16 {q : ℚ} (h : Is53 q) (n : Int) : Is53 (q / 16 ^ n) := by
  have : q / 16 ^ n = q * 2 ^ (4 * -n) := by rw [← pow16, zpow_neg, div_eq_mul_inv]
  rw [this]; exact is53_scale h _

theorem div16_eq {rnd : ℚ → ℚ} (hr : Rounding rnd) {a : ℚ} (h : Is53 a) (n : Int) :
    Fl.div rnd (.fin a) (powFl 16 n) = .fin (a / 16 ^ n) := by
  have hp : (16 : ℚ) ^ n ≠ 0 := zpow_ne_zero _ (by norm_num)
  simp only [Fl.div, powFl, hp, if_false, rnd_is53 hr (is53_div16 h n)]

theorem le_one {a : ℚ} (n : Int) : Fl.le (.fin (a / 16 ^ n)) (.fin 1) = true ↔ a ≤ 16 ^ n := by
  simp only [Fl.le, decide_eq_true_eq]
  rw [div_le_one (zpow_pos (by norm_num) _)]

/-- the search finds the exponent if there is one in the range -/
theorem findExponent_found {rnd : ℚ → ℚ} (hr : Rounding rnd) {a : ℚ} (ha : Is53 a) (E : Int) (h1 : (16 : ℚ) ^ (E - 1) < a)
    (h2 : a ≤ 16 ^ E) : ∀ (fuel : Nat) (e : Int) (m : Fl), e ≤ E → E < e + fuel →
      findExponent rnd (.fin a) fuel e m = (E, .fin (a / 16 ^ E)) := by
  intro fuel
  induction fuel with
  | zero => intro e m h3 h4; omega
  | succ fuel ih =>
    intro e m h3 h4
    unfold findExponent
    dsimp only
    rw [div16_eq hr ha]
    by_cases he : e = E
    · subst he
      rw [if_pos ((le_one e).mpr h2)]
    · rw [if_neg]
      · exact ih (e + 1) _ (by omega) (by push_cast at h4; omega)
      · rw [le_one]
        have : (16 : ℚ) ^ e ≤ 16 ^ (E - 1) := zpow_le_zpow_right₀ (by norm_num) (by omega)
        linarith

/-- the search ends behind the range if the number is too large -/
theorem findExponent_large {rnd : ℚ → ℚ} (hr : Rounding rnd) {a : ℚ} (ha : Is53 a) : ∀ (fuel : Nat) (e : Int) (m : Fl),
    (16 : ℚ) ^ (e + fuel) < a → findExponent rnd (.fin a) (fuel + 1) e m = (e + fuel + 1, .fin (a / 16 ^ (e + fuel))) := by
  intro fuel
  induction fuel with
  | zero =>
    intro e m h
    unfold findExponent
    dsimp only
    rw [div16_eq hr ha, if_neg]
    · simp [findExponent]
    · rw [le_one]; simp at h; linarith
  | succ fuel ih =>
    intro e m h
    unfold findExponent
    dsimp only
    rw [div16_eq hr ha, if_neg]
    · have e1 : e + ((fuel + 1 : Nat) : Int) = e + 1 + fuel := by push_cast; ring
      rw [e1] at h ⊢
      rw [ih (e + 1) _ h]
    · rw [le_one]
      have : (16 : ℚ) ^ e ≤ 16 ^ (e + ((fuel + 1 : Nat) : Int)) := zpow_le_zpow_right₀ (by norm_num) (by push_cast; omega)
      linarith

theorem shiftDown_eq {rnd : ℚ → ℚ} (hr : Rounding rnd) : ∀ (n : Nat) {x : ℚ}, Is53 x → shiftDown rnd n (.fin x) = .fin (x / 256 ^ n) := by
  intro n
  induction n with
  | zero => intro x _; simp [shiftDown]
  | succ n ih =>
    intro x hx
    unfold shiftDown
    have hp : (2 : ℚ) ^ (8 : Int) ≠ 0 := zpow_ne_zero _ (by norm_num)
    have e : x / 2 ^ (8 : Int) = x * 2 ^ (-8 : Int) := by rw [zpow_neg, div_eq_mul_inv]
    have hx' : Is53 (x / 2 ^ (8 : Int)) := e ▸ is53_scale hx _
    simp only [Fl.div, powFl, hp, if_false, rnd_is53 hr hx']
    rw [ih hx']
    congr 1
    rw [pow_succ]
    norm_num
    field_simp

theorem toU8_fmod {y : ℚ} (hy : 0 ≤ y) : toU8 (fmod256 (.fin y)) = .ok (UInt8.ofNat (⌊y⌋.toNat % 256)) := by
  have hf : (0 : ℚ) ≤ y - 256 * ⌊y / 256⌋ := by
    have := Int.floor_le (y / 256); linarith [(le_div_iff₀ (by norm_num : (0 : ℚ) < 256)).mp this]
  have hfl : ⌊y - 256 * ⌊y / 256⌋⌋ = ⌊y⌋ % 256 := by
    have e : (256 : ℚ) * ⌊y / 256⌋ = ((256 * ⌊y / 256⌋ : Int) : ℚ) := by push_cast; rfl
    rw [e, Int.floor_sub_intCast]
    have : ⌊y / 256⌋ = ⌊y⌋ / 256 := by
      have := Int.floor_div_natCast y 256
      push_cast at this
      exact this
    rw [this]
    omega
  have hn : 0 ≤ ⌊y⌋ := Int.floor_nonneg.mpr hy
  unfold fmod256 toU8
  dsimp only
  unfold Fl.truncQ
  rw [if_pos hf, hfl, if_pos (by omega)]
  congr 2
  omega

/-- the eight bytes: exponent byte and the 56-bit integer part of the mantissa -/
def real8 (b0 : UInt8) (N : Nat) : List UInt8 :=
  [b0, UInt8.ofNat (N / 256 ^ 6 % 256), UInt8.ofNat (N / 256 ^ 5 % 256), UInt8.ofNat (N / 256 ^ 4 % 256),
    UInt8.ofNat (N / 256 ^ 3 % 256), UInt8.ofNat (N / 256 ^ 2 % 256), UInt8.ofNat (N / 256 % 256), UInt8.ofNat (N % 256)]

theorem bytes_eq {rnd : ℚ → ℚ} (hr : Rounding rnd) {x : ℚ} (hx : Is53 x) (h0 : 0 ≤ x) (b0 : UInt8) :
    [6, 5, 4, 3, 2, 1, 0].foldl (fun (acc : Res (List UInt8)) k => do
      let bs ← acc
      let b ← toU8 (fmod256 (shiftDown rnd k (.fin x)))
      pure (bs ++ [b])) (.ok [b0]) = .ok (real8 b0 ⌊x⌋.toNat) := by
  have step : ∀ k : Nat, toU8 (fmod256 (shiftDown rnd k (.fin x))) = .ok (UInt8.ofNat (⌊x⌋.toNat / 256 ^ k % 256)) := by
    intro k
    rw [shiftDown_eq hr k hx, toU8_fmod (by positivity)]
    congr 2
    have : ⌊x / 256 ^ k⌋ = ⌊x⌋ / (256 ^ k : Nat) := by
      have := Int.floor_div_natCast x (256 ^ k)
      push_cast at this ⊢
      exact this
    rw [this]
    have hn : 0 ≤ ⌊x⌋ := Int.floor_nonneg.mpr h0
    obtain ⟨N, hN⟩ := Int.eq_ofNat_of_zero_le hn
    rw [hN]
    norm_cast
  simp only [List.foldl_cons, List.foldl_nil, step]
  simp only [bind, Res.bind, pure]
  simp [real8]

theorem bigEndian_seven (N : Nat) : bigEndian [UInt8.ofNat (N / 256 ^ 6 % 256), UInt8.ofNat (N / 256 ^ 5 % 256),
    UInt8.ofNat (N / 256 ^ 4 % 256), UInt8.ofNat (N / 256 ^ 3 % 256), UInt8.ofNat (N / 256 ^ 2 % 256), UInt8.ofNat (N / 256 % 256),
    UInt8.ofNat (N % 256)] = N % 2 ^ 56 := by
  have e : ∀ n, (UInt8.ofNat (n % 256)).toNat = n % 256 := fun n => by rw [UInt8.toNat_ofNat']; omega
  simp only [bigEndian, List.foldl_cons, List.foldl_nil, e]
  omega

theorem realValue_real8 (b0 : UInt8) (N : Nat) : ∃ bs, real8 b0 N = b0 :: bs ∧ bs.length = 7 ∧ bigEndian bs = N % 2 ^ 56 :=
  ⟨_, rfl, rfl, bigEndian_seven N⟩

end Verif.Gds
