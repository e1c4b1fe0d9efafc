import Verif.Model.Ieee
import Mathlib.Tactic.Linarith
import Mathlib.Tactic.Ring
import Mathlib.Tactic.FieldSimp
import Mathlib.Tactic.NormNum
import Mathlib.Tactic.Positivity

/-! `rne` satisfies `Rounding`. -/

namespace Verif.Ieee

theorem floor_le_roundEven (x : ℚ) : ⌊x⌋ ≤ roundEven x := by
  unfold roundEven; split_ifs <;> omega

theorem roundEven_le (x : ℚ) : roundEven x ≤ ⌊x⌋ + 1 := by
  unfold roundEven; split_ifs <;> omega

theorem roundEven_mono {x y : ℚ} (h : x ≤ y) : roundEven x ≤ roundEven y := by
  have hf : ⌊x⌋ ≤ ⌊y⌋ := Int.floor_mono h
  rcases hf.lt_or_eq with hlt | heq
  · have h1 := roundEven_le x
    have h2 := floor_le_roundEven y
    omega
  · unfold roundEven
    rw [heq]
    split_ifs <;> first | omega | (exfalso; linarith)

theorem roundEven_int (n : ℤ) : roundEven n = n := by
  simp [roundEven]

theorem roundEven_err (x : ℚ) : |(roundEven x : ℚ) - x| ≤ 1 / 2 := by
  have h1 := Int.floor_le x
  have h2 := Int.lt_floor_add_one x
  unfold roundEven
  split_ifs with a b c <;> push_cast <;> rw [abs_le] <;> constructor <;> linarith

theorem ulp_pos (q : ℚ) : 0 < ulp q := by unfold ulp; exact zpow_pos (by norm_num) _

theorem rne_zero : rne 0 = 0 := by simp [rne]

theorem rne_err (q : ℚ) : |rne q - q| ≤ |q| / 2 ^ 53 := by
  by_cases h : q = 0
  · simp [h, rne_zero]
  · have hu := ulp_pos q
    have e : rne q - q = (roundEven (q / ulp q) - q / ulp q) * ulp q := by
      simp only [rne, h, if_false]; field_simp
    rw [e, abs_mul, abs_of_pos hu]
    have h1 := roundEven_err (q / ulp q)
    have hq : 0 < |q| := abs_pos.mpr h
    have h2 : (2 : ℚ) ^ (Int.log 2 |q|) ≤ |q| := by exact_mod_cast Int.zpow_log_le_self (by norm_num) hq
    have h3 : ulp q = 2 ^ (Int.log 2 |q|) / 2 ^ 52 := by
      unfold ulp; rw [zpow_sub₀ (by norm_num)]; norm_cast
    calc _ ≤ 1 / 2 * ulp q := by gcongr
      _ = 2 ^ (Int.log 2 |q|) / 2 ^ 53 := by rw [h3]; ring
      _ ≤ _ := by gcongr

theorem rne_exact (k e : ℤ) (hk : |k| ≤ 2 ^ 53) : rne (k * 2 ^ e) = k * 2 ^ e := by
  by_cases h : (k * 2 ^ e : ℚ) = 0
  · rw [h, rne_zero]
  · have hk0 : k ≠ 0 := by rintro rfl; simp at h
    have hq : 0 < |(k * 2 ^ e : ℚ)| := abs_pos.mpr h
    set q : ℚ := k * 2 ^ e with hqd
    set L := Int.log 2 |q| with hL
    have habs : |q| = (|k| : ℤ) * 2 ^ e := by
      rw [hqd, abs_mul, abs_of_pos (show (0 : ℚ) < 2 ^ e from zpow_pos (by norm_num) _)]; norm_cast
    -- q / ulp is an integer
    suffices hint : ∃ n : ℤ, q / ulp q = n by
      obtain ⟨n, hn⟩ := hint
      simp only [rne, h, if_false]
      rw [hn, roundEven_int, ← hn]
      field_simp [ne_of_gt (ulp_pos q)]
    have hu : ulp q = 2 ^ (L - 52) := rfl
    have hdiv : q / ulp q = k * 2 ^ (e - (L - 52)) := by
      rw [hu, hqd, mul_div_assoc, ← zpow_sub₀ (by norm_num)]
    rw [hdiv]
    have hle : (2 : ℚ) ^ L ≤ |q| := by exact_mod_cast Int.zpow_log_le_self (by norm_num) hq
    rcases le_or_gt (L - 52) e with hc | hc
    · refine ⟨k * 2 ^ (e - (L - 52)).toNat, ?_⟩
      push_cast
      rw [← zpow_natCast, Int.toNat_of_nonneg (by omega)]
    · -- then |k| = 2^53
      have h1 : (2 : ℚ) ^ L ≤ 2 ^ (53 + e) := by
        refine le_trans hle ?_
        rw [habs, zpow_add₀ (by norm_num)]
        have : ((|k| : ℤ) : ℚ) ≤ 2 ^ (53 : ℤ) := by exact_mod_cast hk
        exact mul_le_mul_of_nonneg_right this (zpow_pos (by norm_num) _).le
      have h2 : L ≤ 53 + e := (zpow_le_zpow_iff_right₀ (by norm_num : (1 : ℚ) < 2)).mp h1
      have hLe : L = 53 + e := by omega
      have h3 : |k| = 2 ^ 53 := by
        apply le_antisymm hk
        have : (2 : ℚ) ^ (53 : ℤ) * 2 ^ e ≤ (|k| : ℤ) * 2 ^ e := by
          rw [← habs, ← zpow_add₀ (by norm_num), ← hLe]; exact hle
        have := le_of_mul_le_mul_right this (zpow_pos (by norm_num) _)
        exact_mod_cast this
      have h4 : e - (L - 52) = -1 := by omega
      rw [h4]
      rcases abs_choice k with hk' | hk'
      · refine ⟨2 ^ 52, ?_⟩
        have : k = 2 ^ 53 := by omega
        rw [this]; norm_num
      · refine ⟨-2 ^ 52, ?_⟩
        have : k = -2 ^ 53 := by omega
        rw [this]; norm_num

theorem roundEven_neg (x : ℚ) : roundEven (-x) = -roundEven x := by
  have h1 := Int.floor_le x
  have h2 := Int.lt_floor_add_one x
  by_cases hx : x = ⌊x⌋
  · rw [hx, roundEven_int]
    have := roundEven_int (-⌊x⌋)
    push_cast at this
    exact this
  · have h3 : (⌊x⌋ : ℚ) < x := lt_of_le_of_ne h1 (Ne.symm hx)
    have hf : ⌊-x⌋ = -⌊x⌋ - 1 := by
      rw [Int.floor_eq_iff]; push_cast; constructor <;> linarith
    unfold roundEven
    rw [hf]
    push_cast
    split_ifs <;> first | omega | (exfalso; linarith)

theorem rne_neg (q : ℚ) : rne (-q) = -rne q := by
  unfold rne
  by_cases h : q = 0
  · simp [h]
  · have : ulp (-q) = ulp q := by simp [ulp]
    simp only [neg_eq_zero, h, if_false, this, neg_div, roundEven_neg]
    push_cast; ring

theorem rne_mono_pos {x y : ℚ} (hx : 0 < x) (h : x ≤ y) : rne x ≤ rne y := by
  have hy : 0 < y := lt_of_lt_of_le hx h
  have lx : (2 : ℚ) ^ (Int.log 2 x) ≤ x := by exact_mod_cast Int.zpow_log_le_self (by norm_num) hx
  have ux : x < (2 : ℚ) ^ (Int.log 2 x + 1) := by
    exact_mod_cast Int.lt_zpow_succ_log_self (b := 2) (by norm_num) x
  have ly : (2 : ℚ) ^ (Int.log 2 y) ≤ y := by exact_mod_cast Int.zpow_log_le_self (by norm_num) hy
  have hm : Int.log 2 x ≤ Int.log 2 y := Int.log_mono_right hx h
  rcases hm.lt_or_eq with hlt | heq
  · -- a power of two separates them
    have key : ∀ z : ℚ, 0 < z → ∀ w, Int.log 2 z = w →
        rne z ≤ 2 ^ (w + 1) ∧ 2 ^ w ≤ rne z := by
      intro z hz w hw
      have hz0 : z ≠ 0 := ne_of_gt hz
      have lz : (2 : ℚ) ^ w ≤ z := by rw [← hw]; exact_mod_cast Int.zpow_log_le_self (by norm_num) hz
      have uz : z < (2 : ℚ) ^ (w + 1) := by
        rw [← hw]; exact_mod_cast Int.lt_zpow_succ_log_self (b := 2) (by norm_num) z
      have hu : ulp z = 2 ^ (w - 52) := by simp [ulp, abs_of_pos hz, hw]
      have up := ulp_pos z
      constructor
      · have e : (2 : ℚ) ^ (w + 1) = ((2 ^ 53 : ℤ) : ℚ) * ulp z := by
          rw [hu, show w + 1 = 53 + (w - 52) by ring, zpow_add₀ (by norm_num)]; norm_num
        simp only [rne, hz0, if_false]
        rw [e]
        apply mul_le_mul_of_nonneg_right _ up.le
        have : roundEven (z / ulp z) ≤ roundEven ((2 ^ 53 : ℤ) : ℚ) := by
          apply roundEven_mono
          rw [div_le_iff₀ up, ← e]; exact uz.le
        rw [roundEven_int] at this
        exact_mod_cast this
      · have e : (2 : ℚ) ^ w = ((2 ^ 52 : ℤ) : ℚ) * ulp z := by
          rw [hu, show w = 52 + (w - 52) by ring, zpow_add₀ (by norm_num)]; norm_num
        simp only [rne, hz0, if_false]
        rw [e]
        apply mul_le_mul_of_nonneg_right _ up.le
        have : roundEven ((2 ^ 52 : ℤ) : ℚ) ≤ roundEven (z / ulp z) := by
          apply roundEven_mono
          rw [le_div_iff₀ up, ← e]; exact lz
        rw [roundEven_int] at this
        exact_mod_cast this
    have k1 := (key x hx _ rfl).1
    have k2 := (key y hy _ rfl).2
    calc rne x ≤ 2 ^ (Int.log 2 x + 1) := k1
      _ ≤ 2 ^ (Int.log 2 y) := zpow_le_zpow_right₀ (by norm_num) (by omega)
      _ ≤ rne y := k2
  · have hu : ulp x = ulp y := by simp [ulp, abs_of_pos hx, abs_of_pos hy, heq]
    have up := ulp_pos y
    simp only [rne, ne_of_gt hx, ne_of_gt hy, if_false]
    rw [hu]
    apply mul_le_mul_of_nonneg_right _ up.le
    have : roundEven (x / ulp y) ≤ roundEven (y / ulp y) := roundEven_mono (by gcongr)
    exact_mod_cast this

theorem rne_nonneg {x : ℚ} (h : 0 ≤ x) : 0 ≤ rne x := by
  rcases h.lt_or_eq with h | h
  · simp only [rne, ne_of_gt h, if_false]
    have up := ulp_pos x
    apply mul_nonneg _ up.le
    have : roundEven ((0 : ℤ) : ℚ) ≤ roundEven (x / ulp x) := by
      apply roundEven_mono; push_cast; positivity
    rw [roundEven_int] at this
    exact_mod_cast this
  · rw [← h, rne_zero]

theorem rne_mono (x y : ℚ) (h : x ≤ y) : rne x ≤ rne y := by
  rcases lt_or_ge 0 x with hx | hx
  · exact rne_mono_pos hx h
  · rcases lt_or_ge y 0 with hy | hy
    · have := rne_mono_pos (x := -y) (y := -x) (by linarith) (by linarith)
      rw [rne_neg, rne_neg] at this
      linarith
    · have h1 := rne_nonneg hy
      have h2 := rne_nonneg (show 0 ≤ -x by linarith)
      rw [rne_neg] at h2
      linarith

theorem rne_rounding : Rounding rne := ⟨rne_mono, rne_err, rne_exact⟩

theorem Rounding.int {rnd : ℚ → ℚ} (h : Rounding rnd) (n : ℤ) (hn : |n| ≤ 2 ^ 53) : rnd n = n := by
  have := h.exact n 0 hn
  simpa using this

theorem Rounding.nat {rnd : ℚ → ℚ} (h : Rounding rnd) (n : ℕ) (hn : n ≤ 2 ^ 53) : rnd n = n := by
  have := h.int n (by rw [abs_of_nonneg (by positivity)]; exact_mod_cast hn)
  simpa using this

theorem Rounding.zero {rnd : ℚ → ℚ} (h : Rounding rnd) : rnd 0 = 0 := by
  have := h.nat 0 (by norm_num)
  simpa using this

theorem id_rounding : Rounding id := ⟨fun _ _ h => h, fun x => by simp; positivity, fun _ _ _ => rfl⟩

end Verif.Ieee
