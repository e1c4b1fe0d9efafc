import Verif.Proofs.Ieee
import Verif.Spec.Binary64

/-! Proofs for C82: sizes of the results of `double` operations. -/

namespace Verif.Proofs.Range
open Verif Ieee Verif.Spec.Binary64

/-- a multiple of `2^-N`, at most `2^B` in size -/
def Tame (N B : ℕ) (q : ℚ) : Prop := (∃ k : ℤ, q * 2 ^ N = k) ∧ |q| ≤ 2 ^ B

theorem Tame.mono {N B N' B' : ℕ} {q : ℚ} (h : Tame N B q) (hN : N ≤ N') (hB : B ≤ B') : Tame N' B' q := by
  obtain ⟨⟨k, hk⟩, hb⟩ := h
  refine ⟨⟨k * 2 ^ (N' - N), ?_⟩, hb.trans (pow_le_pow_right₀ (by norm_num) hB)⟩
  push_cast
  rw [← hk, mul_assoc, ← pow_add, Nat.add_sub_of_le hN]

theorem Tame.int {n : ℤ} {B : ℕ} (h : |(n : ℚ)| ≤ 2 ^ B) : Tame 0 B n := ⟨⟨n, by simp⟩, h⟩

theorem Tame.ge {N B : ℕ} {q : ℚ} (h : Tame N B q) (h0 : q ≠ 0) : 1 ≤ |q| * 2 ^ N := by
  obtain ⟨⟨k, hk⟩, _⟩ := h
  have : |q| * 2 ^ N = |(k : ℚ)| := by rw [← hk, abs_mul, abs_of_pos (by positivity : (0 : ℚ) < 2 ^ N)]
  rw [this]
  have hk0 : k ≠ 0 := by
    rintro rfl
    have h2 : (2 : ℚ) ^ N ≠ 0 := by positivity
    simp [h0] at hk
  have := Int.one_le_abs hk0
  exact_mod_cast this

theorem Tame.normal {N B : ℕ} {q : ℚ} (h : Tame N B q) (hN : N ≤ 1022) (hB : B ≤ 1023) : Normal q := by
  by_cases h0 : q = 0
  · exact .inl h0
  · have h1 := (h.mono hN hB).ge h0
    refine .inr ⟨?_, (h.mono hN hB).2⟩
    rw [zpow_neg, show ((2 : ℚ) ^ (1022 : ℤ)) = 2 ^ (1022 : ℕ) from zpow_natCast 2 1022, inv_le_iff_one_le_mul₀ (pow_pos (by norm_num) _)]
    exact h1

theorem rne_bound {q : ℚ} {B : ℕ} (h : |q| ≤ 2 ^ B) : |rne q| ≤ 2 ^ B := by
  have e : rne (2 ^ B) = 2 ^ B := by
    have := rne_exact 1 B (by norm_num)
    simpa using this
  rw [abs_le] at h ⊢
  have h1 := rne_mono _ _ h.1
  have h2 := rne_mono _ _ h.2
  rw [rne_neg, e] at h1
  rw [e] at h2
  exact ⟨h1, h2⟩

theorem Tame.rne {N B : ℕ} {q : ℚ} (h : Tame N B q) : Tame N B (rne q) := by
  refine ⟨?_, rne_bound h.2⟩
  obtain ⟨⟨k, hk⟩, _⟩ := h
  by_cases h0 : q = 0
  · exact ⟨0, by rw [h0, rne_zero]; simp⟩
  have hu := ulp_pos q
  have hud : ulp q = 2 ^ (Int.log 2 |q| - 52) := rfl
  simp only [Ieee.rne, h0, if_false]
  rcases le_or_gt (-(N : ℤ)) (Int.log 2 |q| - 52) with hc | hc
  · refine ⟨roundEven (q / ulp q) * 2 ^ (Int.log 2 |q| - 52 + N).toNat, ?_⟩
    push_cast
    rw [← zpow_natCast, ← zpow_natCast, Int.toNat_of_nonneg (by omega), mul_assoc, hud, ← zpow_add₀ (by norm_num)]
  · have hint : q / ulp q = (k * 2 ^ (-(Int.log 2 |q| - 52) - N).toNat : ℤ) := by
      push_cast
      rw [← zpow_natCast, Int.toNat_of_nonneg (by omega), ← hk, hud, mul_assoc, ← zpow_natCast, ← zpow_add₀ (by norm_num),
        div_eq_mul_inv, ← zpow_neg]
      congr 2
      ring
    refine ⟨k, ?_⟩
    rw [hint, roundEven_int, ← hint, div_mul_cancel₀ _ hu.ne', hk]

theorem rne_tame {q : ℚ} {L B : ℕ} (h1 : q ≠ 0 → 1 ≤ |q| * 2 ^ L) (h2 : |q| ≤ 2 ^ B) : Tame (L + 52) B (rne q) := by
  refine ⟨?_, rne_bound h2⟩
  by_cases h0 : q = 0
  · exact ⟨0, by rw [h0, rne_zero]; simp⟩
  have hq : 0 < |q| := abs_pos.mpr h0
  have hL : -(L : ℤ) ≤ Int.log 2 |q| := by
    have : ((2 : ℕ) : ℚ) ^ (-(L : ℤ)) ≤ |q| := by
      rw [zpow_neg, zpow_natCast, inv_le_iff_one_le_mul₀ (by positivity)]
      exact_mod_cast h1 h0
    exact (Int.zpow_le_iff_le_log (by norm_num) hq).1 this
  simp only [Ieee.rne, h0, if_false]
  refine ⟨roundEven (q / ulp q) * 2 ^ (Int.log 2 |q| + L).toNat, ?_⟩
  push_cast
  rw [show ulp q = 2 ^ (Int.log 2 |q| - 52) from rfl, ← zpow_natCast, ← zpow_natCast, Int.toNat_of_nonneg (by omega), mul_assoc,
    ← zpow_add₀ (by norm_num)]
  congr 2
  push_cast
  ring

theorem Tame.neg {N B : ℕ} {q : ℚ} (h : Tame N B q) : Tame N B (-q) := by
  obtain ⟨⟨k, hk⟩, hb⟩ := h
  exact ⟨⟨-k, by push_cast; rw [← hk]; ring⟩, by rwa [abs_neg]⟩

theorem Tame.add {N B : ℕ} {a b : ℚ} (ha : Tame N B a) (hb : Tame N B b) : Tame N (B + 1) (a + b) := by
  obtain ⟨⟨k, hk⟩, h1⟩ := ha
  obtain ⟨⟨l, hl⟩, h2⟩ := hb
  refine ⟨⟨k + l, by push_cast; rw [← hk, ← hl]; ring⟩, (abs_add_le a b).trans ?_⟩
  rw [pow_succ]; linarith

theorem Tame.sub {N B : ℕ} {a b : ℚ} (ha : Tame N B a) (hb : Tame N B b) : Tame N (B + 1) (a - b) := by
  rw [sub_eq_add_neg]; exact ha.add hb.neg

theorem Tame.mul {N B N' B' : ℕ} {a b : ℚ} (ha : Tame N B a) (hb : Tame N' B' b) : Tame (N + N') (B + B') (a * b) := by
  obtain ⟨⟨k, hk⟩, h1⟩ := ha
  obtain ⟨⟨l, hl⟩, h2⟩ := hb
  refine ⟨⟨k * l, by push_cast; rw [← hk, ← hl, pow_add]; ring⟩, ?_⟩
  rw [abs_mul, pow_add]
  exact mul_le_mul h1 h2 (abs_nonneg _) (by positivity)

/-- a quotient: not too small and not too large -/
theorem Tame.div {N B N' B' : ℕ} {a b : ℚ} (ha : Tame N B a) (hb : Tame N' B' b) (h0 : b ≠ 0) :
    (a / b ≠ 0 → 1 ≤ |a / b| * 2 ^ (N + B')) ∧ |a / b| ≤ 2 ^ (B + N') := by
  have hb' : 0 < |b| := abs_pos.mpr h0
  have g1 := hb.ge h0
  rw [abs_div]
  constructor
  · intro hne
    have ha0 : a ≠ 0 := by rintro rfl; simp at hne
    have g2 := ha.ge ha0
    rw [pow_add, div_mul_eq_mul_div, le_div_iff₀ hb', one_mul]
    calc |b| ≤ 2 ^ B' := hb.2
      _ ≤ (|a| * 2 ^ N) * 2 ^ B' := le_mul_of_one_le_left (by positivity) g2
      _ = _ := by ring
  · rw [div_le_iff₀ hb', pow_add]
    calc |a| ≤ 2 ^ B := ha.2
      _ ≤ 2 ^ B * (|b| * 2 ^ N') := le_mul_of_one_le_right (by positivity) g1
      _ = _ := by ring

theorem Tame.div_rne {N B N' B' : ℕ} {a b : ℚ} (ha : Tame N B a) (hb : Tame N' B' b) (h0 : b ≠ 0) :
    Tame (N + B' + 52) (B + N') (Ieee.rne (a / b)) :=
  rne_tame (ha.div hb h0).1 (ha.div hb h0).2

theorem Tame.div_normal {N B N' B' : ℕ} {a b : ℚ} (ha : Tame N B a) (hb : Tame N' B' b) (h0 : b ≠ 0) (h1 : N + B' ≤ 1022)
    (h2 : B + N' ≤ 1023) : Normal (a / b) := by
  by_cases hz : a / b = 0
  · exact .inl hz
  · have := (ha.div hb h0)
    refine .inr ⟨?_, this.2.trans (pow_le_pow_right₀ (by norm_num) h2)⟩
    rw [zpow_neg, show ((2 : ℚ) ^ (1022 : ℤ)) = 2 ^ (1022 : ℕ) from zpow_natCast 2 1022, inv_le_iff_one_le_mul₀ (pow_pos (by norm_num) _)]
    refine (this.1 hz).trans ?_
    have : (2 : ℚ) ^ (N + B') ≤ 2 ^ 1022 := pow_le_pow_right₀ (by norm_num) h1
    exact mul_le_mul_of_nonneg_left this (abs_nonneg _)

/-! `double` values -/

def TameF (N B : ℕ) : Fl → Prop
  | .fin q => Tame N B q
  | _ => True

theorem TameF.mono {N B N' B' : ℕ} {x : Fl} (h : TameF N B x) (hN : N ≤ N') (hB : B ≤ B') : TameF N' B' x := by
  cases x with
  | fin q => exact Tame.mono h hN hB
  | _ => trivial

theorem tameF_infOf (N B : ℕ) (q : ℚ) : TameF N B (Fl.infOf q) := by
  unfold Fl.infOf
  split_ifs <;> trivial

variable {rnd : ℚ → ℚ} (hr : RoundsNormal rnd)
include hr

theorem add_eq {N B : ℕ} {x y : Fl} (hx : TameF N B x) (hy : TameF N B y) (hN : N ≤ 1022) (hB : B + 1 ≤ 1023) :
    Fl.add rnd x y = Fl.add rne x y ∧ TameF N (B + 1) (Fl.add rne x y) := by
  cases x <;> cases y <;> first | exact ⟨rfl, trivial⟩ | skip
  rename_i a b
  have := Tame.add hx hy
  exact ⟨congrArg Fl.fin (hr _ (this.normal hN hB)), this.rne⟩

theorem sub_eq {N B : ℕ} {x y : Fl} (hx : TameF N B x) (hy : TameF N B y) (hN : N ≤ 1022) (hB : B + 1 ≤ 1023) :
    Fl.sub rnd x y = Fl.sub rne x y ∧ TameF N (B + 1) (Fl.sub rne x y) := by
  cases x <;> cases y <;> first | exact ⟨rfl, trivial⟩ | skip
  rename_i a b
  have := Tame.sub hx hy
  exact ⟨congrArg Fl.fin (hr _ (this.normal hN hB)), this.rne⟩

theorem mul_eq {N B N' B' : ℕ} {x y : Fl} (hx : TameF N B x) (hy : TameF N' B' y) (hN : N + N' ≤ 1022) (hB : B + B' ≤ 1023) :
    Fl.mul rnd x y = Fl.mul rne x y ∧ TameF (N + N') (B + B') (Fl.mul rne x y) := by
  cases x <;> cases y <;> first | exact ⟨rfl, trivial⟩ | exact ⟨rfl, tameF_infOf _ _ _⟩ | skip
  rename_i a b
  have := Tame.mul hx hy
  exact ⟨congrArg Fl.fin (hr _ (this.normal hN hB)), this.rne⟩

theorem div_eq {N B N' B' : ℕ} {x y : Fl} (hx : TameF N B x) (hy : TameF N' B' y) (hN : N + B' ≤ 1022) (hB : B + N' ≤ 1023) :
    Fl.div rnd x y = Fl.div rne x y ∧ TameF (N + B' + 52) (B + N') (Fl.div rne x y) := by
  have hz : TameF (N + B' + 52) (B + N') (.fin 0) := ⟨⟨0, by simp⟩, by simp⟩
  have hif : ∀ (c : Prop) [Decidable c], TameF (N + B' + 52) (B + N') (if c then Fl.ninf else Fl.pinf) := by
    intro c _; split_ifs <;> trivial
  have hif' : ∀ (c : Prop) [Decidable c], TameF (N + B' + 52) (B + N') (if c then Fl.pinf else Fl.ninf) := by
    intro c _; split_ifs <;> trivial
  cases x <;> cases y <;> first | exact ⟨rfl, trivial⟩ | exact ⟨rfl, hz⟩ | exact ⟨rfl, hif _⟩ | exact ⟨rfl, hif' _⟩ | skip
  rename_i a b
  simp only [Fl.div]
  split_ifs with h0
  · exact ⟨rfl, tameF_infOf _ _ _⟩
  · exact ⟨congrArg Fl.fin (hr _ (Tame.div_normal hx hy h0 hN hB)), Tame.div_rne hx hy h0⟩

theorem ofInt_eq {n : ℤ} {B : ℕ} (h : |(n : ℚ)| ≤ 2 ^ B) (hB : B ≤ 1023) : Fl.ofInt rnd n = Fl.ofInt rne n ∧ TameF 0 B (Fl.ofInt rne n) :=
  ⟨congrArg Fl.fin (hr _ ((Tame.int h).normal (by norm_num) hB)), (Tame.int h).rne⟩

omit hr

theorem TameF.trunc {N B : ℕ} {x : Fl} (h : TameF N B x) : TameF N B x.trunc := by
  cases x with
  | fin q =>
    refine Tame.mono (Tame.int (B := B) ?_) (Nat.zero_le _) le_rfl
    have hb := h.2
    rw [abs_le] at hb ⊢
    have e : ((2 : ℚ) ^ B) = ((2 ^ B : ℤ) : ℚ) := by push_cast; rfl
    unfold Fl.truncQ
    rw [e] at hb ⊢
    split_ifs with h0
    · have h1 := Int.floor_nonneg.2 h0
      have h2 := Int.floor_le q
      have h3 : (0 : ℚ) ≤ (⌊q⌋ : ℤ) := by exact_mod_cast h1
      constructor
      · have : (0 : ℚ) < ((2 ^ B : ℤ) : ℚ) := by push_cast; positivity
        linarith
      · linarith [hb.2]
    · push Not at h0
      have h2 := Int.le_ceil q
      have h4 : ⌈q⌉ ≤ 0 := Int.ceil_le.2 (by simpa using h0.le)
      have h5 : ((⌈q⌉ : ℤ) : ℚ) ≤ 0 := by exact_mod_cast h4
      constructor
      · linarith [hb.1]
      · have : (0 : ℚ) < ((2 ^ B : ℤ) : ℚ) := by push_cast; positivity
        linarith
  | _ => trivial

theorem moderate_tame {x : Fl} (h : Moderate x) : TameF 252 200 x := by
  cases x with
  | fin q =>
    obtain ⟨h1, h2⟩ := h
    by_cases h0 : q = 0
    · subst h0; exact ⟨⟨0, by simp⟩, by simp⟩
    · obtain ⟨h3, h4⟩ := h2.resolve_left h0
      have := rne_tame (q := q) (L := 200) (B := 200) (fun _ => by
        rw [zpow_neg, inv_le_iff_one_le_mul₀ (by positivity)] at h3
        exact_mod_cast h3) h4
      rw [h1] at this
      exact this
  | _ => trivial

end Verif.Proofs.Range
