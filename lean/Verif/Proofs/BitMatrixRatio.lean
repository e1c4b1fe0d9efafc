import Verif.Model.BitMatrixRatio
import Verif.Spec.BitMatrixRatio
import Verif.Proofs.Ieee
import Verif.Proofs.BitMatrix2
import Mathlib.Algebra.BigOperators.Group.Finset.Piecewise
import Mathlib.Algebra.BigOperators.Group.Finset.Sigma
import Mathlib.Algebra.Order.BigOperators.Group.Finset

namespace Verif.BitMatrix
open Ieee Spec

theorem countOf_eq {m : BitMatrix} (h : WF m) (v : Bool) :
    countOf m v = ∑ i ∈ Finset.range m.isize, ∑ j ∈ Finset.range m.jsize,
      if cell m i j = v then 1 else 0 := by
  unfold countOf cells
  rw [Finset.card_filter, Finset.sum_product]
  apply Finset.sum_congr rfl
  intro i hi
  apply Finset.sum_congr rfl
  intro j hj
  rw [Finset.mem_range] at hi hj
  rw [get_eq h hi hj]
  simp

theorem countOf_le (m : BitMatrix) (v : Bool) : countOf m v ≤ m.isize * m.jsize := by
  unfold countOf cells
  refine le_trans (Finset.card_filter_le _ _) ?_
  simp

theorem count_compl {m : BitMatrix} (h : WF m) :
    countOf m true + countOf m false = m.isize * m.jsize := by
  rw [countOf_eq h, countOf_eq h, ← Finset.sum_add_distrib]
  have : ∀ i ∈ Finset.range m.isize, ((∑ j ∈ Finset.range m.jsize, if cell m i j = true then 1 else 0) +
      ∑ j ∈ Finset.range m.jsize, if cell m i j = false then 1 else 0) = m.jsize := by
    intro i _
    rw [← Finset.sum_add_distrib, Finset.sum_congr rfl (g := fun _ => 1)]
    · simp
    · intro j _; cases cell m i j <;> rfl
  rw [Finset.sum_congr rfl this]
  simp

/-- partial count: all of the rows before `i`, columns before `j` of row `i` -/
def part (m : BitMatrix) (v : Bool) (i j : Nat) : Nat :=
  (∑ i' ∈ Finset.range i, ∑ j' ∈ Finset.range m.jsize, if cell m i' j' = v then 1 else 0) +
    ∑ j' ∈ Finset.range j, if cell m i j' = v then 1 else 0

theorem part_le (m : BitMatrix) (v : Bool) (i j : Nat) : part m v i j ≤ i * m.jsize + j := by
  have h1 : ∀ k i', (∑ j' ∈ Finset.range k, if cell m i' j' = v then 1 else 0) ≤ k := by
    intro k i'
    calc _ ≤ ∑ j' ∈ Finset.range k, 1 := Finset.sum_le_sum (fun j _ => by split <;> omega)
      _ = k := by simp
  unfold part
  apply Nat.add_le_add _ (h1 _ _)
  calc _ ≤ ∑ i' ∈ Finset.range i, m.jsize := Finset.sum_le_sum (fun i' _ => h1 _ _)
    _ = _ := by simp

theorem ratio_loop {rnd : ℚ → ℚ} (hr : Rounding rnd) {m : BitMatrix} (h : WF m) (v : Bool)
    (hs : m.isize * m.jsize ≤ 2 ^ 53) :
    (M.loop 0 m.isize fun i => M.loop 0 m.jsize fun j => ratioStep rnd m v i j) 0
      = .ok () (countOf m v : ℚ) := by
  have key := M.loop_inv (body := fun i => M.loop 0 m.jsize fun j => ratioStep rnd m v i j)
    (fun i (u : ℚ) => u = part m v i 0) m.isize 0 0 (by simp [part]) (by
      intro i u _ hi hu
      obtain ⟨u', e, hu'⟩ := M.loop_inv (body := fun j => ratioStep rnd m v i j)
        (fun j (u : ℚ) => u = part m v i j) m.jsize 0 u hu (by
          intro j t _ hj ht
          have hjb : j < m.jsize := by omega
          simp only [ratioStep, unsafeGet_eq h (show i < m.isize by omega) (div8_lt _ _ hjb)]
          refine ⟨_, rfl, ?_⟩
          have hp : part m v i (j + 1) = part m v i j + if cell m i j = v then 1 else 0 := by
            simp only [part, Finset.sum_range_succ]; omega
          rw [hp]
          by_cases hc : cell m i j = v
          · simp only [hc, if_true, ht]
            have hle : part m v i j + 1 ≤ 2 ^ 53 := by
              have := part_le m v i j
              have h2 : (i + 1) * m.jsize ≤ m.isize * m.jsize := Nat.mul_le_mul_right _ (by omega)
              rw [Nat.add_mul] at h2
              omega
            have := hr.nat (part m v i j + 1) hle
            push_cast at this ⊢
            exact this
          · simp [hc, ht])
      refine ⟨u', e, ?_⟩
      rw [hu']
      simp only [part, Finset.sum_range_succ, Finset.sum_range_zero, Nat.zero_add, Nat.add_zero])
  obtain ⟨u, e, hu⟩ := key
  rw [e, hu, countOf_eq h]
  simp [part]

theorem calcRatio_eq {rnd : ℚ → ℚ} (hr : Rounding rnd) {m : BitMatrix} (h : WF m) (v : Bool)
    (hs : m.isize * m.jsize ≤ 2 ^ 53) :
    calcRatio rnd m v = .ok (if m.isize * m.jsize = 0 then .nan
      else .fin (rnd ((countOf m v : ℚ) / (m.isize * m.jsize : ℕ)))) := by
  unfold calcRatio
  rw [ratio_loop hr h v hs]
  simp only
  have hm : mulSz m.isize m.jsize = m.isize * m.jsize := mulSz_eq _ _ (lt_of_le_of_lt hs (by norm_num))
  rw [hm, hr.nat _ hs]
  by_cases h0 : m.isize * m.jsize = 0
  · have hc := countOf_le m v
    have hc0 : countOf m v = 0 := by omega
    simp [Dbl.div, h0, hc0]
  · have : ((m.isize * m.jsize : ℕ) : ℚ) ≠ 0 := by exact_mod_cast h0
    simp only [Dbl.div, this, h0, if_false]

theorem xor_count {al : Alloc} {a b : BitMatrix} (ha : WF a) (hb : WF b)
    (hi : a.isize = b.isize) (hj : a.jsize = b.jsize) (hi0 : 0 < a.isize) (hj0 : 0 < a.jsize)
    (hal : al a.isize (bytesPerRow a.jsize) = none) :
    ∃ m, xor al a b = .ok m ∧ WF m ∧ m.isize = a.isize ∧ m.jsize = a.jsize ∧
      countOf m true = diffCount a b := by
  obtain ⟨m, e, w, d1, d2, hc⟩ := xor_ok (al := al) ha hb hi hj hi0 hj0 hal
  refine ⟨m, e, w, d1, d2, ?_⟩
  unfold countOf diffCount
  rw [d1, d2]
  congr 1
  apply Finset.filter_congr
  rintro ⟨i, j⟩ hp
  simp only [cells, Finset.mem_product, Finset.mem_range] at hp
  simp only
  rw [get_eq w (by omega) (by omega), get_eq ha hp.1 hp.2, get_eq hb (by omega) (by omega)]
  simp only [cell]
  rw [hc i (j / 8) hp.1 (div8_lt _ _ hp.2)]
  simp only [UInt8.toNat_xor, Nat.testBit_xor]
  cases (byteAt a i (j / 8)).toNat.testBit (7 - j % 8) <;>
    cases (byteAt b i (j / 8)).toNat.testBit (7 - j % 8) <;> simp

theorem compare_eq {rnd : ℚ → ℚ} (hr : Rounding rnd) {al : Alloc} {a b : BitMatrix} (ha : WF a) (hb : WF b)
    (hi : a.isize = b.isize) (hj : a.jsize = b.jsize) (hi0 : 0 < a.isize) (hj0 : 0 < a.jsize)
    (hal : al a.isize (bytesPerRow a.jsize) = none) (hs : a.isize * a.jsize ≤ 2 ^ 53) :
    compare rnd al a b =
      .ok (.fin (rnd (1 - rnd ((diffCount a b : ℚ) / (a.isize * a.jsize : ℕ))))) := by
  obtain ⟨m, e, w, d1, d2, hc⟩ := xor_count ha hb hi hj hi0 hj0 hal
  have hne : a.isize * a.jsize ≠ 0 := Nat.mul_ne_zero (by omega) (by omega)
  simp only [compare, e, oneRatio]
  rw [calcRatio_eq hr w true (by rw [d1, d2]; exact hs)]
  simp only [d1, d2, hne, if_false, hc]
  have h0 : 0 ≤ rnd ((diffCount a b : ℚ) / (a.isize * a.jsize : ℕ)) := by
    have := hr.mono 0 ((diffCount a b : ℚ) / (a.isize * a.jsize : ℕ)) (by positivity)
    rwa [hr.zero] at this
  have h1 : ¬ (Dbl.fin (rnd ((diffCount a b : ℚ) / (a.isize * a.jsize : ℕ))) = .fin (-1)) := by
    intro hh; injection hh with hh; rw [hh] at h0; norm_num at h0
  rw [if_neg h1]
  rfl

/-- the threshold `0.9999` behaves the same after `1 - x` -/
def Thr (rnd : ℚ → ℚ) : Prop := rnd (1 - rnd (1 / 10000)) = rnd (9999 / 10000)

theorem thr_rne : Thr rne := by unfold Thr; decide +kernel
theorem thr_id : Thr id := by unfold Thr; norm_num

theorem ge_thr {rnd : ℚ → ℚ} (hr : Rounding rnd) (ht : Thr rnd) {d n : Nat} (hn : 0 < n)
    (h : d * 10000 ≤ n) : rnd (9999 / 10000) ≤ rnd (1 - rnd ((d : ℚ) / n)) := by
  rw [← ht]
  apply hr.mono
  have : (d : ℚ) / n ≤ 1 / 10000 := by
    rw [div_le_div_iff₀ (by exact_mod_cast hn) (by norm_num)]
    have : ((d * 10000 : ℕ) : ℚ) ≤ n := by exact_mod_cast h
    push_cast at this; linarith
  have := hr.mono _ _ this
  linarith

theorem le_thr {rnd : ℚ → ℚ} (hr : Rounding rnd) (ht : Thr rnd) {d n : Nat} (hn : 0 < n)
    (h : n ≤ d * 10000) : rnd (1 - rnd ((d : ℚ) / n)) ≤ rnd (9999 / 10000) := by
  rw [← ht]
  apply hr.mono
  have : 1 / 10000 ≤ (d : ℚ) / n := by
    rw [div_le_div_iff₀ (by norm_num) (by exact_mod_cast hn)]
    have : (n : ℚ) ≤ ((d * 10000 : ℕ) : ℚ) := by exact_mod_cast h
    push_cast at this; linarith
  have := hr.mono _ _ this
  linarith

theorem lt_thr {rnd : ℚ → ℚ} (hr : Rounding rnd) {d n : Nat} (hn : 0 < n) (hn2 : n ≤ 2 ^ 38)
    (hd : d ≤ n) (h : n < d * 10000) : rnd (1 - rnd ((d : ℚ) / n)) < rnd (9999 / 10000) := by
  have hnq : (0 : ℚ) < n := by exact_mod_cast hn
  set x : ℚ := (d : ℚ) / n with hx
  have hx0 : 0 ≤ x := by positivity
  have hx1 : x ≤ 1 := by rw [hx, div_le_one hnq]; exact_mod_cast hd
  have hxl : 1 / 10000 + 1 / (10000 * n) ≤ x := by
    have h1 : ((n + 1 : ℕ) : ℚ) ≤ ((d * 10000 : ℕ) : ℚ) := by exact_mod_cast h
    push_cast at h1
    rw [hx, show (1 : ℚ) / 10000 + 1 / (10000 * n) = (n + 1) / (10000 * n) by field_simp,
      div_le_div_iff₀ (by positivity) hnq]
    nlinarith
  have hgap : (3 : ℚ) / 2 ^ 53 < 1 / (10000 * n) := by
    have h38 : (n : ℚ) ≤ 2 ^ 38 := by exact_mod_cast hn2
    have : (1 : ℚ) / (10000 * 2 ^ 38) ≤ 1 / (10000 * n) := by
      apply one_div_le_one_div_of_le (by positivity); linarith
    refine lt_of_lt_of_le ?_ this
    norm_num
  generalize (1 : ℚ) / (10000 * n) = g at hxl hgap
  have e1 := abs_le.mp (hr.relErr x)
  rw [abs_of_nonneg hx0] at e1
  have hr1 : rnd x ≤ 1 := by
    have := hr.mono _ _ hx1
    have h1 := hr.nat 1 (by norm_num)
    push_cast at h1; linarith
  have hrx0 : 0 ≤ rnd x := by have := hr.mono _ _ hx0; rwa [hr.zero] at this
  have e2 := abs_le.mp (hr.relErr (1 - rnd x))
  rw [abs_of_nonneg (by linarith)] at e2
  have e3 := abs_le.mp (hr.relErr (9999 / 10000))
  rw [abs_of_nonneg (by norm_num)] at e3
  norm_num at e1 e2 e3 hgap ⊢
  linarith [e1.1, e2.2, e3.1]

theorem gt_thr {rnd : ℚ → ℚ} (hr : Rounding rnd) {d n : Nat} (hn : 0 < n) (hn2 : n ≤ 2 ^ 38)
    (h : d * 10000 < n) : rnd (9999 / 10000) < rnd (1 - rnd ((d : ℚ) / n)) := by
  have hnq : (0 : ℚ) < n := by exact_mod_cast hn
  set x : ℚ := (d : ℚ) / n with hx
  have hx0 : 0 ≤ x := by positivity
  have hxl : x ≤ 1 / 10000 - 1 / (10000 * n) := by
    have h1 : ((d * 10000 + 1 : ℕ) : ℚ) ≤ (n : ℚ) := by exact_mod_cast h
    push_cast at h1
    rw [hx, show (1 : ℚ) / 10000 - 1 / (10000 * n) = (n - 1) / (10000 * n) by field_simp,
      div_le_div_iff₀ hnq (by positivity)]
    nlinarith
  have hgap : (3 : ℚ) / 2 ^ 53 < 1 / (10000 * n) := by
    have h38 : (n : ℚ) ≤ 2 ^ 38 := by exact_mod_cast hn2
    have : (1 : ℚ) / (10000 * 2 ^ 38) ≤ 1 / (10000 * n) := by
      apply one_div_le_one_div_of_le (by positivity); linarith
    refine lt_of_lt_of_le ?_ this
    norm_num
  have hg0 : (0 : ℚ) ≤ 1 / (10000 * n) := by positivity
  generalize (1 : ℚ) / (10000 * n) = g at hxl hgap hg0
  have hx1 : x ≤ 1 := by linarith
  have e1 := abs_le.mp (hr.relErr x)
  rw [abs_of_nonneg hx0] at e1
  have hr1 : rnd x ≤ 1 := by
    have := hr.mono _ _ hx1
    have h1 := hr.nat 1 (by norm_num)
    push_cast at h1; linarith
  have hrx0 : 0 ≤ rnd x := by have := hr.mono _ _ hx0; rwa [hr.zero] at this
  have e2 := abs_le.mp (hr.relErr (1 - rnd x))
  rw [abs_of_nonneg (by linarith)] at e2
  have e3 := abs_le.mp (hr.relErr (9999 / 10000))
  rw [abs_of_nonneg (by norm_num)] at e3
  norm_num at e1 e2 e3 hgap ⊢
  linarith [e1.2, e2.1, e3.2]

theorem diffCount_le (a b : BitMatrix) : diffCount a b ≤ a.isize * a.jsize := by
  unfold diffCount cells
  refine le_trans (Finset.card_filter_le _ _) ?_
  simp

end Verif.BitMatrix
