import Verif.Props.BitMatrix
import Verif.Proofs.BitMatrixRatio

/-!
Properties C09 and C10.  `rne` is IEEE binary64 rounding, `id` exact arithmetic;
`Spec.diffCount`/`Spec.countOf` count cells through `Get`.
-/

namespace Verif.Props
open Verif BitMatrix Ieee
open Verif.Spec (diffCount countOf cells)

/-- **C09** Compare of valid equal-sized matrices is 1 − (differing cells)/(all cells): exactly in exact
arithmetic, and with one rounding for the quotient and one for the difference in binary64. -/
theorem C09_compare (a b : BitMatrix) (ha : Built a) (hb : Built b)
    (h1 : a.isize = b.isize) (h2 : a.jsize = b.jsize) (h3 : 0 < a.isize) (h4 : 0 < a.jsize)
    (hs : a.isize * a.jsize ≤ 2 ^ 53) :
    BitMatrix.compare id Alloc.ok a b = .ok (.fin (1 - (diffCount a b : ℚ) / (a.isize * a.jsize : ℕ))) ∧
    BitMatrix.compare rne Alloc.ok a b =
      .ok (.fin (rne (1 - rne ((diffCount a b : ℚ) / (a.isize * a.jsize : ℕ))))) :=
  ⟨compare_eq id_rounding ha.inv.1 hb.inv.1 h1 h2 h3 h4 rfl hs,
    compare_eq rne_rounding ha.inv.1 hb.inv.1 h1 h2 h3 h4 rfl hs⟩

theorem diffCount_symm (a b : BitMatrix) (h1 : a.isize = b.isize) (h2 : a.jsize = b.jsize) :
    diffCount a b = diffCount b a := by
  unfold diffCount
  rw [h1, h2]
  congr 1
  apply Finset.filter_congr
  intro p _
  exact ne_comm

/-- **C09** different dimensions, or a matrix without cells: the result is −1. -/
theorem C09_compare_error (a b : BitMatrix)
    (h : a.isize ≠ b.isize ∨ a.jsize ≠ b.jsize ∨ a.isize = 0 ∨ a.jsize = 0) :
    BitMatrix.compare rne Alloc.ok a b = .ok (.fin (-1)) := by
  obtain ⟨p, q⟩ := C08_xor_errors a b Alloc.ok
  by_cases hd : a.isize ≠ b.isize ∨ a.jsize ≠ b.jsize
  · simp [BitMatrix.compare, p hd]
  · have hx := q (by omega) (by omega) (by omega)
    simp [BitMatrix.compare, hx]

/-- **C09** Compare is symmetric (all sizes, error results included). -/
theorem C09_compare_symm (a b : BitMatrix) (ha : Built a) (hb : Built b) (hs : a.isize * a.jsize ≤ 2 ^ 53) :
    BitMatrix.compare rne Alloc.ok a b = BitMatrix.compare rne Alloc.ok b a := by
  by_cases h : a.isize ≠ b.isize ∨ a.jsize ≠ b.jsize ∨ a.isize = 0 ∨ a.jsize = 0
  · rw [C09_compare_error a b h, C09_compare_error b a (by omega)]
  · have h1 : a.isize = b.isize := by omega
    have h2 : a.jsize = b.jsize := by omega
    rw [(C09_compare a b ha hb h1 h2 (by omega) (by omega) hs).2,
      (C09_compare b a hb ha h1.symm h2.symm (by omega) (by omega) (by rw [← h1, ← h2]; exact hs)).2,
      diffCount_symm a b h1 h2, h1, h2]

/-- **C09** binary64 `==` and `!=` decide the thresholds exactly, for every pair of valid equal-sized
matrices of at most 2^38 cells: `==` iff differing·10000 ≤ cells, `!=` iff cells ≤ differing·10000. -/
theorem C09_eq_ne_threshold (a b : BitMatrix) (ha : Built a) (hb : Built b)
    (h1 : a.isize = b.isize) (h2 : a.jsize = b.jsize) (h3 : 0 < a.isize) (h4 : 0 < a.jsize)
    (hs : a.isize * a.jsize ≤ 2 ^ 38) :
    BitMatrix.opEq rne Alloc.ok a b = .ok (decide (diffCount a b * 10000 ≤ a.isize * a.jsize)) ∧
    BitMatrix.opNe rne Alloc.ok a b = .ok (decide (a.isize * a.jsize ≤ diffCount a b * 10000)) := by
  have hn : 0 < a.isize * a.jsize := Nat.mul_pos h3 h4
  have hc := (C09_compare a b ha hb h1 h2 h3 h4 (le_trans hs (by norm_num))).2
  have hd := diffCount_le a b
  simp only [BitMatrix.opEq, BitMatrix.opNe, hc, Res.ok_bind, Dbl.ge, Dbl.le, Res.pure_eq]
  constructor
  · congr 2
    apply propext
    constructor
    · intro h
      by_contra hh
      have := lt_thr rne_rounding hn hs hd (by omega)
      linarith
    · intro h; exact ge_thr rne_rounding thr_rne hn h
  · congr 2
    apply propext
    constructor
    · intro h
      by_contra hh
      have := gt_thr rne_rounding (d := diffCount a b) hn hs (by omega)
      linarith
    · intro h; exact le_thr rne_rounding thr_rne hn h

theorem diffCount_zero_iff (a b : BitMatrix) (h1 : a.isize = b.isize) (h2 : a.jsize = b.jsize) :
    diffCount a b = 0 ↔ SameBits a b := by
  unfold diffCount SameBits
  rw [Finset.card_eq_zero, Finset.filter_eq_empty_iff]
  simp only [cells, Finset.mem_product, Finset.mem_range, not_not, Prod.forall]
  constructor
  · intro h; exact ⟨h1, h2, fun i j hi hj => h i j ⟨hi, hj⟩⟩
  · rintro ⟨_, _, h⟩ i j ⟨hi, hj⟩; exact h i j hi hj

/-- **C09** 1 − Compare is a distance (in exact arithmetic): 0 exactly for equal bits (and symmetric, see above), and the
triangle inequality holds. -/
theorem C09_distance (a b c : BitMatrix) (ha : Built a) (hb : Built b) (hc : Built c)
    (h1 : a.isize = b.isize) (h2 : a.jsize = b.jsize) (h1' : b.isize = c.isize) (h2' : b.jsize = c.jsize) (h3 : 0 < a.isize)
    (h4 : 0 < a.jsize) (hs : a.isize * a.jsize ≤ 2 ^ 53) :
    ∃ x y z : ℚ, BitMatrix.compare id Alloc.ok a b = .ok (.fin (1 - x)) ∧ BitMatrix.compare id Alloc.ok b c = .ok (.fin (1 - y)) ∧
      BitMatrix.compare id Alloc.ok a c = .ok (.fin (1 - z)) ∧ 0 ≤ x ∧ (x = 0 ↔ SameBits a b) ∧ z ≤ x + y := by
  have e1 := (C09_compare a b ha hb h1 h2 h3 h4 hs).1
  have e2 := (C09_compare b c hb hc h1' h2' (by omega) (by omega) (by rw [← h1, ← h2]; exact hs)).1
  have e3 := (C09_compare a c ha hc (by omega) (by omega) h3 h4 hs).1
  have hn : 0 < a.isize * a.jsize := Nat.mul_pos h3 h4
  have hq : (0 : ℚ) < (a.isize * a.jsize : ℕ) := by exact_mod_cast hn
  have htri : diffCount a c ≤ diffCount a b + diffCount b c := by
    unfold diffCount
    rw [← h1, ← h2]
    refine le_trans (Finset.card_le_card ?_) (Finset.card_union_le _ _)
    intro p hp
    simp only [Finset.mem_union, Finset.mem_filter] at hp ⊢
    by_cases h : BitMatrix.get a p.1 p.2 = BitMatrix.get b p.1 p.2
    · exact .inr ⟨hp.1, by rw [← h]; exact hp.2⟩
    · exact .inl ⟨hp.1, h⟩
  rw [← h1, ← h2] at e2
  refine ⟨_, _, _, e1, e2, e3, by positivity, ?_, ?_⟩
  · rw [div_eq_zero_iff]
    constructor
    · rintro (h | h)
      · exact (diffCount_zero_iff a b h1 h2).1 (by exact_mod_cast h)
      · exact absurd h hq.ne'
    · intro h
      left
      exact_mod_cast (diffCount_zero_iff a b h1 h2).2 h
  · rw [← add_div]
    exact div_le_div_of_nonneg_right (by exact_mod_cast htri) hq.le

/-- **C09** below 10000 cells `==` is exact bit equality and `!=` its negation. -/
theorem C09_small_exact (a b : BitMatrix) (ha : Built a) (hb : Built b)
    (h1 : a.isize = b.isize) (h2 : a.jsize = b.jsize) (h3 : 0 < a.isize) (h4 : 0 < a.jsize)
    (hs : a.isize * a.jsize < 10000) :
    (BitMatrix.opEq rne Alloc.ok a b = .ok true ↔ SameBits a b) ∧
    (BitMatrix.opNe rne Alloc.ok a b = .ok true ↔ ¬ SameBits a b) := by
  obtain ⟨e, n⟩ := C09_eq_ne_threshold a b ha hb h1 h2 h3 h4 (by omega)
  have hn : 0 < a.isize * a.jsize := Nat.mul_pos h3 h4
  rw [e, n, ← diffCount_zero_iff a b h1 h2]
  constructor <;> simp <;> omega

/-- a matrix with the cells of `S` set, for witnesses -/
theorem witness (r c : Nat) (hr : 0 < r) (hc : 1 < c) (hr' : r < 2 ^ 64) (hc' : c < 2 ^ 64) :
    ∃ z a b, Built z ∧ Built a ∧ Built b ∧ z.isize = r ∧ z.jsize = c ∧ a.isize = r ∧ a.jsize = c ∧
      b.isize = r ∧ b.jsize = c ∧ diffCount z a = 1 ∧ diffCount a b = 1 ∧ diffCount z b = 2 := by
  have hz : Built (BitMatrix.new Alloc.ok r c) := .new r c hr' hc'
  have ez := new_eq (al := Alloc.ok) (r := r) (c := c) rfl
  have wz : WF (BitMatrix.new Alloc.ok r c) := hz.inv.1
  have iz : (BitMatrix.new Alloc.ok r c).isize = r := by rw [ez]
  have jz : (BitMatrix.new Alloc.ok r c).jsize = c := by rw [ez]
  have cz : ∀ i j, cell (BitMatrix.new Alloc.ok r c) i j = false := by
    intro i j; rw [ez, zeroMat_cell]
  generalize BitMatrix.new Alloc.ok r c = z at *
  obtain ⟨a, ea, wa, ia, ja, ca⟩ := set_ok wz (i := 0) (j := 0) true (by omega) (by omega)
  obtain ⟨b, eb, wb, ib, jb, cb⟩ := set_ok wa (i := 0) (j := 1) true (by omega) (by omega)
  have ha := hz.set ea
  have hb := ha.set eb
  refine ⟨z, a, b, hz, ha, hb, iz, jz, by omega, by omega, by omega, by omega, ?_, ?_, ?_⟩
  · have : ((cells z.isize z.jsize).filter fun p => get z p.1 p.2 ≠ get a p.1 p.2) = {(0, 0)} := by
      ext ⟨i, j⟩
      simp only [cells, Finset.mem_filter, Finset.mem_product, Finset.mem_range, Finset.mem_singleton,
        Prod.mk.injEq]
      constructor
      · rintro ⟨⟨hi, hj⟩, hne⟩
        rw [get_eq wz hi hj, get_eq wa (by omega) (by omega), cz, ca, cz] at hne
        by_contra hh; simp [hh] at hne
      · rintro ⟨rfl, rfl⟩
        refine ⟨⟨by omega, by omega⟩, ?_⟩
        rw [get_eq wz (by omega) (by omega), get_eq wa (by omega) (by omega), cz, ca]; simp
    unfold diffCount; rw [this]; rfl
  · have : ((cells a.isize a.jsize).filter fun p => get a p.1 p.2 ≠ get b p.1 p.2) = {(0, 1)} := by
      ext ⟨i, j⟩
      simp only [cells, Finset.mem_filter, Finset.mem_product, Finset.mem_range, Finset.mem_singleton,
        Prod.mk.injEq]
      constructor
      · rintro ⟨⟨hi, hj⟩, hne⟩
        rw [get_eq wa hi hj, get_eq wb (by omega) (by omega), cb] at hne
        by_contra hh; simp [hh] at hne
      · rintro ⟨rfl, rfl⟩
        refine ⟨⟨by omega, by omega⟩, ?_⟩
        rw [get_eq wa (by omega) (by omega), get_eq wb (by omega) (by omega), cb, ca, cz]; simp
    unfold diffCount; rw [this]; rfl
  · have : ((cells z.isize z.jsize).filter fun p => get z p.1 p.2 ≠ get b p.1 p.2) = {(0, 0), (0, 1)} := by
      ext ⟨i, j⟩
      simp only [cells, Finset.mem_filter, Finset.mem_product, Finset.mem_range, Finset.mem_singleton,
        Prod.mk.injEq, Finset.mem_insert]
      constructor
      · rintro ⟨⟨hi, hj⟩, hne⟩
        rw [get_eq wz hi hj, get_eq wb (by omega) (by omega), cz, cb, ca, cz] at hne
        by_contra hh
        rw [not_or] at hh
        simp [hh.1, hh.2] at hne
      · rintro (⟨rfl, rfl⟩ | ⟨rfl, rfl⟩) <;>
        · refine ⟨⟨by omega, by omega⟩, ?_⟩
          rw [get_eq wz (by omega) (by omega), get_eq wb (by omega) (by omega), cz, cb, ca]; simp
    unfold diffCount; rw [this]; rfl

/-- **C09** for every size from 10000 cells up (to 2^38), `==` does not imply equal bits. -/
theorem C09_large_not_exact (r c : Nat) (hc : 1 < c) (hl : 10000 ≤ r * c) (hu : r * c ≤ 2 ^ 38) :
    ∃ a b, Built a ∧ Built b ∧ a.isize = r ∧ a.jsize = c ∧
      BitMatrix.opEq rne Alloc.ok a b = .ok true ∧ ¬ SameBits a b := by
  have hr : 0 < r := by rcases Nat.eq_zero_or_pos r with h | h; (subst h; omega); exact h
  have h1 : r ≤ r * c := Nat.le_mul_of_pos_right _ (by omega)
  have h2 : c ≤ r * c := Nat.le_mul_of_pos_left _ hr
  obtain ⟨z, a, _, hz, ha, _, z1, z2, a1, a2, _, _, d, _, _⟩ :=
    witness r c hr hc (by omega) (by omega)
  refine ⟨z, a, hz, ha, z1, z2, ?_, ?_⟩
  · rw [(C09_eq_ne_threshold z a hz ha (by omega) (by omega) (by omega) (by omega)
      (by rw [z1, z2]; exact hu)).1, d, z1, z2]
    simp [hl]
  · rw [← diffCount_zero_iff z a (by omega) (by omega), d]; simp

/-- **C09** `==` is not transitive, and at exactly 1 difference in 10000 cells `==` and `!=` both hold. -/
theorem C09_not_transitive :
    ∃ a b c, Built a ∧ Built b ∧ Built c ∧
      BitMatrix.opEq rne Alloc.ok a b = .ok true ∧ BitMatrix.opEq rne Alloc.ok b c = .ok true ∧
      BitMatrix.opEq rne Alloc.ok a c = .ok false ∧ BitMatrix.opNe rne Alloc.ok a b = .ok true := by
  obtain ⟨z, a, b, hz, ha, hb, z1, z2, a1, a2, b1, b2, d1, d2, d3⟩ :=
    witness 100 100 (by omega) (by omega) (by norm_num) (by norm_num)
  have t1 := C09_eq_ne_threshold z a hz ha (by omega) (by omega) (by omega) (by omega)
    (by rw [z1, z2]; norm_num)
  have t2 := C09_eq_ne_threshold a b ha hb (by omega) (by omega) (by omega) (by omega)
    (by rw [a1, a2]; norm_num)
  have t3 := C09_eq_ne_threshold z b hz hb (by omega) (by omega) (by omega) (by omega)
    (by rw [z1, z2]; norm_num)
  refine ⟨z, a, b, hz, ha, hb, ?_, ?_, ?_, ?_⟩
  · rw [t1.1, d1, z1, z2]; decide
  · rw [t2.1, d2, a1, a2]; decide
  · rw [t3.1, d3, z1, z2]; decide
  · rw [t1.2, d1, z1, z2]; decide

/-- **C09** up to 2^53 cells rounding errs in one direction only: what is within the threshold is `==`, what is at or beyond it is
`!=`, so at least one of the two holds. -/
theorem C09_one_sided (a b : BitMatrix) (ha : Built a) (hb : Built b)
    (h1 : a.isize = b.isize) (h2 : a.jsize = b.jsize) (h3 : 0 < a.isize) (h4 : 0 < a.jsize)
    (hs : a.isize * a.jsize ≤ 2 ^ 53) :
    (diffCount a b * 10000 ≤ a.isize * a.jsize → BitMatrix.opEq rne Alloc.ok a b = .ok true) ∧
    (a.isize * a.jsize ≤ diffCount a b * 10000 → BitMatrix.opNe rne Alloc.ok a b = .ok true) := by
  have hn : 0 < a.isize * a.jsize := Nat.mul_pos h3 h4
  have hc := (C09_compare a b ha hb h1 h2 h3 h4 hs).2
  simp only [BitMatrix.opEq, BitMatrix.opNe, hc, Res.ok_bind, Dbl.ge, Dbl.le, Res.pure_eq, Res.ok.injEq, decide_eq_true_eq]
  exact ⟨fun h => ge_thr rne_rounding thr_rne hn h, fun h => le_thr rne_rounding thr_rne hn h⟩

/-- two matrices of one column that differ in their first `k` rows -/
theorem columnWitness (r k : Nat) (hk : 0 < k) (hkr : k ≤ r) (hr' : r < 2 ^ 64) :
    ∃ z a, Built z ∧ Built a ∧ z.isize = r ∧ z.jsize = 1 ∧ a.isize = r ∧ a.jsize = 1 ∧ diffCount z a = k := by
  have hz : Built (BitMatrix.new Alloc.ok r 1) := .new r 1 hr' (by norm_num)
  have ez := new_eq (al := Alloc.ok) (r := r) (c := 1) rfl
  have wz : WF (BitMatrix.new Alloc.ok r 1) := hz.inv.1
  have iz : (BitMatrix.new Alloc.ok r 1).isize = r := by rw [ez]
  have jz : (BitMatrix.new Alloc.ok r 1).jsize = 1 := by rw [ez]
  have cz : ∀ i j, cell (BitMatrix.new Alloc.ok r 1) i j = false := by
    intro i j; rw [ez, zeroMat_cell]
  generalize BitMatrix.new Alloc.ok r 1 = z at *
  obtain ⟨a, ea, ia, ja, ga⟩ := C06_setRange z hz 0 0 (k - 1) 0 true (by omega) (by omega) (by omega) (by omega)
  refine ⟨z, a, hz, hz.setRange ea, iz, jz, by omega, by omega, ?_⟩
  have : ((cells z.isize z.jsize).filter fun p => get z p.1 p.2 ≠ get a p.1 p.2) = Finset.range k ×ˢ Finset.range 1 := by
    ext ⟨i, j⟩
    simp only [cells, Finset.mem_filter, Finset.mem_product, Finset.mem_range]
    constructor
    · rintro ⟨⟨hi, hj⟩, hne⟩
      rw [ga i j hi hj, get_eq wz hi hj, cz] at hne
      by_contra hh
      rw [if_neg (by omega)] at hne
      exact hne rfl
    · rintro ⟨hi, hj⟩
      have hi' : i < z.isize := by omega
      have hj' : j < z.jsize := by omega
      refine ⟨⟨hi', hj'⟩, ?_⟩
      rw [ga i j hi' hj', get_eq wz hi' hj', cz, if_pos (by omega)]
      simp
  unfold diffCount
  rw [this, Finset.card_product, Finset.card_range, Finset.card_range, Nat.mul_one]

/-- **C09** (limit of the threshold) For bitmaps of some 2^42 cells rounding blurs the threshold: there are bitmaps that differ in more
than one cell in 10000 and are `==`, and others that differ in less than one in 10000 and are `!=`. -/
theorem C09_threshold_blurred (k : Nat) (hk : 2 ^ 28 ≤ k) (hu : 10000 * k + 1 ≤ 2 ^ 53) :
    (∃ a b, Built a ∧ Built b ∧ a.isize = 10000 * k - 1 ∧ a.jsize = 1 ∧ b.isize = a.isize ∧ b.jsize = 1 ∧
      a.isize * a.jsize < diffCount a b * 10000 ∧ BitMatrix.opEq rne Alloc.ok a b = .ok true) ∧
    (∃ a b, Built a ∧ Built b ∧ a.isize = 10000 * k + 1 ∧ a.jsize = 1 ∧ b.isize = a.isize ∧ b.jsize = 1 ∧
      diffCount a b * 10000 < a.isize * a.jsize ∧ BitMatrix.opNe rne Alloc.ok a b = .ok true) := by
  have kq : (2 ^ 28 : ℚ) ≤ k := by exact_mod_cast hk
  constructor
  · obtain ⟨a, b, ha, hb, a1, a2, b1, b2, d⟩ := columnWitness (10000 * k - 1) k (by omega) (by omega) (by omega)
    refine ⟨a, b, ha, hb, a1, a2, by omega, b2, by rw [a1, a2, d]; omega, ?_⟩
    have hc := (C09_compare a b ha hb (by omega) (by omega) (by omega) (by omega) (by rw [a1, a2]; omega)).2
    simp only [BitMatrix.opEq, hc, Res.ok_bind, Dbl.ge, Res.pure_eq, Res.ok.injEq, decide_eq_true_eq]
    rw [a1, a2, d]
    have e0 : rne (9999 / 10000) ≤ rne (1 - rne ((2 ^ 28 : ℚ) / (10000 * 2 ^ 28 - 1))) := by decide +kernel
    refine le_trans e0 (rne_mono _ _ (sub_le_sub_left (rne_mono _ _ ?_) 1))
    rw [Nat.mul_one, Nat.cast_sub (by omega)]
    push_cast
    rw [div_le_div_iff₀ (by linarith) (by norm_num)]
    linarith
  · obtain ⟨a, b, ha, hb, a1, a2, b1, b2, d⟩ := columnWitness (10000 * k + 1) k (by omega) (by omega) (by omega)
    refine ⟨a, b, ha, hb, a1, a2, by omega, b2, by rw [a1, a2, d]; omega, ?_⟩
    have hc := (C09_compare a b ha hb (by omega) (by omega) (by omega) (by omega) (by rw [a1, a2]; omega)).2
    simp only [BitMatrix.opNe, hc, Res.ok_bind, Dbl.le, Res.pure_eq, Res.ok.injEq, decide_eq_true_eq]
    rw [a1, a2, d]
    have e0 : rne (1 - rne ((2 ^ 28 : ℚ) / (10000 * 2 ^ 28 + 1))) ≤ rne (9999 / 10000) := by decide +kernel
    refine le_trans (rne_mono _ _ (sub_le_sub_left (rne_mono _ _ ?_) 1)) e0
    rw [Nat.mul_one]
    push_cast
    rw [div_le_div_iff₀ (by norm_num) (by linarith)]
    linarith

example : (2 : Nat) ^ 28 ≤ 2 ^ 39 ∧ 10000 * 2 ^ 39 + 1 ≤ 2 ^ 53 := by norm_num

/-- **C09** a matrix without cells is not `==` to itself, and is `!=` to itself. -/
theorem C09_empty_not_eq_self (a : BitMatrix) (h : a.isize = 0 ∨ a.jsize = 0) :
    BitMatrix.opEq rne Alloc.ok a a = .ok false ∧ BitMatrix.opNe rne Alloc.ok a a = .ok true := by
  have hc := C09_compare_error a a (by omega)
  have hp : (0 : ℚ) ≤ rne (9999 / 10000) := by
    have := rne_rounding.mono 0 (9999 / 10000) (by norm_num); rwa [rne_zero] at this
  constructor
  · simp only [BitMatrix.opEq, hc, Res.ok_bind, Dbl.ge, Res.pure_eq]
    congr 1; rw [decide_eq_false_iff_not]; linarith
  · simp only [BitMatrix.opNe, hc, Res.ok_bind, Dbl.le, Res.pure_eq]
    congr 1; rw [decide_eq_true_iff]; linarith

/-- **C10** OneRatio and ZeroRatio of a matrix with cells are the fractions of ones and zeros: exact in
exact arithmetic, correctly rounded in binary64. -/
theorem C10_ratio (m : BitMatrix) (hm : Built m) (h1 : 0 < m.isize) (h2 : 0 < m.jsize)
    (hs : m.isize * m.jsize ≤ 2 ^ 53) :
    BitMatrix.oneRatio id m = .ok (.fin ((countOf m true : ℚ) / (m.isize * m.jsize : ℕ))) ∧
    BitMatrix.zeroRatio id m = .ok (.fin (1 - (countOf m true : ℚ) / (m.isize * m.jsize : ℕ))) ∧
    BitMatrix.oneRatio rne m = .ok (.fin (rne ((countOf m true : ℚ) / (m.isize * m.jsize : ℕ)))) ∧
    BitMatrix.zeroRatio rne m =
      .ok (.fin (rne (1 - (countOf m true : ℚ) / (m.isize * m.jsize : ℕ)))) := by
  have hn : m.isize * m.jsize ≠ 0 := Nat.mul_ne_zero (by omega) (by omega)
  have hnq : ((m.isize * m.jsize : ℕ) : ℚ) ≠ 0 := by exact_mod_cast hn
  have hz : (countOf m false : ℚ) / (m.isize * m.jsize : ℕ) =
      1 - (countOf m true : ℚ) / (m.isize * m.jsize : ℕ) := by
    have := count_compl hm.inv.1
    have hq : (countOf m true : ℚ) + countOf m false = (m.isize * m.jsize : ℕ) := by exact_mod_cast this
    rw [eq_sub_iff_add_eq, ← add_div, add_comm, hq, div_self hnq]
  refine ⟨?_, ?_, ?_, ?_⟩
  · rw [oneRatio, calcRatio_eq id_rounding hm.inv.1 _ hs, if_neg hn]; rfl
  · rw [zeroRatio, calcRatio_eq id_rounding hm.inv.1 _ hs, if_neg hn, hz]; rfl
  · rw [oneRatio, calcRatio_eq rne_rounding hm.inv.1 _ hs, if_neg hn]
  · rw [zeroRatio, calcRatio_eq rne_rounding hm.inv.1 _ hs, if_neg hn, hz]

/-- **C10** both ratios lie in [0,1] in binary64. -/
theorem C10_range (m : BitMatrix) (hm : Built m) (h1 : 0 < m.isize) (h2 : 0 < m.jsize)
    (hs : m.isize * m.jsize ≤ 2 ^ 53) (v : Bool) :
    ∃ q, BitMatrix.calcRatio rne m v = .ok (.fin q) ∧ 0 ≤ q ∧ q ≤ 1 := by
  have hn : m.isize * m.jsize ≠ 0 := Nat.mul_ne_zero (by omega) (by omega)
  refine ⟨_, by rw [calcRatio_eq rne_rounding hm.inv.1 _ hs, if_neg hn], ?_, ?_⟩
  · have := rne_rounding.mono 0 ((countOf m v : ℚ) / (m.isize * m.jsize : ℕ)) (by positivity)
    rwa [rne_zero] at this
  · have hle : (countOf m v : ℚ) / (m.isize * m.jsize : ℕ) ≤ 1 := by
      rw [div_le_one (by exact_mod_cast Nat.pos_of_ne_zero hn)]
      exact_mod_cast countOf_le m v
    have := rne_rounding.mono _ _ hle
    have h1 := rne_rounding.nat 1 (by norm_num)
    push_cast at h1; linarith

/-- **C10** a matrix without cells gives NaN (0/0) for both, not the documented error value. -/
theorem C10_empty_nan (m : BitMatrix) (hm : Built m) (h : m.isize = 0 ∨ m.jsize = 0) :
    BitMatrix.oneRatio rne m = .ok .nan ∧ BitMatrix.zeroRatio rne m = .ok .nan := by
  have h0 : m.isize * m.jsize = 0 := by rcases h with h | h <;> simp [h]
  constructor
  · rw [oneRatio, calcRatio_eq rne_rounding hm.inv.1 _ (by rw [h0]; norm_num), if_pos h0]
  · rw [zeroRatio, calcRatio_eq rne_rounding hm.inv.1 _ (by rw [h0]; norm_num), if_pos h0]

example : ∃ a b, Built a ∧ Built b ∧ a.isize = b.isize ∧ a.jsize = b.jsize ∧ 0 < a.isize ∧ 0 < a.jsize ∧
    a.isize * a.jsize ≤ 2 ^ 38 ∧ diffCount a b = 1 ∧ 10000 < a.isize * a.jsize := by
  obtain ⟨z, a, b, hz, ha, hb, z1, z2, a1, a2, b1, b2, d1, d2, d3⟩ :=
    witness 123 456 (by omega) (by omega) (by norm_num) (by norm_num)
  exact ⟨z, a, hz, ha, by omega, by omega, by omega, by omega, by rw [z1, z2]; norm_num, d1,
    by rw [z1, z2]; norm_num⟩

end Verif.Props
