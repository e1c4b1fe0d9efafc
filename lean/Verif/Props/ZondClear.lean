import Verif.Props.ZondCover
import Verif.Props.ZondPart
import Verif.Spec.ZondClear

/-!
C39 in `double` arithmetic: the exact set of cells of a rectangle whose sides keep away from the lines through borders and
centres of cells.
-/

namespace Verif.Props
open Verif BitMatrix Zond Spec Ieee

set_option linter.unusedSimpArgs false

/-- a position off the lines, in terms of the cell it is in and the half of it -/
theorem off_halves {c : ℚ} (h : OffLines c) {k : ℤ} (hk : k = ⌊c⌋) :
    (k : ℚ) + 1 / 1000 ≤ c ∧ c ≤ k + 999 / 1000 ∧ (c ≤ k + 1 / 2 - 1 / 1000 ∨ k + 1 / 2 + 1 / 1000 ≤ c) := by
  have h1 : (k : ℚ) ≤ c := by rw [hk]; exact Int.floor_le c
  have h2 : c < k + 1 := by rw [hk]; exact Int.lt_floor_add_one c
  have a := h (2 * k)
  have b := h (2 * k + 1)
  have d := h (2 * k + 2)
  push_cast at a b d
  rw [le_abs] at a b d
  refine ⟨?_, ?_, ?_⟩
  · rcases a with a | a <;> linarith
  · rcases d with d | d <;> linarith
  · rcases b with b | b
    · right; linarith
    · left; linarith

/-- the computed position is in the same cell -/
theorem off_floor {c x : ℚ} (h : OffLines c) (hx : |x - c| ≤ 1 / 10 ^ 5) : ⌊x⌋ = ⌊c⌋ := by
  obtain ⟨h1, h2, _⟩ := off_halves h rfl
  have := abs_le.mp hx
  rw [Int.floor_eq_iff]
  constructor <;> [linarith [this.1]; linarith [this.2]]

theorem frac_rnd {rnd : ℚ → ℚ} (hr : Rounding rnd) (x : ℚ) : |rnd (x - ⌊x⌋) - (x - ⌊x⌋)| ≤ 1 / 10 ^ 5 := by
  have h1 := Int.floor_le x
  have h2 := Int.lt_floor_add_one x
  have := hr.relErr (x - ⌊x⌋)
  rw [abs_of_nonneg (by linarith : (0 : ℚ) ≤ x - ⌊x⌋)] at this
  refine le_trans this ?_
  have : (x - ⌊x⌋) / 2 ^ 53 ≤ 1 / 2 ^ 53 := by
    rw [div_le_div_iff_of_pos_right (by norm_num)]; linarith
  exact le_trans this (by norm_num)

/-- One axis: with both true ends off the lines, or on the border, the selected cells are the exact ones. -/
theorem sel_clear {rnd : ℚ → ℚ} (hr : Rounding rnd) {B E b e d ep : ℚ} {n : Nat} (h0 : 0 ≤ B) (hBE : B ≤ E)
    (hE : E < 2147483648) (hd : 0 < d) (hn : 0 < n) (hn2 : n ≤ 2 ^ 53) (hb0 : 0 ≤ b)
    (ht : |rnd (ep * d)| ≤ 9 / 10 ^ 4)
    (hB : |B - b| ≤ 1 / 10 ^ 5) (hE2 : |E - e| ≤ 1 / 10 ^ 5)
    (cb : b = 0 ∧ B = 0 ∨ OffLines b) (ce : (n : ℚ) ≤ e ∨ OffLines e) :
    ∃ p, normPair rnd (.fin B) (.fin E) (.fin d) (.fin ep) 0 (n - 1) = .ok p ∧
      ∀ j, Sel p n j ↔ j < n ∧ AxisCell b e 0 n j := by
  have hd' : (Fl.fin d).le (.fin 0) = false := by simp [Fl.le]; linarith
  rw [normPair_step h0 hBE hE hd']
  refine ⟨_, rfl, fun j => ?_⟩
  have half : rnd (1 / 2) = 1 / 2 := by
    have := hr.exact 1 (-1) (by norm_num)
    norm_num at this ⊢
    exact this
  have z0 : rnd ((0 : Nat) : ℤ) = 0 := by simpa using hr.zero
  have zn : rnd (((n - 1 : Nat) : ℤ) : ℚ) = ((n - 1 : Nat) : ℚ) := by simpa using hr.nat (n - 1) (by omega)
  have hnq : ((n - 1 : Nat) : ℚ) = (n : ℚ) - 1 := by rw [Nat.cast_sub hn]; norm_num
  have hloe : |rnd (1 / 2 - rnd (ep * d)) - 1 / 2| ≤ 95 / 10 ^ 5 := by
    have t := abs_le.mp ht
    have := abs_le.mp (hr.relErr (1 / 2 - rnd (ep * d)))
    rw [abs_of_pos (by linarith : (0 : ℚ) < 1 / 2 - rnd (ep * d))] at this
    rw [abs_le]
    norm_num at this t ⊢
    constructor <;> linarith [this.1, this.2]
  have hhie : |rnd (1 / 2 + rnd (ep * d)) - 1 / 2| ≤ 95 / 10 ^ 5 := by
    have t := abs_le.mp ht
    have := abs_le.mp (hr.relErr (1 / 2 + rnd (ep * d)))
    rw [abs_of_pos (by linarith : (0 : ℚ) < 1 / 2 + rnd (ep * d))] at this
    rw [abs_le]
    norm_num at this t ⊢
    constructor <;> linarith [this.1, this.2]
  simp only [Fl.sub, Fl.add, Fl.mul, Fl.le, Fl.ofInt, half, z0, zn, hnq, Bool.or_eq_true, Bool.and_eq_true, decide_eq_true_eq]
  generalize rnd (1 / 2 - rnd (ep * d)) = lo at *
  generalize rnd (1 / 2 + rnd (ep * d)) = hi at *
  have fb := abs_le.mp (frac_rnd hr B)
  have fe := abs_le.mp (frac_rnd hr E)
  generalize rnd (B - ⌊B⌋) = bm at *
  generalize rnd (E - ⌊E⌋) = em at *
  have hloe := abs_le.mp hloe
  have hhie := abs_le.mp hhie
  have hB := abs_le.mp hB
  have hE2 := abs_le.mp hE2
  obtain ⟨k, hk⟩ : ∃ k : Nat, ⌊b⌋ = (k : ℤ) := Int.eq_ofNat_of_zero_le (Int.floor_nonneg.mpr hb0)
  obtain ⟨L, hL⟩ : ∃ k : Nat, ⌊E⌋ = (k : ℤ) := Int.eq_ofNat_of_zero_le (Int.floor_nonneg.mpr (le_trans h0 hBE))
  have he0 : 0 ≤ e := by
    rcases ce with ce | ce
    · exact le_trans (Nat.cast_nonneg n) ce
    · obtain ⟨h1, h2, _⟩ := off_halves ce rfl
      have hf : ⌊e⌋ = ⌊E⌋ := (off_floor ce (abs_le.mpr hE2)).symm
      rw [hf, hL] at h1
      have := Nat.cast_nonneg (α := ℚ) L
      push_cast at h1
      linarith
  obtain ⟨l, hl⟩ : ∃ k : Nat, ⌊e⌋ = (k : ℤ) := Int.eq_ofNat_of_zero_le (Int.floor_nonneg.mpr he0)
  have kB : ⌊B⌋ = (k : ℤ) := by
    rcases cb with ⟨c1, c2⟩ | cb
    · rw [c2, ← hk, c1]
    · rw [off_floor cb (abs_le.mpr hB), hk]
  rw [kB] at fb
  rw [hL] at fe
  have b1 : (k : ℚ) ≤ b := by have := Int.floor_le b; rw [hk] at this; exact_mod_cast this
  have b2 : b < k + 1 := by have := Int.lt_floor_add_one b; rw [hk] at this; exact_mod_cast this
  have e1 : (l : ℚ) ≤ e := by have := Int.floor_le e; rw [hl] at this; exact_mod_cast this
  have e2 : e < l + 1 := by have := Int.lt_floor_add_one e; rw [hl] at this; exact_mod_cast this
  -- the half of the begin cell
  have hbm : (bm ≤ hi ↔ b ≤ k + 1 / 2) ∧ (lo ≤ bm ↔ ¬ b ≤ k + 1 / 2) := by
    have cb : b ≤ k + 1 / 2 - 1 / 1000 ∨ k + 1 / 2 + 1 / 1000 ≤ b := by
      rcases cb with ⟨c1, c2⟩ | cb
      · left; rw [c1] at b1 ⊢; have := Nat.cast_nonneg (α := ℚ) k; linarith
      · have := (off_halves cb rfl).2.2
        rw [hk] at this; exact_mod_cast this
    push_cast at fb
    rcases cb with cb | cb
    · exact ⟨⟨fun _ => by linarith, fun _ => by linarith⟩, ⟨fun h => by linarith, fun h => absurd (by linarith) h⟩⟩
    · exact ⟨⟨fun h => by linarith, fun h => by linarith⟩, ⟨fun _ h => by linarith, fun _ => by linarith⟩⟩
  have hB0 : B ≤ 0 → k = 0 ∧ b ≤ k + 1 / 2 := by
    intro h
    have hk0 : (k : ℚ) = 0 := by
      have : (k : ℚ) ≤ 1 / 2 := by linarith
      have : k < 1 := by
        have : (k : ℚ) < 1 := by linarith
        exact_mod_cast this
      have : k = 0 := by omega
      exact_mod_cast this
    refine ⟨by exact_mod_cast hk0, ?_⟩
    linarith
  -- the description, in terms of cells and halves
  have c1 : b ≤ j + 1 / 2 + 0 ↔ k < j ∨ (k = j ∧ b ≤ k + 1 / 2) := by
    constructor
    · intro h
      rcases lt_trichotomy k j with g | g | g
      · exact .inl g
      · exact .inr ⟨g, by rw [g]; linarith⟩
      · have : (j : ℚ) + 1 ≤ k := by exact_mod_cast g
        linarith
    · rintro (g | ⟨g, h⟩)
      · have : (k : ℚ) + 1 ≤ j := by exact_mod_cast g
        linarith
      · rw [← g]; linarith
  have c2 : (j : ℚ) + 1 / 2 ≤ e + 0 ↔ j < l ∨ (j = l ∧ (l : ℚ) + 1 / 2 ≤ e) := by
    constructor
    · intro h
      rcases lt_trichotomy j l with g | g | g
      · exact .inl g
      · exact .inr ⟨g, by rw [← g]; linarith⟩
      · have : (l : ℚ) + 1 ≤ j := by exact_mod_cast g
        linarith
    · rintro (g | ⟨g, h⟩)
      · have : (j : ℚ) + 1 ≤ l := by exact_mod_cast g
        linarith
      · rw [g]; linarith
  have c3 : e < (n : ℚ) - 1 ↔ l + 1 < n := by
    constructor
    · intro h
      have : ((l + 1 : Nat) : ℚ) < n := by push_cast; linarith
      exact_mod_cast this
    · intro h
      have : ((l + 2 : Nat) : ℚ) ≤ n := by exact_mod_cast h
      push_cast at this
      linarith
  have c4 : (n : ℚ) - 1 ≤ e ↔ ¬ l + 1 < n := by rw [← c3, not_lt]
  have c5 : (1 : ℚ) / 2 ≤ e - l ↔ (l : ℚ) + 1 / 2 ≤ e := by constructor <;> intro h <;> linarith
  unfold Sel AxisCell
  rw [kB, hL, hk, hl, c1, c2, c3, c4]
  simp only [Int.toNat_natCast, Nat.cast_inj, Int.cast_natCast, c5]
  have F : ∀ j, (if B ≤ 0 then 0 else if bm ≤ hi then k else k + 1) ≤ j ↔ k < j ∨ (k = j ∧ b ≤ k + 1 / 2) := by
    intro j
    by_cases hB1 : B ≤ 0
    · obtain ⟨g1, g2⟩ := hB0 hB1
      rw [if_pos hB1]; simp only [g2, and_true]; omega
    · rw [if_neg hB1]
      by_cases hb : b ≤ k + 1 / 2
      · rw [if_pos (hbm.1.2 hb)]; simp only [hb, and_true]; omega
      · rw [if_neg (fun h => hb (hbm.1.1 h))]; simp only [hb, and_false, or_false]; omega
  rcases ce with ce | ce
  · -- the end is at or beyond the far border
    have nl : n ≤ l := by
      have : (n : ℚ) < l + 1 := by linarith
      have : n < l + 1 := by exact_mod_cast this
      omega
    have nE : (n : ℚ) - 1 ≤ E := by linarith
    have nL : n ≤ L + 1 := by
      have h : ((n - 1 : ℤ) : ℤ) ≤ ⌊E⌋ := Int.le_floor.2 (by push_cast; exact nE)
      rw [hL] at h; omega
    have top : L + 1 = n → lo ≤ em ∧ ¬ em ≤ hi := by
      intro h
      have : (n : ℚ) = L + 1 := by exact_mod_cast h.symm
      push_cast at fe
      constructor <;> [skip; intro h] <;> linarith
    rw [if_pos nE]
    by_cases hLk : L = k
    · rw [if_pos hLk]
      by_cases hk2 : k + 1 = n
      · obtain ⟨t1, t2⟩ := top (by omega)
        by_cases hb : b ≤ k + 1 / 2
        · rw [if_pos (.inr ⟨hbm.1.2 hb, t1⟩)]
          simp only [hb, and_true]; constructor <;> intro h <;> omega
        · have nb : ¬ bm ≤ hi := fun h => hb (hbm.1.1 h)
          rw [if_neg (by rintro ((⟨_, h⟩ | ⟨_, h⟩) | ⟨h, _⟩) <;> [exact nb h; exact t2 h; exact nb h])]
          simp only [hb, and_false, or_false]
          constructor <;> intro h <;> omega
      · have : n ≤ k := by omega
        split <;> constructor <;> intro h <;> dsimp only at * <;> omega
    · rw [if_neg hLk]
      dsimp only
      rw [F]
      generalize (b ≤ (k : ℚ) + 1 / 2) = hb at *
      by_cases hb : hb <;> simp only [hb, and_true, and_false, or_false] <;> omega
  · -- the end is off the lines
    have hlL : L = l := by
      have := off_floor ce (abs_le.mpr hE2)
      rw [hL, hl] at this
      exact_mod_cast this
    subst hlL
    obtain ⟨o1, o2, o3⟩ := off_halves ce hl.symm
    push_cast at o1 o2 o3 fe
    have hem : (lo ≤ em ↔ (L : ℚ) + 1 / 2 ≤ e) ∧ (em ≤ hi ↔ ¬ (L : ℚ) + 1 / 2 ≤ e) := by
      rcases o3 with o3 | o3
      · exact ⟨⟨fun h => by linarith, fun h => by linarith⟩, ⟨fun _ h => by linarith, fun _ => by linarith⟩⟩
      · exact ⟨⟨fun h => by linarith, fun h => by linarith⟩, ⟨fun h => by linarith, fun h => absurd (by linarith) h⟩⟩
    have hnE : (n : ℚ) - 1 ≤ E ↔ ¬ L + 1 < n := by
      constructor
      · intro h g
        have : ((L + 2 : Nat) : ℚ) ≤ n := by exact_mod_cast g
        push_cast at this
        linarith
      · intro g
        have : (n : ℚ) ≤ ((L + 1 : Nat) : ℚ) := by exact_mod_cast (by omega : n ≤ L + 1)
        push_cast at this
        linarith
    have hup : (L : ℚ) + 1 / 2 ≤ e → ⌊E + 1 / 2⌋ = ((L + 1 : Nat) : ℤ) := by
      intro h
      have o3 : (L : ℚ) + 1 / 2 + 1 / 1000 ≤ e := by
        rcases o3 with o3 | o3
        · linarith
        · exact o3
      rw [Int.floor_eq_iff]
      push_cast
      constructor <;> linarith
    by_cases hLk : L = k
    · rw [if_pos hLk]
      subst hLk
      have key : ((lo ≤ bm ∧ bm ≤ hi ∨ lo ≤ em ∧ em ≤ hi) ∨ bm ≤ hi ∧ lo ≤ em) ↔ (b ≤ L + 1 / 2 ∧ (L : ℚ) + 1 / 2 ≤ e) := by
        clear * - hbm hem
        rw [hbm.1, hbm.2, hem.1, hem.2]; tauto
      by_cases hb : b ≤ L + 1 / 2 <;> by_cases he : (L : ℚ) + 1 / 2 ≤ e
      · rw [if_pos (key.2 ⟨hb, he⟩)]; simp only [hb, he, not_true_eq_false, and_true, or_false, true_and, false_and, ne_eq]; omega
      all_goals
        rw [if_neg (fun h => by have := key.1 h; first | exact hb this.1 | exact he this.2)]
        simp only [hb, he, not_true_eq_false, and_true, and_false, or_false, false_and, ne_eq]; omega
    · rw [if_neg hLk]
      have kL : k < L := by
        have : k ≤ L := by
          have := Int.floor_le_floor hBE
          rw [kB, hL] at this
          exact_mod_cast this
        omega
      have hne : ¬ k = L := fun h => hLk h.symm
      dsimp only
      rw [F]
      generalize (k < j ∨ k = j ∧ b ≤ (k : ℚ) + 1 / 2) = P at *
      by_cases hP : P
      · by_cases hN : L + 1 < n
        · rw [if_neg (fun h => (hnE.1 h) hN)]
          by_cases he : (L : ℚ) + 1 / 2 ≤ e
          · rw [if_pos (hem.1.2 he), hup he, Int.toNat_natCast]
            simp only [hP, hN, he, hne, not_true_eq_false, not_false_eq_true, and_true, and_false, or_false, false_or, true_and, false_and, ne_eq]; omega
          · rw [if_neg (fun h => he (hem.1.1 h))]
            simp only [hP, hN, he, hne, not_true_eq_false, not_false_eq_true, and_true, and_false, or_false, false_or, true_and, false_and, ne_eq]; omega
        · rw [if_pos (hnE.2 hN)]
          by_cases he : (L : ℚ) + 1 / 2 ≤ e <;>
          · simp only [hP, hN, he, hne, not_true_eq_false, not_false_eq_true, and_true, and_false, or_false, false_or, true_and, false_and, ne_eq]; omega
      · simp only [hP, false_and, and_false]

/-- one axis of a rectangle, in `double` arithmetic -/
theorem axis_clear {rnd : ℚ → ℚ} (hr : Rounding rnd) {w ep : ℚ} {a b : Int} {n : Nat} (hw : 0 < w) (hw2 : w ≤ 2 ^ 32)
    (he0 : 0 ≤ ep) (he1 : ep ≤ 2 / 10 ^ 13) (ha : 0 ≤ a) (hab : a ≤ b) (hb : (b : ℚ) / w ≤ 1073741824) (hn : 0 < n)
    (hn2 : n ≤ 2147483647) (ca : a = 0 ∨ OffLines ((a : ℚ) / w)) (cb : (n : ℚ) ≤ b / w ∨ OffLines ((b : ℚ) / w)) :
    0 < rnd w ∧ 0 ≤ rnd (a / rnd w) ∧ rnd (a / rnd w) ≤ rnd (b / rnd w) ∧ rnd (b / rnd w) < 2147483648 ∧
    ∃ p, normPair rnd (.fin (rnd (a / rnd w))) (.fin (rnd (b / rnd w))) (.fin (rnd w)) (.fin ep) 0 (n - 1) = .ok p ∧
      ∀ j, Sel p n j ↔ j < n ∧ AxisCell ((a : ℚ) / w) ((b : ℚ) / w) 0 n j := by
  obtain ⟨pw, c0, c1, c2, _⟩ := axis_any (f := 0) (b2 := 0) (ep := .fin ep) hr hw ha hab hb
  refine ⟨pw, c0, c1, c2, ?_⟩
  have haq : (0 : ℚ) ≤ a := by exact_mod_cast ha
  have habq : (a : ℚ) ≤ b := by exact_mod_cast hab
  have hbq : (0 : ℚ) ≤ b := le_trans haq habq
  have haw : (a : ℚ) / w ≤ 1073741824 := le_trans (by rw [div_le_div_iff_of_pos_right hw]; exact habq) hb
  have near : ∀ x : ℚ, 0 ≤ x → x / w ≤ 1073741824 → |rnd (x / rnd w) - x / w| ≤ 1 / 10 ^ 5 := by
    intro x hx hxw
    have u := (axis_upper hr (n := 1073741824) hw hx (le_refl _) (by exact_mod_cast hxw)).2
    have l := axis_lower hr (n := 1073741824) hw (div_nonneg hx hw.le) (le_refl (x / w)) (by exact_mod_cast hxw)
    rw [abs_le]
    norm_num at u l ⊢
    constructor <;> linarith
  have ht : |rnd (ep * rnd w)| ≤ 9 / 10 ^ 4 := by
    have r1 := (abs_le.mp (hr.relErr w)).2
    rw [abs_of_pos hw] at r1
    have r2 : rnd w ≤ 2 ^ 32 + 1 := by
      norm_num at r1 hw2 ⊢; linarith
    have p0 : 0 ≤ ep * rnd w := mul_nonneg he0 pw.le
    have p1 : ep * rnd w ≤ 2 / 10 ^ 13 * (2 ^ 32 + 1) := mul_le_mul he1 r2 pw.le (by norm_num)
    have r3 := abs_le.mp (hr.relErr (ep * rnd w))
    rw [abs_of_nonneg p0] at r3
    rw [abs_le]
    norm_num at r3 p1 ⊢
    constructor <;> linarith [r3.1, r3.2]
  refine sel_clear hr c0 c1 c2 pw hn (by omega) (div_nonneg haq hw.le) ht (near _ haq haw) (near _ hbq hb) ?_ cb
  rcases ca with ca | ca
  · left
    subst ca
    simp [hr.zero]
  · exact .inr ca

/-- the positions of the sides that lie on the window border -/
theorem off_ge {c : ℚ} (h : OffLines c) (j : Nat) : (c < j + 1 / 2 + 1 / 1000 → c ≤ j + 1 / 2) ∧ ((j : ℚ) + 1 / 2 < c + 1 / 1000 → (j : ℚ) + 1 / 2 ≤ c) := by
  have := h (2 * j + 1)
  push_cast at this
  rw [le_abs] at this
  constructor <;> intro g <;> rcases this with t | t <;> linarith

/-- **C39** The exact set of cells in `double` arithmetic: a rectangle that starts inside the window and whose sides keep a
thousandth of a cell away from the lines through borders and centres of cells (or lie on the window border) turns on the
same cells as in exact arithmetic without tolerance. -/
theorem C39_exact_cells_double (rnd : ℚ → ℚ) (hr : Rounding rnd) (z : Zond) (ws : Workspace) (R C : Nat) (ep : ℚ)
    (hs : SetUp rnd z ws R C ep) (he0 : 0 ≤ ep) (he1 : ep ≤ 2 / 10 ^ 13)
    (hC2 : (C : ℤ) ≤ 256 * wsW ws) (hR2 : (R : ℤ) ≤ 256 * wsH ws)
    (hws : inI32 ws.leftTop.x ∧ inI32 ws.leftTop.y ∧ inI32 ws.rightBot.x ∧ inI32 ws.rightBot.y)
    (g : Geometry) (lt rb : Coord) (hg : RectGeom g lt rb) (hrect : inI32 lt.x ∧ inI32 lt.y ∧ inI32 rb.x ∧ inI32 rb.y)
    (hf : DiffsFit ws lt rb)
    (hx0 : ws.leftTop.x ≤ lt.x) (hx1 : lt.x ≤ rb.x) (hy0 : lt.y ≤ ws.leftTop.y) (hy1 : rb.y ≤ lt.y)
    (hx2 : colOf ws C rb.x ≤ 1073741824) (hy2 : rowOf ws R rb.y ≤ 1073741824) (hcl : SidesClear ws R C lt rb)
    (m : BitMatrix) (hm : Built m) (hR : m.isize = R) (hC : m.jsize = C) :
    ∃ m', zondGeometry rnd z (some g) m = .ok () m' ∧
      ∀ i j, i < R → j < C → (Lit m' i j ↔ Lit m i j ∨
        (AxisCell (rowOf ws R lt.y) (rowOf ws R rb.y) 0 R i ∧ AxisCell (colOf ws C lt.x) (colOf ws C rb.x) 0 C j)) := by
  subst hR; subst hC
  have hW : (0 : ℚ) < wsW ws := by exact_mod_cast hs.wpos
  have hH : (0 : ℚ) < wsH ws := by exact_mod_cast hs.hpos
  have hRq : (0 : ℚ) < m.isize := by exact_mod_cast hs.rpos
  have hCq : (0 : ℚ) < m.jsize := by exact_mod_cast hs.cpos
  have px : 0 < (wsW ws : ℚ) / m.jsize := div_pos hW hCq
  have py : 0 < (wsH ws : ℚ) / m.isize := div_pos hH hRq
  have big : ∀ (W : Int) (n : Nat), 0 < n → 0 < W → W ≤ 2 ^ 32 → (W : ℚ) / n ≤ 2 ^ 32 := by
    intro W n hn hW0 hW1
    have h1 : (1 : ℚ) ≤ n := by exact_mod_cast hn
    have h2 : (W : ℚ) ≤ 2 ^ 32 := by exact_mod_cast hW1
    rw [div_le_iff₀ (by linarith)]
    nlinarith
  have bx : (wsW ws : ℚ) / m.jsize ≤ 2 ^ 32 :=
    big _ _ hs.cpos hs.wpos (by have := hws; unfold wsW; unfold inI32 at this; omega)
  have bY : (wsH ws : ℚ) / m.isize ≤ 2 ^ 32 :=
    big _ _ hs.rpos hs.hpos (by have := hws; unfold wsH; unfold inI32 at this; omega)
  obtain ⟨cx0, cy0, cx1, cy1⟩ := hcl
  have farx : ws.rightBot.x ≤ rb.x → (m.jsize : ℚ) ≤ colOf ws m.jsize rb.x := by
    intro h
    unfold colOf
    rw [le_div_iff₀ px, mul_div_cancel₀ _ hCq.ne']
    exact_mod_cast (by unfold wsW; omega : wsW ws ≤ rb.x - ws.leftTop.x)
  have fary : rb.y ≤ ws.rightBot.y → (m.isize : ℚ) ≤ rowOf ws m.isize rb.y := by
    intro h
    unfold rowOf
    rw [le_div_iff₀ py, mul_div_cancel₀ _ hRq.ne']
    exact_mod_cast (by unfold wsH; omega : wsH ws ≤ ws.leftTop.y - rb.y)
  obtain ⟨pdx, j0, j1, j2, q, hq, sq⟩ := axis_clear hr (a := lt.x - ws.leftTop.x) (b := rb.x - ws.leftTop.x) (n := m.jsize) px bx he0 he1
    (by omega) (by omega) hx2 hs.cpos hs.cmax (cx0.imp (fun h => by omega) id) (cx1.imp farx id)
  obtain ⟨pdy, i0, i1, i2, p, hp, sp⟩ := axis_clear hr (a := ws.leftTop.y - lt.y) (b := ws.leftTop.y - rb.y) (n := m.isize) py bY he0 he1
    (by omega) (by omega) hy2 hs.rpos hs.rmax (cy0.imp (fun h => by omega) id) (cy1.imp fary id)
  cases hc : coversAll rnd z lt rb with
  | false =>
    have hraw := raw_eq hr (z := z) (lt := lt) (rb := rb) (by rw [hs.wks]; exact hf) hs.dx hs.dy pdx pdy
    rw [hs.wks] at hraw
    obtain ⟨m', e, l⟩ := built_paints hm (setup_paints hs hg hc hraw i0 i1 i2 j0 j1 j2
      (by rw [hs.dx]; simp [Fl.le]; exact pdx) (by rw [hs.dy]; simp [Fl.le]; exact pdy)
      (p := p) (q := q) (by rw [hs.dy, hs.eps]; exact hp) (by rw [hs.dx, hs.eps]; exact hq))
    refine ⟨m', e, fun i j hi hj => ?_⟩
    rw [l, sp, sq]
    simp only [hi, hj, true_and]
    rfl
  | true =>
    obtain ⟨m', e, l⟩ := built_paints hm (setup_all hs hg hc)
    refine ⟨m', e, fun i j hi hj => ?_⟩
    rw [l]
    have nm : ¬ MissesACentre ws m.isize m.jsize lt rb := fun h => by
      have := misses_not_covers_tol hr hs he0 (le_trans he1 (by norm_num)) hC2 hR2 hws hrect h
      rw [hc] at this; cases this
    have key : ∀ (D : ℚ) (o : ℚ) (j : Nat) (x : ℚ), 0 < D →
        ((o + (j + 1 / 2) * D + 1 / 1000 * D ≤ x ↔ (j : ℚ) + 1 / 2 + 1 / 1000 ≤ (x - o) / D) ∧
         (x + 1 / 1000 * D ≤ o + (j + 1 / 2) * D ↔ (x - o) / D + 1 / 1000 ≤ j + 1 / 2)) := by
      intro D o j x hD
      constructor
      · rw [le_div_iff₀ hD]; constructor <;> intro h <;> linarith
      · rw [show (x - o) / D + 1 / 1000 ≤ (j : ℚ) + 1 / 2 ↔ (x - o) / D ≤ (j : ℚ) + 1 / 2 - 1 / 1000 by
          constructor <;> intro h <;> linarith, div_le_iff₀ hD]
        constructor <;> intro h <;> linarith
    unfold MissesACentre at nm
    push Not at nm
    obtain ⟨n1, n2, n3, n4⟩ := nm i j hi hj
    unfold centreX at n1 n2
    unfold centreY at n3 n4
    have i00 : (0 : ℚ) ≤ i := Nat.cast_nonneg i
    have j00 : (0 : ℚ) ≤ j := Nat.cast_nonneg j
    have hi' : (i : ℚ) + 1 ≤ m.isize := by exact_mod_cast hi
    have hj' : (j : ℚ) + 1 ≤ m.jsize := by exact_mod_cast hj
    have K1 := key _ ws.leftTop.x j lt.x px
    have K2 := key _ ws.leftTop.x j rb.x px
    have K3 := key _ (-ws.leftTop.y) i (-lt.y) py
    have K4 := key _ (-ws.leftTop.y) i (-rb.y) py
    have ec : ∀ x : Int, ((x : ℚ) - ws.leftTop.x) / ((wsW ws : ℚ) / m.jsize) = colOf ws m.jsize x := by
      intro x; unfold colOf; push_cast; rfl
    have er : ∀ y : Int, (-(y : ℚ) - -(ws.leftTop.y : ℚ)) / ((wsH ws : ℚ) / m.isize) = rowOf ws m.isize y := by
      intro y; unfold rowOf; push_cast; congr 1; ring
    rw [ec] at K1 K2
    rw [er] at K3 K4
    have b1 : colOf ws m.jsize lt.x ≤ j + 1 / 2 := by
      rcases cx0 with h | h
      · unfold colOf; rw [h]; simp; linarith
      · exact (off_ge h j).1 (by rw [← not_le, ← K1.1, not_le]; exact n1)
    have b2 : (j : ℚ) + 1 / 2 ≤ colOf ws m.jsize rb.x := by
      rcases cx1 with h | h
      · linarith [farx h]
      · exact (off_ge h j).2 (by rw [← not_le, ← K2.2, not_le]; exact n2)
    have b3 : rowOf ws m.isize lt.y ≤ i + 1 / 2 := by
      rcases cy0 with h | h
      · unfold rowOf; rw [h]; simp; linarith
      · exact (off_ge h i).1 (by rw [← not_le, ← K3.1, not_le]; linarith)
    have b4 : (i : ℚ) + 1 / 2 ≤ rowOf ws m.isize rb.y := by
      rcases cy1 with h | h
      · linarith [fary h]
      · exact (off_ge h i).2 (by rw [← not_le, ← K4.2, not_le]; linarith)
    constructor
    · intro _
      exact .inr ⟨⟨by linarith, .inl (by linarith)⟩, by linarith, .inl (by linarith)⟩
    · intro _
      exact .inr ⟨hi, hj, hi, hj⟩

/-- a position strictly inside one half of a cell is off the lines -/
theorem off_mk {c : ℚ} (k : ℤ) (h1 : (k : ℚ) / 2 + 1 / 1000 ≤ c) (h2 : c ≤ ((k : ℚ) + 1) / 2 - 1 / 1000) : OffLines c := by
  intro l
  rw [le_abs]
  rcases le_or_gt l k with h | h
  · left
    have : (l : ℚ) ≤ k := by exact_mod_cast h
    linarith
  · right
    have : (k : ℚ) + 1 ≤ l := by exact_mod_cast h
    linarith

/-- a concrete case: 10×10 cells of a 100×100 window, the rectangle 22..47 × 62..100 -/
example : ∃ m', zondGeometry rne (exZond rne) (some (exRect 22 100 47 62)) (BitMatrix.new Alloc.ok 10 10) = .ok () m' ∧
    ∀ i j, i < 10 → j < 10 → (Lit m' i j ↔ Lit (BitMatrix.new Alloc.ok 10 10) i j ∨
      (AxisCell (rowOf exWs 10 100) (rowOf exWs 10 62) 0 10 i ∧ AxisCell (colOf exWs 10 22) (colOf exWs 10 47) 0 10 j)) :=
  C39_exact_cells_double rne rne_rounding (exZond rne) exWs 10 10 _ (exSetUp rne) (Moved.tol_range rne_rounding).1
    (by decide +kernel) (by decide) (by decide) (by unfold inI32; decide)
    (exRect 22 100 47 62) ⟨22, 100⟩ ⟨47, 62⟩ ⟨rfl, _, _, rfl⟩ (by unfold inI32; decide) (by unfold DiffsFit inI32; decide) (by decide)
    (by decide) (by decide) (by decide) (by unfold colOf wsW exWs; norm_num) (by unfold rowOf wsH exWs; norm_num)
    ⟨.inr (off_mk 4 (by unfold colOf wsW exWs; norm_num) (by unfold colOf wsW exWs; norm_num)), .inl rfl,
      .inr (off_mk 9 (by unfold colOf wsW exWs; norm_num) (by unfold colOf wsW exWs; norm_num)),
      .inr (off_mk 7 (by unfold rowOf wsH exWs; norm_num) (by unfold rowOf wsH exWs; norm_num))⟩ _
    (.new 10 10 (by norm_num) (by norm_num)) rfl rfl

end Verif.Props
