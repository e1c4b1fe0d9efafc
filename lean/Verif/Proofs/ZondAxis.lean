import Verif.Proofs.Zond
import Verif.Proofs.Ieee
import Mathlib.Tactic.Linarith
import Mathlib.Tactic.FieldSimp
import Mathlib.Tactic.Ring

/-! One axis of the index normalisation. -/

namespace Verif.Zond
open Verif BitMatrix Ieee

theorem truncQ_nonneg {q : ℚ} (h : 0 ≤ q) : Fl.truncQ q = ⌊q⌋ := by simp [Fl.truncQ, h]

theorem truncQ_int (n : ℤ) : Fl.truncQ (n : ℚ) = n := by
  unfold Fl.truncQ; split <;> simp

theorem floor_lt31 {q : ℚ} (h : q < 2147483648) : ⌊q⌋ ≤ 2147483647 := by
  have : ⌊q⌋ < 2147483648 := Int.floor_lt.mpr (by exact_mod_cast h)
  omega

theorem toI32_fin {q : ℚ} (h0 : 0 ≤ q) (h : q < 2147483648) : (Fl.fin q).toI32 = .ok ⌊q⌋ := by
  have h1 := floor_lt31 h
  have h2 : 0 ≤ ⌊q⌋ := Int.floor_nonneg.mpr h0
  simp only [Fl.toI32, truncQ_nonneg h0]
  rw [if_pos (by omega)]

theorem toSize_fin {q : ℚ} (h0 : 0 ≤ q) (h : q < 2147483648) : (Fl.fin q).toSize = .ok ⌊q⌋.toNat := by
  have h1 := floor_lt31 h
  have h2 : 0 ≤ ⌊q⌋ := Int.floor_nonneg.mpr h0
  simp only [Fl.toSize, truncQ_nonneg h0]
  rw [if_pos (by omega)]

theorem toSize_round {q : ℚ} (h0 : 0 ≤ q) (h : q < 2147483648) :
    (Fl.fin q).round.toSize = .ok ⌊q + 1 / 2⌋.toNat := by
  have h2 : 0 ≤ ⌊q + 1 / 2⌋ := Int.floor_nonneg.mpr (by linarith)
  have h1 : ⌊q + 1 / 2⌋ < 2147483649 := Int.floor_lt.mpr (by push_cast; linarith)
  simp only [Fl.round, Fl.roundQ, if_pos h0, Fl.toSize, truncQ_int]
  rw [if_pos (by omega)]

/-- the decisions of `NormIndicies` for finite, ordered, non-negative indices -/
theorem normPair_step {rnd : ℚ → ℚ} {B E : ℚ} {delta eps : Fl} {b1 b2 : Nat} (h0 : 0 ≤ B) (hBE : B ≤ E)
    (hE : E < 2147483648) (hd : delta.le (.fin 0) = false) :
    normPair rnd (.fin B) (.fin E) delta eps b1 b2 =
      .ok (
        let lo := Fl.sub rnd (.fin (rnd (1 / 2))) (Fl.mul rnd eps delta)
        let hi := Fl.add rnd (.fin (rnd (1 / 2))) (Fl.mul rnd eps delta)
        let bm := Fl.fin (rnd (B - ⌊B⌋))
        let em := Fl.fin (rnd (E - ⌊E⌋))
        if ⌊E⌋ = ⌊B⌋ then
          if (lo.le bm && bm.le hi) || (lo.le em && em.le hi) || (bm.le hi && lo.le em) then
            (⌊B⌋.toNat, ⌊B⌋.toNat)
          else (1, 0)
        else
          (if (Fl.fin B).le (Fl.ofInt rnd b1) then b1 else if bm.le hi then ⌊B⌋.toNat else ⌊B⌋.toNat + 1,
           if (Fl.ofInt rnd b2).le (.fin E) then b2 else if lo.le em then ⌊E + 1 / 2⌋.toNat
             else ⌊E⌋.toNat - 1)) := by
  have hE0 : 0 ≤ E := le_trans h0 hBE
  have hB : B < 2147483648 := lt_of_le_of_lt hBE hE
  have fB := Int.floor_nonneg.mpr h0
  have fE := Int.floor_nonneg.mpr hE0
  have fB' := floor_lt31 hB
  have fE' := floor_lt31 hE
  have c1 : ((Fl.fin B).lt (.fin 0) || (Fl.fin E).lt (.fin 0)) = false := by
    simp [Fl.lt, not_lt.mpr h0, not_lt.mpr hE0]
  have c2 : (Fl.fin E).lt (.fin B) = false := by simp [Fl.lt, not_lt.mpr hBE]
  have hsub : sub32 ⌊E⌋ ⌊B⌋ = .ok (⌊E⌋ - ⌊B⌋) := by
    unfold sub32 chk32; rw [if_pos (by unfold inI32; omega)]
  have t1 : (Fl.fin B).trunc = .fin (⌊B⌋ : ℤ) := by simp [Fl.trunc, truncQ_nonneg h0]
  have t2 : (Fl.fin E).trunc = .fin (⌊E⌋ : ℤ) := by simp [Fl.trunc, truncQ_nonneg hE0]
  unfold normPair
  rw [c1, c2, hd]
  simp only [Bool.false_eq_true, if_false, toI32_fin h0 hB, toI32_fin hE0 hE, toSize_fin h0 hB,
    toSize_fin hE0 hE, toSize_round hE0 hE, hsub, Res.ok_bind, t1, t2, Res.pure_eq]
  have s1 : Fl.sub rnd (.fin B) (.fin (⌊B⌋ : ℤ)) = .fin (rnd (B - ⌊B⌋)) := rfl
  have s2 : Fl.sub rnd (.fin E) (.fin (⌊E⌋ : ℤ)) = .fin (rnd (E - ⌊E⌋)) := rfl
  rw [s1, s2]
  have ez : ⌊E⌋ - ⌊B⌋ = 0 ↔ ⌊E⌋ = ⌊B⌋ := by omega
  by_cases hz : ⌊E⌋ = ⌊B⌋
  · rw [if_pos (ez.mpr hz), if_pos hz]
    split <;> rfl
  · rw [if_neg (fun h => hz (ez.mp h)), if_neg hz]
    have hle : ⌊B⌋ ≤ ⌊E⌋ := Int.floor_le_floor hBE
    have a1 : addSz ⌊B⌋.toNat 1 = ⌊B⌋.toNat + 1 := Nat.mod_eq_of_lt (by omega)
    have a2 : subSz ⌊E⌋.toNat 1 = ⌊E⌋.toNat - 1 := by
      unfold subSz; rw [if_pos (by omega)]
    rw [a1, a2]
    split_ifs <;> rfl

/-- What the normalised pair can be. -/
theorem normPair_range {rnd : ℚ → ℚ} {B E : ℚ} {delta eps : Fl} {b1 b2 : Nat} (h0 : 0 ≤ B) (hBE : B ≤ E)
    (hE : E < 2147483648) (hd : delta.le (.fin 0) = false) :
    ∃ f s, normPair rnd (.fin B) (.fin E) delta eps b1 b2 = .ok (f, s) ∧
      (f ≤ 2147483648 ∨ f = b1) ∧ (s ≤ 2147483648 ∨ s = b2) := by
  have hE0 : 0 ≤ E := le_trans h0 hBE
  have fB' := floor_lt31 (lt_of_le_of_lt hBE hE)
  have fE' := floor_lt31 hE
  have fR : ⌊E + 1 / 2⌋ < 2147483649 := Int.floor_lt.mpr (by push_cast; linarith)
  rw [normPair_step h0 hBE hE hd]
  dsimp only
  by_cases hz : ⌊E⌋ = ⌊B⌋
  · rw [if_pos hz]
    split
    · exact ⟨_, _, rfl, Or.inl (by omega), Or.inl (by omega)⟩
    · exact ⟨_, _, rfl, Or.inl (by omega), Or.inl (by omega)⟩
  · rw [if_neg hz]
    refine ⟨_, _, rfl, ?_, ?_⟩
    · split_ifs <;> omega
    · split_ifs <;> omega

/-- Finite indices below 2^31 never make `NormIndicies` undefined. -/
theorem normPair_cases {rnd : ℚ → ℚ} {B E : ℚ} {delta eps : Fl} {b1 b2 : Nat} (hE : E < 2147483648) :
    normPair rnd (.fin B) (.fin E) delta eps b1 b2 = .throw .invalidArgument ∨
    (0 ≤ B ∧ B ≤ E ∧ delta.le (.fin 0) = false ∧
      ∃ f s, normPair rnd (.fin B) (.fin E) delta eps b1 b2 = .ok (f, s) ∧
      (f ≤ 2147483648 ∨ f = b1) ∧ (s ≤ 2147483648 ∨ s = b2)) := by
  by_cases h0 : 0 ≤ B
  · by_cases hBE : B ≤ E
    · cases hd : delta.le (.fin 0) with
      | false => exact Or.inr ⟨h0, hBE, rfl, normPair_range h0 hBE hE hd⟩
      | true =>
        left
        unfold normPair
        split_ifs <;> rfl
    · left
      have c2 : (Fl.fin E).lt (.fin B) = true := by simp [Fl.lt]; linarith
      unfold normPair
      split_ifs <;> rfl
  · left
    have c2 : (Fl.fin B).lt (.fin 0) = true := by simp [Fl.lt]; linarith
    unfold normPair
    rw [c2]; rfl

/-! ### Which cells are selected -/

/-- a column (or row) index is between the normalised ends and on the grid of `n` cells -/
def Sel (p : Nat × Nat) (n j : Nat) : Prop := p.1 ≤ j ∧ j ≤ p.2 ∧ j < n

theorem floor_eq_of {q : ℚ} {j : Nat} (h1 : (j : ℚ) ≤ q) (h2 : q < j + 1) : ⌊q⌋ = (j : ℤ) :=
  Int.floor_eq_iff.mpr ⟨by exact_mod_cast h1, by exact_mod_cast h2⟩

/-- If the computed ends are off by at most the tolerance, every cell whose centre lies between the true
ends is selected. -/
theorem sel_covers {rnd : ℚ → ℚ} (hr : Rounding rnd) {B E d ep : ℚ} {n : Nat} (h0 : 0 ≤ B)
    (hBE : B ≤ E) (hE : E < 2147483648) (hd : 0 < d) (hn : 0 < n) (hn2 : n ≤ 2 ^ 53)
    {j : Nat} (hj : j < n) {δ : ℚ} (_hδ : 0 ≤ δ) (hδ2 : δ < 1 / 2) (herr : δ ≤ rnd (ep * d))
    (h1 : B ≤ j + 1 / 2 + δ) (h2 : (j : ℚ) + 1 / 2 - δ ≤ E) :
    ∃ p, normPair rnd (.fin B) (.fin E) (.fin d) (.fin ep) 0 (n - 1) = .ok p ∧ Sel p n j := by
  have hd' : (Fl.fin d).le (.fin 0) = false := by simp [Fl.le]; linarith
  rw [normPair_step h0 hBE hE hd']
  refine ⟨_, rfl, ?_⟩
  have half : rnd (1 / 2) = 1 / 2 := by
    have := hr.exact 1 (-1) (by norm_num)
    norm_num at this ⊢
    exact this
  have z0 : rnd ((0 : Nat) : ℤ) = 0 := by simpa using hr.zero
  have zn : rnd (((n - 1 : Nat) : ℤ) : ℚ) = ((n - 1 : Nat) : ℚ) := by
    simpa using hr.nat (n - 1) (by omega)
  obtain ⟨err, herr'⟩ : ∃ e, e = rnd (ep * d) := ⟨_, rfl⟩
  have fBle := Int.floor_le B
  have fBlt := Int.lt_floor_add_one B
  have fEle := Int.floor_le E
  have fElt := Int.lt_floor_add_one E
  have B0 := Int.floor_nonneg.mpr h0
  have E0 := Int.floor_nonneg.mpr (le_trans h0 hBE)
  have jB : ⌊B⌋ ≤ j := by
    have : ⌊B⌋ < (j : ℤ) + 1 := Int.floor_lt.mpr (by push_cast; linarith)
    omega
  have jE : (j : ℤ) ≤ ⌊E⌋ := Int.le_floor.mpr (by push_cast; linarith)
  have hmB : ⌊B⌋ = (j : ℤ) → rnd (B - ⌊B⌋) ≤ rnd (1 / 2 + err) := by
    intro h; apply hr.mono; rw [h]; push_cast; linarith
  have hmE : ⌊E⌋ = (j : ℤ) → rnd (1 / 2 - err) ≤ rnd (E - ⌊E⌋) := by
    intro h; apply hr.mono; rw [h]; push_cast; linarith
  simp only [Fl.mul, Fl.sub, Fl.add, Fl.le, Fl.ofInt, half, z0, zn, ← herr']
  have hnq : ((n - 1 : Nat) : ℚ) = (n : ℚ) - 1 := by
    rw [Nat.cast_sub hn]; norm_num
  by_cases hz : ⌊E⌋ = ⌊B⌋
  · have e1 : ⌊B⌋ = (j : ℤ) := by omega
    have e2 : ⌊E⌋ = (j : ℤ) := by omega
    rw [if_pos hz, if_pos]
    · refine ⟨?_, ?_, hj⟩ <;> simp [e1]
    · simp only [Bool.or_eq_true, Bool.and_eq_true, decide_eq_true_eq]
      exact Or.inr ⟨hmB e1, hmE e2⟩
  · rw [if_neg hz]
    refine ⟨?_, ?_, hj⟩
    · dsimp only
      split_ifs with g1 g2
      · omega
      · omega
      · have : ⌊B⌋ ≠ (j : ℤ) := fun h => g2 (decide_eq_true (hmB h))
        omega
    · dsimp only
      have hr2 : ⌊E⌋ ≤ ⌊E + 1 / 2⌋ := Int.floor_le_floor (by linarith)
      split_ifs with g1 g2
      · omega
      · omega
      · have : ⌊E⌋ ≠ (j : ℤ) := fun h => g2 (decide_eq_true (hmE h))
        omega

/-- The overshoot at the far end: the cell after the one containing the end when the end is in the second
half of its cell, and the last cell whenever the end reaches into or past it. -/
def Over (B E : ℚ) (n j : Nat) : Prop :=
  ⌊B⌋ ≠ ⌊E⌋ ∧ ((E < (n : ℚ) - 1 ∧ 1 / 2 ≤ E - ⌊E⌋ ∧ (j : ℤ) = ⌊E⌋ + 1) ∨ ((n : ℚ) - 1 ≤ E ∧ j + 1 = n))

/-- Exact arithmetic: which cells are selected. -/
theorem sel_exact {B E d ep : ℚ} {n : Nat} (h0 : 0 ≤ B) (hBE : B ≤ E) (hE : E < 2147483648)
    (hd : 0 < d) (hn : 0 < n) (herr0 : 0 ≤ ep * d) (herr : ep * d < 1 / 2) :
    ∃ p, normPair id (.fin B) (.fin E) (.fin d) (.fin ep) 0 (n - 1) = .ok p ∧
      ∀ j, Sel p n j ↔ j < n ∧ B ≤ j + 1 / 2 + ep * d ∧ ((j : ℚ) + 1 / 2 ≤ E + ep * d ∨ Over B E n j) := by
  have hd' : (Fl.fin d).le (.fin 0) = false := by simp [Fl.le]; linarith
  rw [normPair_step h0 hBE hE hd']
  refine ⟨_, rfl, ?_⟩
  intro j
  obtain ⟨err, herr'⟩ : ∃ e, e = ep * d := ⟨_, rfl⟩
  have fBle := Int.floor_le B
  have fBlt := Int.lt_floor_add_one B
  have fEle := Int.floor_le E
  have fElt := Int.lt_floor_add_one E
  have B0 := Int.floor_nonneg.mpr h0
  have E0 := Int.floor_nonneg.mpr (le_trans h0 hBE)
  have hle : ⌊B⌋ ≤ ⌊E⌋ := Int.floor_le_floor hBE
  have hnq : ((n - 1 : Nat) : ℚ) = (n : ℚ) - 1 := by
    rw [Nat.cast_sub hn]; norm_num
  simp only [Fl.mul, Fl.sub, Fl.add, Fl.le, Fl.ofInt, id, ← herr', Int.cast_natCast, hnq]
  rw [← herr'] at herr0 herr
  obtain ⟨fB, hfB⟩ : ∃ k : Nat, ⌊B⌋ = (k : ℤ) := Int.eq_ofNat_of_zero_le B0
  obtain ⟨fE, hfE⟩ : ∃ k : Nat, ⌊E⌋ = (k : ℤ) := Int.eq_ofNat_of_zero_le E0
  simp only [Over, hfB, hfE, Int.cast_natCast, Int.toNat_natCast] at *
  have cmp : ∀ a b : Nat, a ≤ b ∨ b + 1 ≤ a := by omega
  have castle : ∀ a b : Nat, a ≤ b → (a : ℚ) ≤ b := fun a b h => by exact_mod_cast h
  have castlt : ∀ a b : Nat, a + 1 ≤ b → (a : ℚ) + 1 ≤ b := fun a b h => by exact_mod_cast h
  by_cases hz : fE = fB
  · subst hz
    rw [if_pos rfl]
    by_cases hc : B - fE ≤ 1 / 2 + err ∧ 1 / 2 - err ≤ E - fE
    · rw [if_pos (by simp only [Bool.or_eq_true, Bool.and_eq_true, decide_eq_true_eq]; exact Or.inr hc)]
      simp only [Sel]
      constructor
      · rintro ⟨h1, h2, h3⟩
        have : j = fE := by omega
        subst this
        exact ⟨h3, by linarith [hc.1], Or.inl (by linarith [hc.2])⟩
      · rintro ⟨h1, h2, h3⟩
        rcases h3 with h3 | h3
        · refine ⟨?_, ?_, h1⟩
          · rcases cmp fE j with h | h
            · exact h
            · have := castlt _ _ h; linarith
          · rcases cmp j fE with h | h
            · exact h
            · have := castlt _ _ h; linarith
        · exact absurd rfl h3.1
    · rw [if_neg]
      · constructor
        · rintro ⟨h1, h2, _⟩; dsimp only at h1 h2; omega
        · rintro ⟨h1, h2, h3⟩
          rcases h3 with h3 | h3
          · exfalso
            apply hc
            rcases cmp fE j with h | h
            · rcases cmp j fE with h' | h'
              · have : j = fE := by omega
                subst this
                exact ⟨by linarith, by linarith⟩
              · have := castlt _ _ h'; linarith
            · have := castlt _ _ h; linarith
          · exact absurd rfl h3.1
      · intro hh
        apply hc
        simp only [Bool.or_eq_true, Bool.and_eq_true, decide_eq_true_eq] at hh
        rcases hh with (⟨a, b⟩ | ⟨a, b⟩) | ⟨a, b⟩
        · exact ⟨b, by linarith⟩
        · exact ⟨by linarith, a⟩
        · exact ⟨a, b⟩
  · have hlt : fB + 1 ≤ fE := by omega
    rw [if_neg (by omega)]
    have hne : (fB : ℤ) ≠ (fE : ℤ) := by omega
    have first : (if decide (B ≤ ((0 : Nat) : ℚ)) = true then 0
        else if decide (B - fB ≤ 1 / 2 + err) = true then fB else fB + 1) ≤ j ↔ B ≤ j + 1 / 2 + err := by
      simp only [decide_eq_true_eq]
      split_ifs with g1 g2
      · simp only [Nat.zero_le, true_iff]
        have : (0 : ℚ) ≤ j := Nat.cast_nonneg j
        push_cast at g1; linarith
      · constructor
        · intro h; have := castle _ _ h; linarith
        · intro h
          rcases cmp fB j with h' | h'
          · exact h'
          · have := castlt _ _ h'; linarith
      · constructor
        · intro h; have := castlt _ _ h; linarith
        · intro h
          rcases cmp (fB + 1) j with h' | h'
          · exact h'
          · exfalso
            have := castle j fB (by omega)
            apply g2; linarith
    have second : j < n → (j ≤ (if decide ((n : ℚ) - 1 ≤ E) = true then n - 1
        else if decide (1 / 2 - err ≤ E - fE) = true then ⌊E + 1 / 2⌋.toNat else fE - 1) ↔
        ((j : ℚ) + 1 / 2 ≤ E + err ∨ ((fB : ℤ) ≠ fE ∧ ((E < (n : ℚ) - 1 ∧ 1 / 2 ≤ E - fE ∧ (j : ℤ) = fE + 1) ∨
          ((n : ℚ) - 1 ≤ E ∧ j + 1 = n))))) := by
      intro hjn
      simp only [decide_eq_true_eq]
      split_ifs with g1 g2
      · constructor
        · intro h
          by_cases hlast : j + 1 = n
          · exact Or.inr ⟨hne, Or.inr ⟨g1, hlast⟩⟩
          · left
            have := castlt (j + 1) n (by omega)
            push_cast at this; linarith
        · intro _; omega
      · by_cases g3 : 1 / 2 ≤ E - fE
        · have hr : ⌊E + 1 / 2⌋ = (fE : ℤ) + 1 :=
            Int.floor_eq_iff.mpr ⟨by push_cast; linarith, by push_cast; linarith⟩
          rw [hr]
          constructor
          · intro h
            by_cases hj : j ≤ fE
            · left; have := castle _ _ hj; linarith
            · right; exact ⟨hne, Or.inl ⟨by linarith, g3, by omega⟩⟩
          · rintro (h | ⟨_, ⟨_, _, h⟩ | ⟨h, _⟩⟩)
            · rcases cmp j fE with h' | h'
              · omega
              · have := castlt _ _ h'; linarith
            · omega
            · exact absurd h g1
        · have hr : ⌊E + 1 / 2⌋ = (fE : ℤ) :=
            Int.floor_eq_iff.mpr ⟨by push_cast; linarith, by push_cast; linarith⟩
          rw [hr]
          constructor
          · intro h
            left
            have := castle j fE (by omega); linarith
          · rintro (h | ⟨_, ⟨_, h, _⟩ | ⟨h, _⟩⟩)
            · rcases cmp j fE with h' | h'
              · omega
              · have := castlt _ _ h'; linarith
            · exact absurd h g3
            · exact absurd h g1
      · constructor
        · intro h
          left
          have := castlt j fE (by omega); linarith
        · rintro (h | ⟨_, ⟨_, h, _⟩ | ⟨h, _⟩⟩)
          · rcases cmp (j + 1) fE with h' | h'
            · omega
            · exfalso
              have := castle fE j (by omega)
              apply g2; linarith
          · exfalso; apply g2; linarith
          · exact absurd h g1
    simp only [Sel]
    constructor
    · rintro ⟨h1, h2, h3⟩
      exact ⟨h3, first.mp h1, (second h3).mp h2⟩
    · rintro ⟨h1, h2, h3⟩
      exact ⟨first.mpr h2, (second h1).mpr h3, h1⟩

end Verif.Zond
