import Verif.Proofs.ZondRect
import Verif.Spec.ZondPart

/-! A rasteriser for a part of the bitmap. -/

namespace Verif.Zond
open Verif BitMatrix Ieee Spec

/-- the begin bound only matters for rectangles that begin at or before it -/
theorem normPair_begin {rnd : ℚ → ℚ} {B E : ℚ} {delta eps : Fl} {f b2 : Nat} (h0 : 0 ≤ B) (hBE : B ≤ E)
    (hE : E < 2147483648) (hd : delta.le (.fin 0) = false) (hz : rnd 0 = 0) (hf : rnd (f : ℚ) = f) {p : Nat × Nat}
    (h : normPair rnd (.fin B) (.fin E) delta eps 0 b2 = .ok p) :
    normPair rnd (.fin B) (.fin E) delta eps f b2 = .ok (if ⌊B⌋ ≠ ⌊E⌋ ∧ B ≤ f then (f, p.2) else p) := by
  rw [normPair_step h0 hBE hE hd] at h ⊢
  have h := Res.ok.inj h
  have f0 : (0 : ℚ) ≤ f := Nat.cast_nonneg f
  have hle : ∀ k : Nat, rnd (k : ℚ) = k → ((Fl.fin B).le (Fl.ofInt rnd (k : Nat)) = true ↔ B ≤ k) := by
    intro k hk
    simp only [Fl.ofInt, Fl.le, Int.cast_natCast, hk, decide_eq_true_eq]
  have hf' := hle f hf
  have h0' := hle 0 (by simpa using hz)
  subst h
  congr 1
  dsimp only
  by_cases hfl : ⌊E⌋ = ⌊B⌋
  · have hn : ¬ (⌊B⌋ ≠ ⌊E⌋ ∧ B ≤ f) := fun h => h.1 hfl.symm
    rw [if_pos hfl, if_pos hfl, if_neg hn]
  · rw [if_neg hfl, if_neg hfl]
    by_cases hb : B ≤ f
    · have hp : ⌊B⌋ ≠ ⌊E⌋ ∧ B ≤ f := ⟨fun h => hfl h.symm, hb⟩
      rw [if_pos (hf'.2 hb), if_pos hp]
    · have hp : ¬ (⌊B⌋ ≠ ⌊E⌋ ∧ B ≤ f) := fun h => hb h.2
      have hp0 : ¬ B ≤ ((0 : Nat) : ℚ) := by push_cast; intro h; linarith
      rw [if_neg (fun h => hb (hf'.1 h)), if_neg hp, if_neg (fun h => hp0 (h0'.1 h))]

/-- exact arithmetic: which cells of the part are selected -/
theorem sel_part {B E d ep : ℚ} {f n : Nat} (h0 : 0 ≤ B) (hBE : B ≤ E) (hE : E < 2147483648)
    (hd : 0 < d) (hn : 0 < n) (herr0 : 0 ≤ ep * d) (herr : ep * d < 1 / 2) :
    ∃ p, normPair id (.fin B) (.fin E) (.fin d) (.fin ep) f (f + n - 1) = .ok p ∧
      ∀ r, r < n → ((p.1 ≤ r ∧ r ≤ p.2) ↔ PartCell B E (ep * d) f n r) := by
  obtain ⟨p, hp, sp⟩ := sel_exact (n := f + n) h0 hBE hE hd (by omega) herr0 herr
  refine ⟨_, normPair_begin h0 hBE hE (by simp [Fl.le]; linarith) rfl rfl hp, fun r hr => ?_⟩
  have key : (p.1 ≤ r ∧ r ≤ p.2) ↔ AxisCell B E (ep * d) (f + n) r := by
    have := sp r
    unfold Sel at this
    unfold AxisCell
    unfold Over at this
    constructor
    · intro h; exact (this.1 ⟨h.1, h.2, by omega⟩).2
    · intro h; have h := this.2 ⟨by omega, h⟩; exact ⟨h.1, h.2.1⟩
  unfold PartCell
  by_cases hc : ⌊B⌋ ≠ ⌊E⌋ ∧ B ≤ f
  · rw [if_pos hc]
    dsimp only
    constructor
    · rintro ⟨h1, h2⟩
      refine ⟨?_, fun _ _ => h1⟩
      rw [← key]
      refine ⟨?_, h2⟩
      -- the begin without bound is not behind `f`
      have hp1 : p.1 ≤ f := by
        rw [normPair_step h0 hBE hE (by simp [Fl.le]; linarith)] at hp
        have hp := Res.ok.inj hp
        rw [← hp]
        dsimp only
        have e : ⌊E⌋ ≠ ⌊B⌋ := fun h => hc.1 h.symm
        rw [if_neg e]
        simp only [Fl.ofInt, Fl.le, Fl.mul, Fl.add, id, Nat.cast_zero, decide_eq_true_eq]
        have B0 := Int.floor_nonneg.mpr h0
        have fl := Int.floor_le B
        have hfB : ⌊B⌋ ≤ (f : ℤ) := by
          have : ⌊B⌋ ≤ ⌊(f : ℚ)⌋ := Int.floor_le_floor hc.2
          simpa using this
        split_ifs with g1 g2
        · omega
        · omega
        · -- B is past the centre, hence strictly before f
          have : ⌊B⌋ ≠ (f : ℤ) := by
            intro hh
            apply g2
            rw [hh]; push_cast
            linarith [hc.2]
          omega
      omega
    · rintro ⟨h1, h2⟩
      exact ⟨h2 hc.1 hc.2, (key.2 h1).2⟩
  · rw [if_neg hc, key]
    constructor
    · intro h; exact ⟨h, fun h1 h2 => absurd ⟨h1, h2⟩ hc⟩
    · intro h; exact h.1

/-- the rectangle in a part paints the selected rows × columns of the part -/
theorem part_paints {rnd : ℚ → ℚ} {z : Zond} {ws : Workspace} {i0 R j0 C : Nat} {ep : ℚ}
    (hs : PartSetUp rnd z ws i0 R j0 C ep) {g : Geometry} {lt rb : Coord} (h : RectGeom g lt rb)
    (hc : coversAll rnd z lt rb = false) {iB iE jB jE : ℚ}
    (hq : rawIndicies rnd z lt rb = .ok (.fin iB, .fin iE, .fin jB, .fin jE))
    (hi0 : 0 ≤ iB) (hi1 : iB ≤ iE) (hi2 : iE < 2147483648) (hj0 : 0 ≤ jB) (hj1 : jB ≤ jE) (hj2 : jE < 2147483648)
    (hdx : z.dx.le (.fin 0) = false) (hdy : z.dy.le (.fin 0) = false)
    {p q : Nat × Nat}
    (h1 : normPair rnd (.fin iB) (.fin iE) z.dy z.eps i0 (i0 + R - 1) = .ok p)
    (h2 : normPair rnd (.fin jB) (.fin jE) z.dx z.eps j0 (j0 + C - 1) = .ok q) (M N : Nat) :
    Paints M N (zondGeometry rnd z (some g)) (fun i j => i < M ∧ j < N ∧ ∃ r s, i = i0 + r ∧ j = j0 + s ∧ r < R ∧ s < C ∧
      (p.1 ≤ r ∧ r ≤ p.2) ∧ (q.1 ≤ s ∧ s ≤ q.2)) := by
  have hrm := hs.rmax
  have hcm := hs.cmax
  have hrp := hs.rpos
  have hcp := hs.cpos
  obtain ⟨f, s, e1, r1, r2⟩ := normPair_range (rnd := rnd) (eps := z.eps) (b1 := i0) (b2 := i0 + R - 1) hi0 hi1 hi2 hdy
  obtain ⟨f', s', e2, r3, r4⟩ := normPair_range (rnd := rnd) (eps := z.eps) (b1 := j0) (b2 := j0 + C - 1) hj0 hj1 hj2 hdx
  rw [h1] at e1; cases e1
  rw [h2] at e2; cases e2
  rw [rect_paints h hc hq (p := (f, s)) (q := (f', s')) (by rw [hs.bound]; exact h1) (by rw [hs.bound]; exact h2),
    hs.bound]
  refine (fillRange_paints M N _ ⟨f, s, f', s'⟩ ?_ ?_ ?_ ?_ ?_ ?_).congr fun i j => ?_
  all_goals dsimp only
  all_goals try omega
  unfold Box
  try dsimp only
  constructor
  · rintro ⟨a1, a2, a3, a4, a5, a6⟩
    exact ⟨a1, a2, i - i0, j - j0, by omega, by omega, by omega, by omega, by omega, by omega⟩
  · rintro ⟨a1, a2, r, s, rfl, rfl, a3, a4, a5, a6⟩
    omega

theorem part_all {rnd : ℚ → ℚ} {z : Zond} {ws : Workspace} {i0 R j0 C : Nat} {ep : ℚ}
    (hs : PartSetUp rnd z ws i0 R j0 C ep) {g : Geometry} {lt rb : Coord} (h : RectGeom g lt rb)
    (hc : coversAll rnd z lt rb = true) (M N : Nat) :
    Paints M N (zondGeometry rnd z (some g))
      (fun i j => i < M ∧ j < N ∧ ∃ r s, i = i0 + r ∧ j = j0 + s ∧ r < R ∧ s < C) := by
  have hrm := hs.rmax
  have hcm := hs.cmax
  have hrp := hs.rpos
  have hcp := hs.cpos
  rw [rect_all h hc, hs.bound]
  refine (fillAll_paints M N _ ?_ ?_ ?_ ?_).congr fun i j => ?_
  all_goals dsimp only
  all_goals try omega
  unfold Box
  try dsimp only
  constructor
  · rintro ⟨a1, a2, a3, a4, a5, a6⟩
    exact ⟨a1, a2, i - i0, j - j0, by omega, by omega, by omega, by omega⟩
  · rintro ⟨a1, a2, r, s, rfl, rfl, a3, a4⟩
    omega

end Verif.Zond
