import Verif.Props.Enlarge

/-!
C72 in `double` arithmetic: moving the left or the top side outwards never removes a cell.
-/

namespace Verif.Props
open Verif BitMatrix Zond Spec Ieee

/-- a pair comes out only for ordered indices that fit 32 bits -/
theorem normPair_ok_inv {rnd : ℚ → ℚ} {B E : ℚ} {delta eps : Fl} {b1 b2 : Nat} {p : Nat × Nat}
    (h : normPair rnd (.fin B) (.fin E) delta eps b1 b2 = .ok p) :
    0 ≤ B ∧ B ≤ E ∧ E < 2147483648 ∧ delta.le (.fin 0) = false := by
  have hE : E < 2147483648 := by
    by_contra hE
    rw [not_lt] at hE
    have e0 : 0 ≤ E := by linarith
    have hf : (2147483648 : ℤ) ≤ ⌊E⌋ := Int.le_floor.2 (by exact_mod_cast hE)
    have : (Fl.fin E).toI32 = .ub := by
      unfold Fl.toI32
      dsimp only
      rw [truncQ_nonneg e0, if_neg (by omega)]
    unfold normPair at h
    rw [this] at h
    split at h
    · cases h
    split at h
    · cases h
    split at h
    · cases h
    cases h
  rcases normPair_cases (rnd := rnd) (B := B) (delta := delta) (eps := eps) (b1 := b1) (b2 := b2) hE with ht | ⟨h0, h1, h2, _⟩
  · rw [ht] at h; cases h
  · exact ⟨h0, h1, hE, h2⟩

/-- one axis: with a smaller begin, every index between the ends is still there -/
theorem normPair_left {rnd : ℚ → ℚ} (hr : Rounding rnd) {B B' E d ep : ℚ} {b2 : Nat} (hb2 : b2 ≤ 2 ^ 53) {p : Nat × Nat}
    (h0 : 0 ≤ B') (hBB : B' ≤ B) (h : normPair rnd (.fin B) (.fin E) (.fin d) (.fin ep) 0 b2 = .ok p) :
    ∃ p', normPair rnd (.fin B') (.fin E) (.fin d) (.fin ep) 0 b2 = .ok p' ∧
      ∀ j, p.1 ≤ j → j ≤ p.2 → j ≤ b2 → p'.1 ≤ j ∧ j ≤ p'.2 := by
  obtain ⟨hB, hBE, hE, hd⟩ := normPair_ok_inv h
  rw [normPair_step hB hBE hE hd] at h
  refine ⟨_, normPair_step h0 (le_trans hBB hBE) hE hd, fun j j1 j2 j3 => ?_⟩
  have hz : rnd ((0 : ℕ) : ℤ) = 0 := by simpa using hr.zero
  have hn : rnd ((b2 : ℕ) : ℤ) = (b2 : ℚ) := by simpa using hr.nat b2 hb2
  have hfl : ⌊B'⌋ ≤ ⌊B⌋ := Int.floor_mono hBB
  have hfl2 : ⌊B⌋ ≤ ⌊E⌋ := Int.floor_mono hBE
  have f0 : 0 ≤ ⌊B'⌋ := Int.floor_nonneg.2 h0
  have hup : ⌊E⌋ ≤ ⌊E + 1 / 2⌋ := Int.floor_mono (by linarith)
  simp only [Fl.sub, Fl.add, Fl.mul, Fl.le, Fl.ofInt, hz, hn, Bool.or_eq_true, Bool.and_eq_true, decide_eq_true_eq] at h ⊢
  generalize hlo : rnd (rnd (1 / 2) - rnd (ep * d)) = lo at h ⊢
  generalize hhi : rnd (rnd (1 / 2) + rnd (ep * d)) = hi at h ⊢
  have mb : ⌊B'⌋ = ⌊B⌋ → rnd (B' - ⌊B'⌋) ≤ rnd (B - ⌊B⌋) := by
    intro e; rw [e]; exact hr.mono _ _ (by linarith)
  have me : ⌊E⌋ = ⌊B⌋ → rnd (B - ⌊B⌋) ≤ rnd (E - ⌊E⌋) := by
    intro e; rw [e]; exact hr.mono _ _ (by linarith)
  generalize rnd (B' - ⌊B'⌋) = bm' at *
  generalize rnd (B - ⌊B⌋) = bm at *
  generalize rnd (E - ⌊E⌋) = em at *
  by_cases hEB : ⌊E⌋ = ⌊B⌋
  · rw [if_pos hEB] at h
    have me := me hEB
    split at h
    · rename_i hcond
      cases h
      dsimp only at j1 j2
      by_cases hEB' : ⌊E⌋ = ⌊B'⌋
      · have mb := mb (by omega)
        rw [if_pos hEB', if_pos]
        · dsimp only; omega
        · rcases hcond with (⟨c1, c2⟩ | c) | ⟨c1, c2⟩
          · right; constructor <;> linarith
          · left; right; exact c
          · right; constructor <;> linarith
      · rw [if_neg hEB']
        dsimp only
        constructor
        · split_ifs <;> omega
        · have : lo ≤ em := by
            rcases hcond with (⟨c1, c2⟩ | c) | ⟨c1, c2⟩
            · linarith
            · exact c.1
            · exact c2
          rw [if_pos this]
          split_ifs <;> omega
    · cases h
      dsimp only at j1 j2
      omega
  · rw [if_neg hEB] at h
    have hEB' : ¬ ⌊E⌋ = ⌊B'⌋ := by omega
    rw [if_neg hEB']
    cases h
    dsimp only at j1 j2 ⊢
    refine ⟨le_trans ?_ j1, j2⟩
    by_cases hB0 : B ≤ 0
    · rw [if_pos (le_trans hBB hB0)]; omega
    · rw [if_neg hB0]
      by_cases hB0' : B' ≤ 0
      · rw [if_pos hB0']; omega
      · rw [if_neg hB0']
        by_cases he : ⌊B'⌋ = ⌊B⌋
        · have mb := mb he
          by_cases hbm : bm ≤ hi
          · rw [if_pos hbm, if_pos (le_trans mb hbm)]; omega
          · rw [if_neg hbm]; split_ifs <;> omega
        · split_ifs <;> omega

theorem rnd_pos {rnd : ℚ → ℚ} (hr : Rounding rnd) {x : ℚ} (hx : 0 < x) : 0 < rnd x := by
  have := hr.relErr x
  rw [abs_of_pos hx, abs_le] at this
  have h2 : x / 2 ^ 53 < x := div_lt_self hx (by norm_num)
  linarith [this.1]

/-- **C72** The same in `double` arithmetic, with any tolerance and for every rectangle: whenever drawing the small rectangle
returns normally, drawing it with the left and the top side moved outwards, not beyond the window, returns normally as well and
turns on at least the same cells. -/
theorem C72_left_top_double (rnd : ℚ → ℚ) (hr : Rounding rnd) (z : Zond) (ws : Workspace) (R C : Nat) (ep : ℚ)
    (hs : SetUp rnd z ws R C ep) (g g' : Geometry) (lt rb lt' : Coord) (hg : RectGeom g lt rb) (hg' : RectGeom g' lt' rb)
    (hx0 : ws.leftTop.x ≤ lt'.x) (hx : lt'.x ≤ lt.x) (hy0 : lt'.y ≤ ws.leftTop.y) (hy : lt.y ≤ lt'.y)
    (m m1 : BitMatrix) (hm : Built m) (hR : m.isize = R) (hC : m.jsize = C) (h1 : zondGeometry rnd z (some g) m = .ok () m1) :
    ∃ m2, zondGeometry rnd z (some g') m = .ok () m2 ∧ ∀ i j, i < R → j < C → Lit m1 i j → Lit m2 i j := by
  subst hR; subst hC
  have hW : (0 : ℚ) < wsW ws := by exact_mod_cast hs.wpos
  have hH : (0 : ℚ) < wsH ws := by exact_mod_cast hs.hpos
  have hRq : (0 : ℚ) < m.isize := by exact_mod_cast hs.rpos
  have hCq : (0 : ℚ) < m.jsize := by exact_mod_cast hs.cpos
  obtain ⟨dx, hdx⟩ : ∃ d, d = rnd ((wsW ws : ℚ) / m.jsize) := ⟨_, rfl⟩
  obtain ⟨dy, hdy⟩ : ∃ d, d = rnd ((wsH ws : ℚ) / m.isize) := ⟨_, rfl⟩
  have pdx : 0 < dx := by rw [hdx]; exact rnd_pos hr (div_pos hW hCq)
  have pdy : 0 < dy := by rw [hdy]; exact rnd_pos hr (div_pos hH hRq)
  have zdx : z.dx = .fin dx := by rw [hs.dx, hdx]
  have zdy : z.dy = .fin dy := by rw [hs.dy, hdy]
  have iy : ∀ a b : Int, a ≤ b → rnd a ≤ rnd b := fun a b h => hr.mono _ _ (by exact_mod_cast h)
  have mono : ∀ a b : Int, a ≤ b → ∀ d : ℚ, 0 < d → rnd ((a : ℚ) / d) ≤ rnd ((b : ℚ) / d) := by
    intro a b h d hd
    apply hr.mono
    rw [div_le_div_iff_of_pos_right hd]
    exact_mod_cast h
  have nn : ∀ a : Int, 0 ≤ a → ∀ d : ℚ, 0 < d → 0 ≤ rnd ((a : ℚ) / d) := by
    intro a h d hd
    have := hr.mono 0 ((a : ℚ) / d) (div_nonneg (by exact_mod_cast h) hd.le)
    rwa [hr.zero] at this
  have hcm : coversAll rnd z lt rb = true → coversAll rnd z lt' rb = true := by
    simp only [coversAll, Bool.and_eq_true, zdx, zdy, hs.eps, Fl.ofInt, Fl.div, Fl.mul, Fl.sub, Fl.add, Fl.le,
      decide_eq_true_eq, show (2 : ℚ) ≠ 0 by norm_num, if_false]
    rintro ⟨⟨c1, c2⟩, c3, c4⟩
    exact ⟨⟨le_trans (iy _ _ hx) c1, c2⟩, le_trans c3 (iy _ _ hy), c4⟩
  cases hc' : coversAll rnd z lt' rb with
  | true =>
    obtain ⟨m2, e2, l2⟩ := built_paints hm (setup_all hs hg' hc')
    refine ⟨m2, e2, fun i j hi hj _ => ?_⟩
    rw [l2]
    exact .inr ⟨hi, hj, hi, hj⟩
  | false =>
    have hc : coversAll rnd z lt rb = false := by
      cases h : coversAll rnd z lt rb with
      | false => rfl
      | true => rw [hcm h] at hc'; cases hc'
    have hraw := h1
    rw [rect_raw hg hc] at hraw
    cases hq : rawIndicies rnd z lt rb with
    | throw e => exact absurd hq rawIndicies_throw
    | ub => rw [hq] at hraw; cases hraw
    | ok q0 =>
      have hf : DiffsFit z.ws lt rb := by
        unfold rawIndicies sub32 chk32 at hq
        unfold DiffsFit
        by_contra hn
        split_ifs at hq <;> tauto
      have hraweq := raw_eq hr hf zdx zdy pdx pdy
      rw [hs.wks] at hraweq
      have hq' := hq
      rw [hraweq] at hq
      cases hq
      rw [hq', M.run_bind_ok (M.run_lift_ok _ _)] at hraw
      dsimp only at hraw
      cases hn : normIndicies rnd z (.fin (rnd (((ws.leftTop.y - lt.y : Int) : ℚ) / dy)))
          (.fin (rnd (((ws.leftTop.y - rb.y : Int) : ℚ) / dy))) (.fin (rnd (((lt.x - ws.leftTop.x : Int) : ℚ) / dx)))
          (.fin (rnd (((rb.x - ws.leftTop.x : Int) : ℚ) / dx))) with
      | throw e => rw [hn] at hraw; cases hraw
      | ub => rw [hn] at hraw; cases hraw
      | ok n =>
        obtain ⟨p, q, np, nq, rfl⟩ := normIndicies_ok hn
        rw [hs.bound, zdy, hs.eps] at np
        rw [hs.bound, zdx, hs.eps] at nq
        dsimp only at np nq
        have rmax := hs.rmax
        have cmax := hs.cmax
        obtain ⟨p', np', sp⟩ := normPair_left hr (by omega) (nn (ws.leftTop.y - lt'.y) (by omega) dy pdy)
          (mono (ws.leftTop.y - lt'.y) (ws.leftTop.y - lt.y) (by omega) dy pdy) np
        obtain ⟨q', nq', sq⟩ := normPair_left hr (by omega) (nn (lt'.x - ws.leftTop.x) (by omega) dx pdx)
          (mono (lt'.x - ws.leftTop.x) (lt.x - ws.leftTop.x) (by omega) dx pdx) nq
        obtain ⟨a1, a2, a3, a4⟩ := normPair_ok_inv np
        obtain ⟨a1', a2', _, _⟩ := normPair_ok_inv np'
        obtain ⟨b1, b2, b3, b4⟩ := normPair_ok_inv nq
        obtain ⟨b1', b2', _, _⟩ := normPair_ok_inv nq'
        rw [hs.wks] at hf
        obtain ⟨f1, f2, f3, f4⟩ := hf
        have hf' : DiffsFit z.ws lt' rb := by
          rw [hs.wks]
          unfold inI32 at f1 f3
          refine ⟨?_, f2, ?_, f4⟩ <;> unfold inI32 <;> omega
        have hraweq' := raw_eq hr hf' zdx zdy pdx pdy
        rw [hs.wks] at hraweq'
        obtain ⟨m1', e1, l1⟩ := built_paints hm (setup_paints hs hg hc hraweq a1 a2 a3 b1 b2 b3 (by rw [zdx]; exact b4)
          (by rw [zdy]; exact a4) (p := p) (q := q) (by rw [zdy, hs.eps]; exact np) (by rw [zdx, hs.eps]; exact nq))
        obtain ⟨m2, e2, l2⟩ := built_paints hm (setup_paints hs hg' hc' hraweq' a1' a2' a3 b1' b2' b3 (by rw [zdx]; exact b4)
          (by rw [zdy]; exact a4) (p := p') (q := q') (by rw [zdy, hs.eps]; exact np') (by rw [zdx, hs.eps]; exact nq'))
        obtain rfl : m1 = m1' := by rw [h1] at e1; cases e1; rfl
        refine ⟨m2, e2, fun i j hi hj hl => ?_⟩
        rw [l1] at hl
        rw [l2]
        rcases hl with hl | ⟨_, _, ⟨s1, s2, s3⟩, s4, s5, s6⟩
        · exact .inl hl
        · have := sp i s1 s2 (by omega)
          have := sq j s4 s5 (by omega)
          exact .inr ⟨hi, hj, ⟨by omega, by omega, hi⟩, by omega, by omega, hj⟩

/-- the grid of the other examples: `45..52` alone draws column 4, and so does `20..52` -/
example : ∃ m1 m2, zondGeometry rne (exZond rne) (some (exRect 41 80 52 60)) (BitMatrix.new Alloc.ok 10 10) = .ok () m1 ∧
    zondGeometry rne (exZond rne) (some (exRect 20 85 52 60)) (BitMatrix.new Alloc.ok 10 10) = .ok () m2 ∧
    Lit m1 3 4 ∧ Lit m2 3 4 := by
  have key : (match zondGeometry rne (exZond rne) (some (exRect 41 80 52 60)) (BitMatrix.new Alloc.ok 10 10) with
      | .ok () m1 => decide (BitMatrix.get m1 3 4 = .ok true)
      | _ => false) = true := by decide +kernel
  split at key
  · rename_i m1 h1
    have hl : Lit m1 3 4 := by unfold Lit; exact of_decide_eq_true key
    obtain ⟨m2, e2, l2⟩ := C72_left_top_double rne rne_rounding (exZond rne) exWs 10 10 _ (exSetUp rne) (exRect 41 80 52 60)
      (exRect 20 85 52 60) ⟨41, 80⟩ ⟨52, 60⟩ ⟨20, 85⟩ ⟨rfl, _, _, rfl⟩ ⟨rfl, _, _, rfl⟩ (by decide) (by decide) (by decide) (by decide)
      _ m1 (.new 10 10 (by norm_num) (by norm_num)) rfl rfl h1
    exact ⟨m1, m2, h1, e2, hl, l2 3 4 (by norm_num) (by norm_num) hl⟩
  · cases key

end Verif.Props
