import Verif.Props.Zond

/-! C39, the other direction in `double` arithmetic: nothing far from a rectangle is drawn. -/

namespace Verif.Props
open Verif BitMatrix Zond Spec Ieee

theorem toI32_big {q : ℚ} (h : 2147483648 ≤ q) : (Fl.fin q).toI32 = .ub := by
  have h1 : (2147483648 : ℤ) ≤ ⌊q⌋ := Int.le_floor.mpr (by exact_mod_cast h)
  simp only [Fl.toI32, truncQ_nonneg (le_trans (by norm_num) h)]
  rw [if_neg (by omega)]

/-- a pair that was returned has ordered ends in the `int` range -/
theorem normPair_ok {rnd : ℚ → ℚ} {B E : ℚ} {delta eps : Fl} {b1 b2 : Nat} {p : Nat × Nat}
    (h : normPair rnd (.fin B) (.fin E) delta eps b1 b2 = .ok p) :
    0 ≤ B ∧ B ≤ E ∧ E < 2147483648 ∧ delta.le (.fin 0) = false := by
  by_cases hE : E < 2147483648
  · rcases normPair_cases (rnd := rnd) (B := B) (delta := delta) (eps := eps) (b1 := b1) (b2 := b2) hE with ht | ⟨a, b, c, _⟩
    · rw [ht] at h; cases h
    · exact ⟨a, b, hE, c⟩
  · exfalso
    unfold normPair at h
    simp only [toI32_big (not_lt.mp hE)] at h
    split_ifs at h <;> cases h

/-- the selected cells are near the computed ends -/
theorem sel_near {rnd : ℚ → ℚ} (hr : Rounding rnd) {B E : ℚ} {delta eps : Fl} {n : Nat} (hn : 0 < n) (hn2 : n ≤ 2 ^ 53)
    {p : Nat × Nat} (h : normPair rnd (.fin B) (.fin E) delta eps 0 (n - 1) = .ok p) {j : Nat} (hs : Sel p n j) :
    B < j + 1 ∧ (j : ℚ) ≤ E + 1 / 2 := by
  obtain ⟨h0, hBE, hE, hd⟩ := normPair_ok h
  rw [normPair_step h0 hBE hE hd] at h
  have h := Res.ok.inj h
  have z0 : rnd ((0 : Nat) : ℤ) = 0 := by simpa using hr.zero
  have zn : rnd (((n - 1 : Nat) : ℤ) : ℚ) = ((n - 1 : Nat) : ℚ) := by simpa using hr.nat (n - 1) (by omega)
  have fBlt := Int.lt_floor_add_one B
  have fEle := Int.floor_le E
  have fRle := Int.floor_le (E + 1 / 2)
  have B0 := Int.floor_nonneg.mpr h0
  have E0 := Int.floor_nonneg.mpr (le_trans h0 hBE)
  have R0 : 0 ≤ ⌊E + 1 / 2⌋ := Int.floor_nonneg.mpr (by linarith)
  obtain ⟨k1, k2, k3⟩ := hs
  have jz : (0 : ℚ) ≤ j := Nat.cast_nonneg j
  have up : ∀ x : ℤ, 0 ≤ x → j ≤ x.toNat → (j : ℚ) ≤ x := by
    intro x hx hj
    have : (j : ℤ) ≤ x := by omega
    exact_mod_cast this
  have lo : ∀ x : ℤ, 0 ≤ x → x.toNat ≤ j → (x : ℚ) ≤ j := by
    intro x hx hj
    have : x ≤ (j : ℤ) := by omega
    exact_mod_cast this
  dsimp only at h
  by_cases hz : ⌊E⌋ = ⌊B⌋
  · rw [if_pos hz] at h
    split at h
    · subst h
      dsimp only at k1 k2
      have a := lo _ B0 k1
      have b := up _ B0 k2
      rw [← hz] at b
      constructor <;> linarith
    · subst h
      dsimp only at k1 k2
      omega
  · rw [if_neg hz] at h
    subst h
    dsimp only at k1 k2
    constructor
    · split_ifs at k1 with g1 g2
      · simp only [Fl.le, Fl.ofInt, z0, decide_eq_true_eq] at g1
        linarith
      · have := lo _ B0 k1; linarith
      · have := lo _ B0 (by omega); linarith
    · split_ifs at k2 with g1 g2
      · simp only [Fl.le, Fl.ofInt, zn, decide_eq_true_eq] at g1
        have : (j : ℚ) ≤ ((n - 1 : Nat) : ℚ) := by exact_mod_cast k2
        linarith
      · have := up _ R0 k2; linarith
      · have := up _ E0 (by omega); linarith

/-- one axis: the selected cells are near the true ends -/
theorem axis_near {rnd : ℚ → ℚ} (hr : Rounding rnd) {w : ℚ} {a b : Int} {n : Nat} (hw : 0 < w)
    (hn0 : 0 < n) (hnm : n ≤ 2147483647) {eps : Fl} {p : Nat × Nat}
    (h : normPair rnd (.fin (rnd (a / rnd w))) (.fin (rnd (b / rnd w))) (.fin (rnd w)) eps 0 (n - 1) = .ok p)
    {j : Nat} (hs : Sel p n j) : (a : ℚ) / w ≤ j + 1 + 1 / 1000 ∧ (j : ℚ) ≤ b / w + 1 / 2 + 1 / 1000 := by
  obtain ⟨h1, h2⟩ := sel_near hr hn0 (by omega) h hs
  obtain ⟨h0, hBE, _, hd⟩ := normPair_ok h
  have jn : (j : ℚ) + 1 ≤ n := by exact_mod_cast hs.2.2
  have jz : (0 : ℚ) ≤ j := Nat.cast_nonneg j
  have nm : (n : ℚ) ≤ 2147483647 := by exact_mod_cast hnm
  have pw : 0 < rnd w := by
    simp only [Fl.le, decide_eq_false_iff_not, not_le] at hd; exact hd
  have tol : 3 / 2 ^ 53 * ((n + 1 : Nat) : ℚ) ≤ 1 / 1000 := by push_cast; linarith
  have tol0 : (0 : ℚ) ≤ 3 / 2 ^ 53 * ((n + 1 : Nat) : ℚ) := mul_nonneg (by norm_num) (Nat.cast_nonneg _)
  constructor
  · by_contra hc
    push Not at hc
    have := axis_lower hr (n := n + 1) (b := a) (t := j + 1 + 3 / 2 ^ 53 * ((n + 1 : Nat) : ℚ)) hw (by linarith) (by linarith)
      (by push_cast at tol ⊢; linarith)
    linarith
  · by_contra hc
    push Not at hc
    rcases lt_or_ge b 0 with hb | hb
    · -- a negative end would have been refused
      have hb' : (b : ℚ) < 0 := by exact_mod_cast hb
      have hq : (b : ℚ) / rnd w < 0 := div_neg_of_neg_of_pos hb' pw
      have he := (abs_le.mp (hr.relErr ((b : ℚ) / rnd w))).2
      rw [abs_of_neg hq] at he
      have : 0 ≤ rnd ((b : ℚ) / rnd w) := le_trans h0 hBE
      linarith
    · have hb' : (0 : ℚ) ≤ b := by exact_mod_cast hb
      have := (axis_upper hr (n := n + 1) (a := b) (t := b / w) hw hb' le_rfl (by push_cast; linarith)).2
      linarith

/-- half a cell and the tolerance around a corner coordinate do not reach farther than a little over half a cell -/
theorem cover_reach {rnd : ℚ → ℚ} (hr : Rounding rnd) {x : Int} {w ep : ℚ} (hx : inI32 x)
    (h1 : 1 / 100 ≤ w) (h2 : w ≤ 2 ^ 32) (he : 0 ≤ ep) :
    rnd (rnd (rnd x + rnd (rnd w / 2)) - rnd (rnd w * ep)) ≤ x + w / 2 + w / 1000 ∧
    x - w / 2 - w / 1000 ≤ rnd (rnd (rnd x - rnd (rnd w / 2)) + rnd (rnd w * ep)) := by
  have hx' : |(x : ℚ)| ≤ 2 ^ 31 := by
    rw [abs_le]; unfold inI32 at hx
    constructor
    · have : (-2 ^ 31 : ℤ) ≤ x := by omega
      exact_mod_cast this
    · have : x ≤ (2 ^ 31 : ℤ) := by omega
      exact_mod_cast this
  have exx : rnd (x : ℚ) = x := by
    apply hr.int
    rw [abs_le]; unfold inI32 at hx
    constructor <;> omega
  rw [exx]
  have u : ∀ q : ℚ, 0 ≤ q → q * (1 - 1 / 2 ^ 53) ≤ rnd q ∧ rnd q ≤ q * (1 + 1 / 2 ^ 53) := by
    intro q hq
    have := abs_le.mp (hr.relErr q)
    rw [abs_of_nonneg hq] at this
    constructor <;> linarith
  have v : ∀ q : ℚ, |q| ≤ 2 ^ 33 → |rnd q - q| ≤ 1 / 2 ^ 20 := by
    intro q hq
    refine le_trans (hr.relErr q) ?_
    rw [div_le_iff₀ (by norm_num)]
    refine le_trans hq (by norm_num)
  have hw0 : 0 ≤ w := by linarith
  obtain ⟨w1, w2⟩ := u w hw0
  have pw : 0 ≤ rnd w := le_trans (mul_nonneg hw0 (by norm_num)) w1
  obtain ⟨d1, d2⟩ := u (rnd w / 2) (by linarith)
  obtain ⟨e1, _⟩ := u (rnd w * ep) (mul_nonneg pw he)
  have e0 : 0 ≤ rnd (rnd w * ep) := le_trans (mul_nonneg (mul_nonneg pw he) (by norm_num)) e1
  have hd : rnd (rnd w / 2) ≤ w / 2 + w / 10 ^ 12 := by
    have : rnd w / 2 * (1 + 1 / 2 ^ 53) ≤ w * (1 + 1 / 2 ^ 53) / 2 * (1 + 1 / 2 ^ 53) :=
      mul_le_mul_of_nonneg_right (by linarith) (by norm_num)
    refine le_trans d2 (le_trans this ?_)
    have k : w * (1 + 1 / 2 ^ 53) / 2 * (1 + 1 / 2 ^ 53) = w * ((1 + 1 / 2 ^ 53) ^ 2 / 2) := by ring
    have k2 : w / 2 + w / 10 ^ 12 = w * (1 / 2 + 1 / 10 ^ 12) := by ring
    rw [k, k2]
    exact mul_le_mul_of_nonneg_left (by norm_num) hw0
  have hd0 : 0 ≤ rnd (rnd w / 2) := le_trans (mul_nonneg (by linarith) (by norm_num)) d1
  have hx1 := (abs_le.mp hx').1
  have hx2 := (abs_le.mp hx').2
  have wq : w / 10 ^ 12 ≤ 1 := by linarith
  have mono2 : ∀ p q : ℚ, p ≤ q → rnd p ≤ rnd q := hr.mono
  constructor
  · have a1 := abs_le.mp (v (x + rnd (rnd w / 2)) (by rw [abs_le]; constructor <;> linarith))
    have a2 := mono2 (rnd (x + rnd (rnd w / 2)) - rnd (rnd w * ep)) (rnd (x + rnd (rnd w / 2))) (by linarith)
    have a3 := abs_le.mp (v (rnd (x + rnd (rnd w / 2))) (by rw [abs_le]; constructor <;> linarith [a1.1, a1.2]))
    linarith [a1.2, a3.2]
  · have a1 := abs_le.mp (v (x - rnd (rnd w / 2)) (by rw [abs_le]; constructor <;> linarith))
    have a2 := mono2 (rnd (x - rnd (rnd w / 2))) (rnd (x - rnd (rnd w / 2)) + rnd (rnd w * ep)) (by linarith)
    have a3 := abs_le.mp (v (rnd (x - rnd (rnd w / 2))) (by rw [abs_le]; constructor <;> linarith [a1.1, a1.2]))
    linarith [a1.1, a3.1]

/-- **C39** Nothing far away is drawn: whenever drawing a rectangle returns — in `double` arithmetic, any
rectangle whatsoever, any tolerance `ep ≥ 0` — every cell it turned on overlaps the rectangle extended by half a
cell to the right and to the bottom (up to a thousandth of a cell). -/
theorem C39_nothing_far (rnd : ℚ → ℚ) (hr : Rounding rnd) (z : Zond) (ws : Workspace) (R C : Nat) (ep : ℚ)
    (hs : SetUp rnd z ws R C ep) (hep : 0 ≤ ep)
    (hC2 : (C : ℤ) * C ≤ 100 * wsW ws) (hR2 : (R : ℤ) * R ≤ 100 * wsH ws)
    (hws : inI32 ws.leftTop.x ∧ inI32 ws.leftTop.y ∧ inI32 ws.rightBot.x ∧ inI32 ws.rightBot.y)
    (g : Geometry) (lt rb : Coord) (hg : RectGeom g lt rb)
    (hrect : inI32 lt.x ∧ inI32 lt.y ∧ inI32 rb.x ∧ inI32 rb.y)
    (m m' : BitMatrix) (hm : Built m) (hR : m.isize = R) (hC : m.jsize = C)
    (h : zondGeometry rnd z (some g) m = .ok () m') (i j : Nat) (hl : Lit m' i j) :
    Lit m i j ∨ (i < R ∧ j < C ∧ NearRect ws R C lt rb i j) := by
  subst hR; subst hC
  have hW : (0 : ℚ) < wsW ws := by exact_mod_cast hs.wpos
  have hH : (0 : ℚ) < wsH ws := by exact_mod_cast hs.hpos
  have hRq : (0 : ℚ) < m.isize := by exact_mod_cast hs.rpos
  have hCq : (0 : ℚ) < m.jsize := by exact_mod_cast hs.cpos
  have hC1 : (1 : ℚ) ≤ m.jsize := by exact_mod_cast hs.cpos
  have hR1 : (1 : ℚ) ≤ m.isize := by exact_mod_cast hs.rpos
  have px : 0 < (wsW ws : ℚ) / m.jsize := div_pos hW hCq
  have py : 0 < (wsH ws : ℚ) / m.isize := div_pos hH hRq
  have tx : (m.jsize : ℚ) ≤ 100 * ((wsW ws : ℚ) / m.jsize) := by
    rw [← mul_div_assoc, le_div_iff₀ hCq]; exact_mod_cast hC2
  have ty : (m.isize : ℚ) ≤ 100 * ((wsH ws : ℚ) / m.isize) := by
    rw [← mul_div_assoc, le_div_iff₀ hRq]; exact_mod_cast hR2
  obtain ⟨w1, w2, w3, w4⟩ := hws
  obtain ⟨r1, r2, r3, r4⟩ := hrect
  have bx : (wsW ws : ℚ) / m.jsize ≤ 2 ^ 32 := by
    rw [div_le_iff₀ hCq]
    have : wsW ws ≤ 2 ^ 32 := by unfold wsW inI32 at *; omega
    have : (wsW ws : ℚ) ≤ 2 ^ 32 := by exact_mod_cast this
    nlinarith
  have by' : (wsH ws : ℚ) / m.isize ≤ 2 ^ 32 := by
    rw [div_le_iff₀ hRq]
    have : wsH ws ≤ 2 ^ 32 := by unfold wsH inI32 at *; omega
    have : (wsH ws : ℚ) ≤ 2 ^ 32 := by exact_mod_cast this
    nlinarith
  have fullx : (ws.rightBot.x : ℚ) = ws.leftTop.x + m.jsize * ((wsW ws : ℚ) / m.jsize) := by
    rw [mul_div_cancel₀ _ (ne_of_gt hCq)]; simp [wsW]
  have fully : (ws.rightBot.y : ℚ) = ws.leftTop.y - m.isize * ((wsH ws : ℚ) / m.isize) := by
    rw [mul_div_cancel₀ _ (ne_of_gt hRq)]; simp [wsH]
  obtain ⟨dx, hdx⟩ : ∃ d, d = (wsW ws : ℚ) / m.jsize := ⟨_, rfl⟩
  obtain ⟨dy, hdy⟩ : ∃ d, d = (wsH ws : ℚ) / m.isize := ⟨_, rfl⟩
  have zdx := hs.dx
  have zdy := hs.dy
  unfold NearRect centreX centreY
  rw [← hdx] at px tx zdx bx fullx
  rw [← hdy] at py ty zdy by' fully
  simp only [← hdx, ← hdy]
  have qw : 0 < rnd dx := (axis_upper hr (n := 0) (a := 0) (t := 0) px le_rfl (by simp) (by simp)).1
  have qh : 0 < rnd dy := (axis_upper hr (n := 0) (a := 0) (t := 0) py le_rfl (by simp) (by simp)).1
  cases hc : coversAll rnd z lt rb with
  | true =>
    obtain ⟨m2, e, l⟩ := built_paints hm (setup_all hs hg hc)
    rw [e] at h; cases h
    rcases (l i j).mp hl with hl | ⟨hi, hj, _⟩
    · exact .inl hl
    right
    refine ⟨hi, hj, ?_⟩
    simp only [coversAll, zdx, zdy, hs.wks, hs.eps, Fl.ofInt, Fl.div, Fl.mul, Fl.sub, Fl.add, Fl.le,
      Bool.and_eq_true, decide_eq_true_eq, show (2 : ℚ) ≠ 0 by norm_num, if_false] at hc
    obtain ⟨⟨c1, c2⟩, c3, c4⟩ := hc
    have ex : ∀ n : Int, inI32 n → rnd (n : ℚ) = n := by
      intro n hn
      apply hr.int
      rw [abs_le]; unfold inI32 at hn
      constructor <;> omega
    have k1 := (cover_reach hr w1 (by linarith) bx hep).1
    have k2 := (cover_reach hr w3 (by linarith) bx hep).2
    have k3 := (cover_reach hr w2 (by linarith) by' hep).2
    have k4 := (cover_reach hr w4 (by linarith) by' hep).1
    rw [ex _ r1] at c1
    rw [ex _ r3] at c2
    rw [ex _ r2] at c3
    rw [ex _ r4] at c4
    have jn : (j : ℚ) + 1 ≤ m.jsize := by exact_mod_cast hj
    have in' : (i : ℚ) + 1 ≤ m.isize := by exact_mod_cast hi
    have jz : (0 : ℚ) ≤ j * dx := mul_nonneg (Nat.cast_nonneg j) px.le
    have iz : (0 : ℚ) ≤ i * dy := mul_nonneg (Nat.cast_nonneg i) py.le
    have jn' := mul_le_mul_of_nonneg_right jn px.le
    have in'' := mul_le_mul_of_nonneg_right in' py.le
    refine ⟨?_, ?_, ?_, ?_⟩ <;> linarith
  | false =>
    have hf : DiffsFit ws lt rb := by
      by_contra hf
      rw [← hs.wks] at hf
      rw [C37_overflow_ub rnd z g lt rb hg hf hc m] at h; cases h
    have hraw := raw_eq (rnd := rnd) hr (z := z) (lt := lt) (rb := rb) (by rw [hs.wks]; exact hf) zdx zdy qw qh
    rw [hs.wks] at hraw
    -- the call returned, so both pairs were returned
    have hpair : ∃ p q, normPair rnd (.fin (rnd (((ws.leftTop.y - lt.y : Int) : ℚ) / rnd dy)))
          (.fin (rnd (((ws.leftTop.y - rb.y : Int) : ℚ) / rnd dy))) (.fin (rnd dy)) (.fin ep) 0 (m.isize - 1) = .ok p ∧
        normPair rnd (.fin (rnd (((lt.x - ws.leftTop.x : Int) : ℚ) / rnd dx)))
          (.fin (rnd (((rb.x - ws.leftTop.x : Int) : ℚ) / rnd dx))) (.fin (rnd dx)) (.fin ep) 0 (m.jsize - 1) = .ok q := by
      have h' := h
      rw [rect_raw hg hc, hraw, M.run_bind_ok (M.run_lift_ok _ _)] at h'
      dsimp only at h'
      cases hn : normIndicies rnd z (.fin (rnd (((ws.leftTop.y - lt.y : Int) : ℚ) / rnd dy)))
          (.fin (rnd (((ws.leftTop.y - rb.y : Int) : ℚ) / rnd dy))) (.fin (rnd (((lt.x - ws.leftTop.x : Int) : ℚ) / rnd dx)))
          (.fin (rnd (((rb.x - ws.leftTop.x : Int) : ℚ) / rnd dx))) with
      | throw e => rw [hn] at h'; cases h'
      | ub => rw [hn] at h'; cases h'
      | ok n =>
        obtain ⟨p, q, e1, e2, _⟩ := normIndicies_ok hn
        rw [zdy, hs.eps, hs.bound] at e1
        rw [zdx, hs.eps, hs.bound] at e2
        exact ⟨p, q, e1, e2⟩
    obtain ⟨p, q, hp, hq⟩ := hpair
    obtain ⟨i0, i1, i2, _⟩ := normPair_ok hp
    obtain ⟨j0, j1, j2, _⟩ := normPair_ok hq
    obtain ⟨m2, e, l⟩ := built_paints hm (setup_paints hs hg hc hraw i0 i1 i2 j0 j1 j2
      (by rw [zdx]; simp [Fl.le]; exact qw) (by rw [zdy]; simp [Fl.le]; exact qh)
      (p := p) (q := q) (by rw [zdy, hs.eps]; exact hp) (by rw [zdx, hs.eps]; exact hq))
    rw [e] at h; cases h
    rcases (l i j).mp hl with hl | ⟨hi, hj, sp, sq⟩
    · exact .inl hl
    right
    refine ⟨hi, hj, ?_⟩
    obtain ⟨a1, a2⟩ := axis_near hr px hs.cpos hs.cmax hq sq
    obtain ⟨b1, b2⟩ := axis_near hr py hs.rpos hs.rmax hp sp
    rw [div_le_iff₀ px] at a1
    rw [div_le_iff₀ py] at b1
    have a2' : ((j : ℚ) - 1 / 2 - 1 / 1000) * dx ≤ ((rb.x - ws.leftTop.x : Int) : ℚ) := by
      rw [← le_div_iff₀ px]; linarith
    have b2' : ((i : ℚ) - 1 / 2 - 1 / 1000) * dy ≤ ((ws.leftTop.y - rb.y : Int) : ℚ) := by
      rw [← le_div_iff₀ py]; linarith
    push_cast at a1 b1 a2' b2'
    refine ⟨?_, ?_, ?_, ?_⟩ <;> linarith

/-- `C39_nothing_far` at work: a 25×20 rectangle is drawn and the cell in the opposite corner stays dark. -/
example : ∃ m', zondGeometry rne (exZond rne) (some (exRect 20 80 45 60)) (BitMatrix.new Alloc.ok 10 10) = .ok () m' ∧
    Lit m' 2 2 ∧ ¬ Lit m' 9 9 := by
  have hnew : ∀ i j, ¬ Lit (BitMatrix.new Alloc.ok 10 10) i j := by
    intro i j h
    have w := (Built.new 10 10 (by norm_num) (by norm_num)).inv.1
    rw [lit_iff w] at h
    obtain ⟨_, _, h⟩ := h
    have : BitMatrix.new Alloc.ok 10 10 = ⟨List.replicate 10 (List.replicate (bytesPerRow 10) 0), 10, 10⟩ := rfl
    rw [this, zeroMat_cell] at h; cases h
  obtain ⟨m', e, hc⟩ := C39_centres_covered rne rne_rounding (exZond rne) exWs 10 10 (exSetUp rne) (by decide) (by decide)
    (exRect 20 80 45 60) ⟨20, 80⟩ ⟨45, 60⟩ ⟨rfl, _, _, rfl⟩ (by unfold DiffsFit inI32; decide) (by decide) (by decide) (by decide)
    (by decide) (by unfold colOf wsW exWs; norm_num) (by unfold rowOf wsH exWs; norm_num) _
    (.new 10 10 (by norm_num) (by norm_num)) rfl rfl
  refine ⟨m', e, hc 2 2 (by norm_num) (by norm_num) (by unfold InRect centreX centreY wsW wsH exWs; norm_num), fun hl => ?_⟩
  rcases C39_nothing_far rne rne_rounding (exZond rne) exWs 10 10 _ (exSetUp rne) (rne_nonneg (by norm_num)) (by decide) (by decide)
    (by unfold inI32; decide) (exRect 20 80 45 60) ⟨20, 80⟩ ⟨45, 60⟩ ⟨rfl, _, _, rfl⟩ (by unfold inI32; decide) _ m'
    (.new 10 10 (by norm_num) (by norm_num)) rfl rfl e 9 9 hl with h | ⟨_, _, h⟩
  · exact hnew _ _ h
  · have := h.2.1
    unfold centreX wsW exWs at this
    norm_num at this

end Verif.Props
