import Verif.Props.Similar

/-! C71: the bound by the rims of the rectangles. -/

namespace Verif.Props
open Verif BitMatrix Zond Spec Ieee Generator Client

/-- the centres between the near ends and the far ends of two intervals -/
def spanZone (n : Nat) (b b' e e' : ℚ) : Finset Nat :=
  (Finset.range n).filter fun j : Nat => min b b' - (1 / 2 + 1 / 1000) ≤ (j : ℚ) + 1 / 2 ∧ (j : ℚ) + 1 / 2 ≤ max e e' + (1 + 1 / 1000)

theorem spanZone_card (n : Nat) (b b' e e' δ : ℚ) (h1 : b ≤ b' + δ) (h2 : b' ≤ b + δ) (h3 : e ≤ e' + δ) (h4 : e' ≤ e + δ) (hbe : b ≤ e) :
    ((spanZone n b b' e e').card : ℚ) ≤ e - b + 2 * δ + 3 := by
  have hδ : 0 ≤ δ := by linarith
  have m1 : b - δ ≤ min b b' := le_min (by linarith) (by linarith)
  have m2 : max e e' ≤ e + δ := max_le (by linarith) (by linarith)
  have m3 : min b b' ≤ b := min_le_left _ _
  have m4 : e ≤ max e e' := le_max_left _ _
  have c := count_le n (min b b' - (1 / 2 + 1 / 1000)) (max e e' + (1 + 1 / 1000)) (by linarith)
  unfold spanZone
  linarith

/-- the cells on which two close rectangles can disagree, near the rectangles -/
def rim (mn mx : Coord) (R C : Nat) (r r' : Msk.Rect) : Finset (Nat × Nat) :=
  (spanZone R (row mn mx R (r.y + r.h)) (row mn mx R (r'.y + r'.h)) (row mn mx R r.y) (row mn mx R r'.y) ×ˢ
    endZone C (col mn mx C r.x) (col mn mx C r'.x) (col mn mx C (r.x + r.w)) (col mn mx C (r'.x + r'.w))) ∪
  (endZone R (row mn mx R (r.y + r.h)) (row mn mx R (r'.y + r'.h)) (row mn mx R r.y) (row mn mx R r'.y) ×ˢ
    spanZone C (col mn mx C r.x) (col mn mx C r'.x) (col mn mx C (r.x + r.w)) (col mn mx C (r'.x + r'.w)))

theorem rim_swap (mn mx : Coord) (R C : Nat) (r r' : Msk.Rect) : rim mn mx R C r r' = rim mn mx R C r' r := by
  unfold rim endZone spanZone
  simp only [min_comm, max_comm]

theorem rim_card {mn mx : Coord} {R C : Nat} (hR : 0 < R) (hC : 0 < C) (hw : mn.x < mx.x) (hh : mn.y < mx.y) {δ : ℚ}
    {r r' : Msk.Rect} (h : CloseRect mn mx R C δ r r') (hrw : 0 ≤ r.w) (hrh : 0 ≤ r.h) :
    ((rim mn mx R C r r').card : ℚ) ≤ rimCells mn mx R C δ r := by
  have hpx : (0 : ℚ) < ((mx.x - mn.x : Int) : ℚ) / C := div_pos (by exact_mod_cast (by omega)) (by exact_mod_cast hC)
  have hpy : (0 : ℚ) < ((mx.y - mn.y : Int) : ℚ) / R := div_pos (by exact_mod_cast (by omega)) (by exact_mod_cast hR)
  have l := within_col hC hw h.left
  have e := within_col hC hw h.right
  have b := within_row hR hh h.bottom
  have t := within_row hR hh h.top
  have w1 : col mn mx C (r.x + r.w) - col mn mx C r.x = (r.w : ℚ) / (((mx.x - mn.x : Int) : ℚ) / C) := by
    unfold col; rw [← sub_div]; push_cast; ring
  have h1 : row mn mx R r.y - row mn mx R (r.y + r.h) = (r.h : ℚ) / (((mx.y - mn.y : Int) : ℚ) / R) := by
    unfold row; rw [← sub_div]; push_cast; ring
  have w0 : (0 : ℚ) ≤ (r.w : ℚ) / (((mx.x - mn.x : Int) : ℚ) / C) := div_nonneg (by exact_mod_cast hrw) hpx.le
  have h0 : (0 : ℚ) ≤ (r.h : ℚ) / (((mx.y - mn.y : Int) : ℚ) / R) := div_nonneg (by exact_mod_cast hrh) hpy.le
  have k1 := endZone_card C _ _ _ _ δ l.1 l.2 e.1 e.2
  have k2 := endZone_card R _ _ _ _ δ t.1 t.2 b.1 b.2
  have k3 := spanZone_card C _ _ _ _ δ l.1 l.2 e.1 e.2 (by linarith)
  have k4 := spanZone_card R _ _ _ _ δ t.1 t.2 b.1 b.2 (by linarith)
  have hδ : 0 ≤ δ := by linarith [l.1, l.2]
  have c := Finset.card_union_le
    (spanZone R (row mn mx R (r.y + r.h)) (row mn mx R (r'.y + r'.h)) (row mn mx R r.y) (row mn mx R r'.y) ×ˢ
      endZone C (col mn mx C r.x) (col mn mx C r'.x) (col mn mx C (r.x + r.w)) (col mn mx C (r'.x + r'.w)))
    (endZone R (row mn mx R (r.y + r.h)) (row mn mx R (r'.y + r'.h)) (row mn mx R r.y) (row mn mx R r'.y) ×ˢ
      spanZone C (col mn mx C r.x) (col mn mx C r'.x) (col mn mx C (r.x + r.w)) (col mn mx C (r'.x + r'.w)))
  rw [Finset.card_product, Finset.card_product] at c
  have c := (Nat.cast_le (α := ℚ)).2 c
  rw [Nat.cast_add, Nat.cast_mul, Nat.cast_mul] at c
  unfold rim rimCells
  refine le_trans c ?_
  rw [w1] at k3
  rw [h1] at k4
  have p1 := mul_le_mul k4 k1 (Nat.cast_nonneg _) (by linarith)
  have p2 := mul_le_mul k2 k3 (Nat.cast_nonneg _) (by linarith)
  nlinarith

theorem near_rim {mn mx : Coord} {R C : Nat} (hR : 0 < R) (hC : 0 < C) (hw : mn.x < mx.x) (hh : mn.y < mx.y)
    {r r' : Msk.Rect} {i j : Nat} (hi : i < R) (hj : j < C)
    (hn : NearRect (window mn mx) R C (Client.lt r) (Client.rb r) i j)
    (ho : ¬ InRect (Client.lt r') (Client.rb r') (centreX (window mn mx) C j) (centreY (window mn mx) R i)) :
    (i, j) ∈ rim mn mx R C r r' := by
  have hz := near_zone hR hC hw hh hi hj hn ho
  have hpx : (0 : ℚ) < ((mx.x - mn.x : Int) : ℚ) / C := div_pos (by exact_mod_cast (by omega)) (by exact_mod_cast hC)
  have hpy : (0 : ℚ) < ((mx.y - mn.y : Int) : ℚ) / R := div_pos (by exact_mod_cast (by omega)) (by exact_mod_cast hR)
  obtain ⟨n1, n2, n3, n4⟩ := hn
  simp only [centreX, centreY, window, wsW, wsH, Client.lt, Client.rb] at n1 n2 n3 n4
  have q1 : min (col mn mx C r.x) (col mn mx C r'.x) - (1 / 2 + 1 / 1000) ≤ (j : ℚ) + 1 / 2 := by
    refine le_trans (sub_le_sub_right (min_le_left _ _) _) ?_
    unfold col
    rw [sub_le_iff_le_add, div_le_iff₀ hpx]; push_cast at *; linarith
  have q2 : (j : ℚ) + 1 / 2 ≤ max (col mn mx C (r.x + r.w)) (col mn mx C (r'.x + r'.w)) + (1 + 1 / 1000) := by
    refine le_trans ?_ (add_le_add_left (le_max_left _ _) _)
    unfold col
    rw [← sub_le_iff_le_add, le_div_iff₀ hpx]; push_cast at *; linarith
  have q3 : min (row mn mx R (r.y + r.h)) (row mn mx R (r'.y + r'.h)) - (1 / 2 + 1 / 1000) ≤ (i : ℚ) + 1 / 2 := by
    refine le_trans (sub_le_sub_right (min_le_left _ _) _) ?_
    unfold row
    rw [sub_le_iff_le_add, div_le_iff₀ hpy]; push_cast at *; linarith
  have q4 : (i : ℚ) + 1 / 2 ≤ max (row mn mx R r.y) (row mn mx R r'.y) + (1 + 1 / 1000) := by
    refine le_trans ?_ (add_le_add_left (le_max_left _ _) _)
    unfold row
    rw [← sub_le_iff_le_add, le_div_iff₀ hpy]; push_cast at *; linarith
  unfold zone at hz
  unfold rim
  rw [Finset.mem_union, Finset.mem_product, Finset.mem_product] at hz ⊢
  rcases hz with ⟨-, h⟩ | ⟨h, -⟩
  · exact .inl ⟨Finset.mem_filter.2 ⟨Finset.mem_range.2 hi, q3, q4⟩, h⟩
  · exact .inr ⟨h, Finset.mem_filter.2 ⟨Finset.mem_range.2 hj, q1, q2⟩⟩

/-- the rims of all pairs together -/
def rims (mn mx : Coord) (R C : Nat) : List Msk.Rect → List Msk.Rect → Finset (Nat × Nat)
  | r :: rs, r' :: rs' => rim mn mx R C r r' ∪ rims mn mx R C rs rs'
  | _, _ => ∅

theorem rims_card {mn mx : Coord} {R C : Nat} (hR : 0 < R) (hC : 0 < C) (hw : mn.x < mx.x) (hh : mn.y < mx.y) {δ : ℚ}
    {rs rs' : List Msk.Rect} (h : List.Forall₂ (CloseRect mn mx R C δ) rs rs') (hpos : ∀ r ∈ rs, 0 ≤ r.w ∧ 0 ≤ r.h) :
    ((rims mn mx R C rs rs').card : ℚ) ≤ (rs.map (rimCells mn mx R C δ)).sum := by
  induction h with
  | nil => simp [rims]
  | @cons r r' rs rs' h _ ih =>
    have c := Finset.card_union_le (rim mn mx R C r r') (rims mn mx R C rs rs')
    have c' := (Nat.cast_le (α := ℚ)).2 c
    rw [Nat.cast_add] at c'
    have hp := hpos r (by simp)
    have := rim_card hR hC hw hh h hp.1 hp.2
    have := ih fun x hx => hpos x (by simp [hx])
    rw [List.map_cons, List.sum_cons]
    unfold rims
    linarith

theorem rims_near {mn mx : Coord} {R C : Nat} (hR : 0 < R) (hC : 0 < C) (hw : mn.x < mx.x) (hh : mn.y < mx.y) {δ : ℚ}
    {rs rs' : List Msk.Rect} (h : List.Forall₂ (CloseRect mn mx R C δ) rs rs') {i j : Nat} (hi : i < R) (hj : j < C) :
    ((∃ r ∈ rs, NearRect (window mn mx) R C (Client.lt r) (Client.rb r) i j) →
      (¬ ∃ r ∈ rs', InRect (Client.lt r) (Client.rb r) (centreX (window mn mx) C j) (centreY (window mn mx) R i)) →
      (i, j) ∈ rims mn mx R C rs rs') ∧
    ((∃ r ∈ rs', NearRect (window mn mx) R C (Client.lt r) (Client.rb r) i j) →
      (¬ ∃ r ∈ rs, InRect (Client.lt r) (Client.rb r) (centreX (window mn mx) C j) (centreY (window mn mx) R i)) →
      (i, j) ∈ rims mn mx R C rs rs') := by
  induction h with
  | nil => simp
  | @cons r r' rs rs' h _ ih =>
    unfold rims
    refine ⟨fun ⟨x, hx, hn⟩ ho => ?_, fun ⟨x, hx, hn⟩ ho => ?_⟩ <;> push Not at ho <;> rw [Finset.mem_union]
    · rcases List.mem_cons.1 hx with rfl | hx
      · exact Or.inl (near_rim hR hC hw hh hi hj hn (ho r' (by simp)))
      · exact Or.inr (ih.1 ⟨x, hx, hn⟩ (by push Not; exact fun y hy => ho y (by simp [hy])))
    · rcases List.mem_cons.1 hx with rfl | hx
      · rw [rim_swap]
        exact Or.inl (near_rim hR hC hw hh hi hj hn (ho r (by simp)))
      · exact Or.inr (ih.2 ⟨x, hx, hn⟩ (by push Not; exact fun y hy => ho y (by simp [hy])))

/-- **C71** The same with the sizes of the rectangles instead of the size of the bitmap: the bitmaps differ in at most
`(2δ + 4)·(w + h + 4δ + 6)` cells per rectangle of `w` × `h` cells; and `==` (binary64) is true if ten thousand times the sum
of these numbers is at most the number of cells. -/
theorem C71_similar_local (mn mx : Coord) (R C : Nat) (hR : 0 < R) (hC : 0 < C) (hw : mn.x < mx.x) (hh : mn.y < mx.y) (δ : ℚ)
    (rs rs' : List Msk.Rect) (hcl : List.Forall₂ (CloseRect mn mx R C δ) rs rs') (hpos : ∀ r ∈ rs, 0 ≤ r.w ∧ 0 ≤ r.h)
    (m m' : BitMatrix) (hm : Built m) (hm' : Built m')
    (hs : Client.Shows mn mx R C rs m) (hs' : Client.Shows mn mx R C rs' m') :
    (diffCount m m' : ℚ) ≤ (rs.map (rimCells mn mx R C δ)).sum ∧
    (R * C ≤ 2 ^ 38 → 10000 * (rs.map (rimCells mn mx R C δ)).sum ≤ (R : ℚ) * C → BitMatrix.opEq rne Alloc.ok m m' = .ok true) := by
  have hsub : ((cells m.isize m.jsize).filter fun p => BitMatrix.get m p.1 p.2 ≠ BitMatrix.get m' p.1 p.2) ⊆
      rims mn mx R C rs rs' := by
    rintro ⟨i, j⟩ hp
    obtain ⟨hc, hne⟩ := Finset.mem_filter.1 hp
    obtain ⟨hi, hj⟩ := Finset.mem_product.1 hc
    rw [Finset.mem_range] at hi hj
    dsimp only at hi hj hne
    have hz := rims_near hR hC hw hh hcl (i := i) (j := j) (hs.rows ▸ hi) (hs.cols ▸ hj)
    rcases get_ne_lit hm hm' (by rw [hs.rows, hs'.rows]) (by rw [hs.cols, hs'.cols]) hi hj hne with ⟨h1, h2⟩ | ⟨h1, h2⟩
    · exact hz.1 (hs.near i j h1) fun hx => h2 (hs'.covered i j (hs.rows ▸ hi) (hs.cols ▸ hj) hx)
    · exact hz.2 (hs'.near i j h1) fun hx => h2 (hs.covered i j (hs.rows ▸ hi) (hs.cols ▸ hj) hx)
  have h1 : (diffCount m m' : ℚ) ≤ ((rims mn mx R C rs rs').card : ℚ) := by
    unfold diffCount; exact_mod_cast Finset.card_le_card hsub
  have hd := le_trans h1 (rims_card hR hC hw hh hcl hpos)
  refine ⟨hd, fun hsz hb => ?_⟩
  have e1 := hs.rows
  have e2 := hs.cols
  have e3 := hs'.rows
  have e4 := hs'.cols
  rw [(C09_eq_ne_threshold m m' hm hm' (by omega) (by omega) (by omega) (by omega) (by rw [e1, e2]; exact hsz)).1]
  congr 1
  rw [decide_eq_true_iff, e1, e2]
  have : ((diffCount m m' * 10000 : ℕ) : ℚ) ≤ ((R * C : ℕ) : ℚ) := by push_cast; linarith
  exact_mod_cast this

end Verif.Props
