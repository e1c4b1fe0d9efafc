import Verif.Props.Client
import Verif.Props.BitMatrixRatio
import Verif.Spec.Similar
import Mathlib.Order.Interval.Finset.Defs
import Mathlib.Data.Int.Interval

/-!
C71: similar layouts give similar bitmaps, different ones different bitmaps.
-/

namespace Verif.Props
open Verif BitMatrix Zond Spec Ieee Generator Client

/-- cells whose centres lie in an interval -/
theorem count_le (n : Nat) (lo hi : ℚ) (h : lo ≤ hi) :
    (((Finset.range n).filter fun j : Nat => lo ≤ (j : ℚ) + 1 / 2 ∧ (j : ℚ) + 1 / 2 ≤ hi).card : ℚ) ≤ hi - lo + 1 := by
  have hinj : Set.InjOn (fun j : Nat => (j : ℤ)) ((Finset.range n).filter fun j : Nat => lo ≤ (j : ℚ) + 1 / 2 ∧ (j : ℚ) + 1 / 2 ≤ hi) :=
    fun _ _ _ _ e => Int.ofNat.inj e
  have hsub : ((Finset.range n).filter fun j : Nat => lo ≤ (j : ℚ) + 1 / 2 ∧ (j : ℚ) + 1 / 2 ≤ hi).image (fun j : Nat => (j : ℤ)) ⊆
      Finset.Icc ⌈lo - 1 / 2⌉ ⌊hi - 1 / 2⌋ := by
    intro z hz
    obtain ⟨j, hj, rfl⟩ := Finset.mem_image.1 hz
    have := (Finset.mem_filter.1 hj).2
    rw [Finset.mem_Icc, Int.ceil_le, Int.le_floor]
    push_cast
    constructor <;> linarith [this.1, this.2]
  have hc := Finset.card_le_card hsub
  rw [Finset.card_image_of_injOn hinj, Int.card_Icc] at hc
  have h1 : (⌊hi - 1 / 2⌋ : ℚ) ≤ hi - 1 / 2 := Int.floor_le _
  have h2 : lo - 1 / 2 ≤ (⌈lo - 1 / 2⌉ : ℚ) := Int.le_ceil _
  have h3 : ((⌊hi - 1 / 2⌋ + 1 - ⌈lo - 1 / 2⌉).toNat : ℚ) ≤ hi - lo + 1 := by
    rcases le_or_gt 0 (⌊hi - 1 / 2⌋ + 1 - ⌈lo - 1 / 2⌉) with hp | hp
    · have : (((⌊hi - 1 / 2⌋ + 1 - ⌈lo - 1 / 2⌉).toNat : ℤ) : ℚ) = ((⌊hi - 1 / 2⌋ + 1 - ⌈lo - 1 / 2⌉ : ℤ) : ℚ) := by
        rw [Int.toNat_of_nonneg hp]
      rw [show ((⌊hi - 1 / 2⌋ + 1 - ⌈lo - 1 / 2⌉).toNat : ℚ) = (((⌊hi - 1 / 2⌋ + 1 - ⌈lo - 1 / 2⌉).toNat : ℤ) : ℚ) by norm_cast, this]
      push_cast
      linarith
    · rw [Int.toNat_of_nonpos (by omega)]
      push_cast
      linarith
  have hc' : (((Finset.range n).filter fun j : Nat => lo ≤ (j : ℚ) + 1 / 2 ∧ (j : ℚ) + 1 / 2 ≤ hi).card : ℚ) ≤
      ((⌊hi - 1 / 2⌋ + 1 - ⌈lo - 1 / 2⌉).toNat : ℚ) := by exact_mod_cast hc
  linarith

/-- the centres near the two ends of an axis: `b, b'` and `e, e'` are the near and far ends of two intervals, in cells -/
def endZone (n : Nat) (b b' e e' : ℚ) : Finset Nat :=
  ((Finset.range n).filter fun j : Nat => min b b' - (1 / 2 + 1 / 1000) ≤ (j : ℚ) + 1 / 2 ∧ (j : ℚ) + 1 / 2 ≤ max b b') ∪
  ((Finset.range n).filter fun j : Nat => min e e' ≤ (j : ℚ) + 1 / 2 ∧ (j : ℚ) + 1 / 2 ≤ max e e' + (1 + 1 / 1000))

theorem endZone_card (n : Nat) (b b' e e' δ : ℚ) (h1 : b ≤ b' + δ) (h2 : b' ≤ b + δ) (h3 : e ≤ e' + δ) (h4 : e' ≤ e + δ) :
    ((endZone n b b' e e').card : ℚ) ≤ 2 * δ + 4 := by
  have c := Finset.card_union_le
    ((Finset.range n).filter fun j : Nat => min b b' - (1 / 2 + 1 / 1000) ≤ (j : ℚ) + 1 / 2 ∧ (j : ℚ) + 1 / 2 ≤ max b b')
    ((Finset.range n).filter fun j : Nat => min e e' ≤ (j : ℚ) + 1 / 2 ∧ (j : ℚ) + 1 / 2 ≤ max e e' + (1 + 1 / 1000))
  have mm : ∀ x y : ℚ, x ≤ y + δ → y ≤ x + δ → max x y - min x y ≤ δ ∧ min x y ≤ max x y := by
    intro x y hx hy
    rcases le_total x y with h | h
    · rw [max_eq_right h, min_eq_left h]; exact ⟨by linarith, h⟩
    · rw [max_eq_left h, min_eq_right h]; exact ⟨by linarith, h⟩
  obtain ⟨m1, m1'⟩ := mm b b' h1 h2
  obtain ⟨m2, m2'⟩ := mm e e' h3 h4
  have c1 := count_le n (min b b' - (1 / 2 + 1 / 1000)) (max b b') (by linarith)
  have c2 := count_le n (min e e') (max e e' + (1 + 1 / 1000)) (by linarith)
  unfold endZone
  have c' := (Nat.cast_le (α := ℚ)).2 c
  rw [Nat.cast_add] at c'
  linarith

/-- positions in cells from the left and from the top -/
def col (mn mx : Coord) (C : Nat) (x : Int) : ℚ := ((x - mn.x : Int) : ℚ) / (((mx.x - mn.x : Int) : ℚ) / C)
def row (mn mx : Coord) (R : Nat) (y : Int) : ℚ := ((mx.y - y : Int) : ℚ) / (((mx.y - mn.y : Int) : ℚ) / R)

/-- the cells on which two close rectangles can disagree -/
def zone (mn mx : Coord) (R C : Nat) (r r' : Msk.Rect) : Finset (Nat × Nat) :=
  (Finset.range R ×ˢ endZone C (col mn mx C r.x) (col mn mx C r'.x) (col mn mx C (r.x + r.w)) (col mn mx C (r'.x + r'.w))) ∪
  (endZone R (row mn mx R (r.y + r.h)) (row mn mx R (r'.y + r'.h)) (row mn mx R r.y) (row mn mx R r'.y) ×ˢ Finset.range C)

theorem zone_swap (mn mx : Coord) (R C : Nat) (r r' : Msk.Rect) : zone mn mx R C r r' = zone mn mx R C r' r := by
  unfold zone endZone
  simp only [min_comm, max_comm]

theorem within_col {mn mx : Coord} {C : Nat} (hC : 0 < C) (hw : mn.x < mx.x) {δ : ℚ} {x y : Int}
    (h : Within (δ * (((mx.x - mn.x : Int) : ℚ) / C)) x y) : col mn mx C x ≤ col mn mx C y + δ ∧ col mn mx C y ≤ col mn mx C x + δ := by
  have hp : (0 : ℚ) < ((mx.x - mn.x : Int) : ℚ) / C := div_pos (by exact_mod_cast (by omega)) (by exact_mod_cast hC)
  unfold col
  obtain ⟨h1, h2⟩ := h
  constructor
  · rw [div_le_iff₀ hp, add_mul, div_mul_cancel₀ _ hp.ne']; push_cast at *; linarith
  · rw [div_le_iff₀ hp, add_mul, div_mul_cancel₀ _ hp.ne']; push_cast at *; linarith

theorem within_row {mn mx : Coord} {R : Nat} (hR : 0 < R) (hh : mn.y < mx.y) {δ : ℚ} {x y : Int}
    (h : Within (δ * (((mx.y - mn.y : Int) : ℚ) / R)) x y) : row mn mx R x ≤ row mn mx R y + δ ∧ row mn mx R y ≤ row mn mx R x + δ := by
  have hp : (0 : ℚ) < ((mx.y - mn.y : Int) : ℚ) / R := div_pos (by exact_mod_cast (by omega)) (by exact_mod_cast hR)
  unfold row
  obtain ⟨h1, h2⟩ := h
  constructor
  · rw [div_le_iff₀ hp, add_mul, div_mul_cancel₀ _ hp.ne']; push_cast at *; linarith
  · rw [div_le_iff₀ hp, add_mul, div_mul_cancel₀ _ hp.ne']; push_cast at *; linarith

theorem zone_card {mn mx : Coord} {R C : Nat} (hR : 0 < R) (hC : 0 < C) (hw : mn.x < mx.x) (hh : mn.y < mx.y) {δ : ℚ}
    {r r' : Msk.Rect} (h : CloseRect mn mx R C δ r r') : ((zone mn mx R C r r').card : ℚ) ≤ (2 * δ + 4) * (R + C) := by
  have c := Finset.card_union_le
    (Finset.range R ×ˢ endZone C (col mn mx C r.x) (col mn mx C r'.x) (col mn mx C (r.x + r.w)) (col mn mx C (r'.x + r'.w)))
    (endZone R (row mn mx R (r.y + r.h)) (row mn mx R (r'.y + r'.h)) (row mn mx R r.y) (row mn mx R r'.y) ×ˢ Finset.range C)
  rw [Finset.card_product, Finset.card_product, Finset.card_range, Finset.card_range] at c
  have l := within_col hC hw h.left
  have e := within_col hC hw h.right
  have b := within_row hR hh h.bottom
  have t := within_row hR hh h.top
  have k1 := endZone_card C _ _ _ _ δ l.1 l.2 e.1 e.2
  have k2 := endZone_card R _ _ _ _ δ t.1 t.2 b.1 b.2
  have c' : ((zone mn mx R C r r').card : ℚ) ≤
      R * ((endZone C (col mn mx C r.x) (col mn mx C r'.x) (col mn mx C (r.x + r.w)) (col mn mx C (r'.x + r'.w))).card : ℚ) +
      ((endZone R (row mn mx R (r.y + r.h)) (row mn mx R (r'.y + r'.h)) (row mn mx R r.y) (row mn mx R r'.y)).card : ℚ) * C := by
    unfold zone; exact_mod_cast c
  have r0 : (0 : ℚ) ≤ R := by positivity
  have c0 : (0 : ℚ) ≤ C := by positivity
  nlinarith [mul_le_mul_of_nonneg_left k1 r0, mul_le_mul_of_nonneg_right k2 c0]

/-- a cell near one rectangle whose centre is not in the other is in the zone -/
theorem near_zone {mn mx : Coord} {R C : Nat} (hR : 0 < R) (hC : 0 < C) (hw : mn.x < mx.x) (hh : mn.y < mx.y)
    {r r' : Msk.Rect} {i j : Nat} (hi : i < R) (hj : j < C)
    (hn : NearRect (window mn mx) R C (Client.lt r) (Client.rb r) i j)
    (ho : ¬ InRect (Client.lt r') (Client.rb r') (centreX (window mn mx) C j) (centreY (window mn mx) R i)) :
    (i, j) ∈ zone mn mx R C r r' := by
  have hpx : (0 : ℚ) < ((mx.x - mn.x : Int) : ℚ) / C := div_pos (by exact_mod_cast (by omega)) (by exact_mod_cast hC)
  have hpy : (0 : ℚ) < ((mx.y - mn.y : Int) : ℚ) / R := div_pos (by exact_mod_cast (by omega)) (by exact_mod_cast hR)
  obtain ⟨n1, n2, n3, n4⟩ := hn
  simp only [centreX, centreY, window, wsW, wsH, Client.lt, Client.rb] at n1 n2 n3 n4
  have q1 : min (col mn mx C r.x) (col mn mx C r'.x) - (1 / 2 + 1 / 1000) ≤ (j : ℚ) + 1 / 2 := by
    refine le_trans (sub_le_sub_right (min_le_left _ _) _) ?_
    unfold col
    rw [sub_le_iff_le_add, div_le_iff₀ hpx]; push_cast at *; linarith
  have q2 : (j : ℚ) + 1 / 2 ≤ max (col mn mx C (r.x + r.w)) (col mn mx C (r'.x + r'.w)) + (1 + 1 / 1000) := by
    refine le_trans ?_ (add_le_add_left (le_max_left _ _) _)
    unfold col
    rw [← sub_le_iff_le_add, le_div_iff₀ hpx]; push_cast at *; linarith
  have q3 : min (row mn mx R (r.y + r.h)) (row mn mx R (r'.y + r'.h)) - (1 / 2 + 1 / 1000) ≤ (i : ℚ) + 1 / 2 := by
    refine le_trans (sub_le_sub_right (min_le_left _ _) _) ?_
    unfold row
    rw [sub_le_iff_le_add, div_le_iff₀ hpy]; push_cast at *; linarith
  have q4 : (i : ℚ) + 1 / 2 ≤ max (row mn mx R r.y) (row mn mx R r'.y) + (1 + 1 / 1000) := by
    refine le_trans ?_ (add_le_add_left (le_max_left _ _) _)
    unfold row
    rw [← sub_le_iff_le_add, le_div_iff₀ hpy]; push_cast at *; linarith
  unfold zone endZone
  simp only [Finset.mem_union, Finset.mem_product, Finset.mem_filter, Finset.mem_range]
  by_contra hcon
  push Not at hcon
  obtain ⟨k1, k2⟩ := hcon
  obtain ⟨a1, a2⟩ := k1 hi
  have b1 : max (col mn mx C r.x) (col mn mx C r'.x) < (j : ℚ) + 1 / 2 := a1 hj q1
  have b2 : (j : ℚ) + 1 / 2 < min (col mn mx C (r.x + r.w)) (col mn mx C (r'.x + r'.w)) := by
    by_contra hx; exact absurd q2 (not_le.2 (a2 hj (not_lt.1 hx)))
  have b3 : max (row mn mx R (r.y + r.h)) (row mn mx R (r'.y + r'.h)) < (i : ℚ) + 1 / 2 := by
    by_contra hx; exact absurd hj (not_lt.2 (k2 (Or.inl ⟨hi, q3, not_lt.1 hx⟩)))
  have b4 : (i : ℚ) + 1 / 2 < min (row mn mx R r.y) (row mn mx R r'.y) := by
    by_contra hx; exact absurd hj (not_lt.2 (k2 (Or.inr ⟨hi, not_lt.1 hx, q4⟩)))
  apply ho
  have d1 := lt_of_le_of_lt (le_max_right _ _) b1
  have d2 := lt_of_lt_of_le b2 (min_le_right _ _)
  have d3 := lt_of_le_of_lt (le_max_right _ _) b3
  have d4 := lt_of_lt_of_le b4 (min_le_right _ _)
  unfold col at d1 d2
  unfold row at d3 d4
  rw [div_lt_iff₀ hpx] at d1
  rw [lt_div_iff₀ hpx] at d2
  rw [div_lt_iff₀ hpy] at d3
  rw [lt_div_iff₀ hpy] at d4
  simp only [InRect, centreX, centreY, window, wsW, wsH, Client.lt, Client.rb]
  push_cast at *
  refine ⟨by linarith, by linarith, by linarith, by linarith⟩

/-- reading differently means: on in one, off in the other -/
theorem get_ne_lit {a b : BitMatrix} (ha : Built a) (hb : Built b) (h1 : a.isize = b.isize) (h2 : a.jsize = b.jsize) {i j : Nat}
    (hi : i < a.isize) (hj : j < a.jsize) (h : BitMatrix.get a i j ≠ BitMatrix.get b i j) :
    (Lit a i j ∧ ¬ Lit b i j) ∨ (Lit b i j ∧ ¬ Lit a i j) := by
  have wa := ha.inv.1
  have wb := hb.inv.1
  unfold Lit
  rw [get_eq wa hi hj, get_eq wb (by omega) (by omega)] at h ⊢
  cases ca : cell a i j <;> cases cb : cell b i j <;> simp_all

/-- the zones of all pairs together -/
def zones (mn mx : Coord) (R C : Nat) : List Msk.Rect → List Msk.Rect → Finset (Nat × Nat)
  | r :: rs, r' :: rs' => zone mn mx R C r r' ∪ zones mn mx R C rs rs'
  | _, _ => ∅

theorem zones_card {mn mx : Coord} {R C : Nat} (hR : 0 < R) (hC : 0 < C) (hw : mn.x < mx.x) (hh : mn.y < mx.y) {δ : ℚ}
    {rs rs' : List Msk.Rect} (h : List.Forall₂ (CloseRect mn mx R C δ) rs rs') :
    ((zones mn mx R C rs rs').card : ℚ) ≤ rs.length * ((2 * δ + 4) * (R + C)) := by
  induction h with
  | nil => simp [zones]
  | @cons r r' rs rs' h _ ih =>
    have c := Finset.card_union_le (zone mn mx R C r r') (zones mn mx R C rs rs')
    have c' : ((zones mn mx R C (r :: rs) (r' :: rs')).card : ℚ) ≤
        ((zone mn mx R C r r').card : ℚ) + ((zones mn mx R C rs rs').card : ℚ) := by
      have c' := (Nat.cast_le (α := ℚ)).2 c
      rw [Nat.cast_add] at c'
      exact c'
    have := zone_card hR hC hw hh h
    rw [List.length_cons]
    push_cast
    linarith

theorem zones_near {mn mx : Coord} {R C : Nat} (hR : 0 < R) (hC : 0 < C) (hw : mn.x < mx.x) (hh : mn.y < mx.y) {δ : ℚ}
    {rs rs' : List Msk.Rect} (h : List.Forall₂ (CloseRect mn mx R C δ) rs rs') {i j : Nat} (hi : i < R) (hj : j < C) :
    ((∃ r ∈ rs, NearRect (window mn mx) R C (Client.lt r) (Client.rb r) i j) →
      (¬ ∃ r ∈ rs', InRect (Client.lt r) (Client.rb r) (centreX (window mn mx) C j) (centreY (window mn mx) R i)) →
      (i, j) ∈ zones mn mx R C rs rs') ∧
    ((∃ r ∈ rs', NearRect (window mn mx) R C (Client.lt r) (Client.rb r) i j) →
      (¬ ∃ r ∈ rs, InRect (Client.lt r) (Client.rb r) (centreX (window mn mx) C j) (centreY (window mn mx) R i)) →
      (i, j) ∈ zones mn mx R C rs rs') := by
  induction h with
  | nil => simp
  | @cons r r' rs rs' h _ ih =>
    unfold zones
    refine ⟨fun ⟨x, hx, hn⟩ ho => ?_, fun ⟨x, hx, hn⟩ ho => ?_⟩ <;> push Not at ho <;> rw [Finset.mem_union]
    · rcases List.mem_cons.1 hx with rfl | hx
      · exact Or.inl (near_zone hR hC hw hh hi hj hn (ho r' (by simp)))
      · exact Or.inr (ih.1 ⟨x, hx, hn⟩ (by push Not; exact fun y hy => ho y (by simp [hy])))
    · rcases List.mem_cons.1 hx with rfl | hx
      · rw [zone_swap]
        exact Or.inl (near_zone hR hC hw hh hi hj hn (ho r (by simp)))
      · exact Or.inr (ih.2 ⟨x, hx, hn⟩ (by push Not; exact fun y hy => ho y (by simp [hy])))

/-- **C71** Similar rectangles give similar bitmaps: if two bitmaps of the same window and grid show (C62) two lists of
rectangles that correspond one to one, with no side moved by more than `δ` cells, then they differ in at most
`(2δ + 4)·(R + C)` cells per rectangle. -/
theorem C71_similar (mn mx : Coord) (R C : Nat) (hR : 0 < R) (hC : 0 < C) (hw : mn.x < mx.x) (hh : mn.y < mx.y) (δ : ℚ)
    (rs rs' : List Msk.Rect) (hcl : List.Forall₂ (CloseRect mn mx R C δ) rs rs') (m m' : BitMatrix) (hm : Built m) (hm' : Built m')
    (hs : Client.Shows mn mx R C rs m) (hs' : Client.Shows mn mx R C rs' m') :
    (diffCount m m' : ℚ) ≤ rs.length * ((2 * δ + 4) * (R + C)) := by
  have hsub : ((cells m.isize m.jsize).filter fun p => BitMatrix.get m p.1 p.2 ≠ BitMatrix.get m' p.1 p.2) ⊆
      zones mn mx R C rs rs' := by
    rintro ⟨i, j⟩ hp
    obtain ⟨hc, hne⟩ := Finset.mem_filter.1 hp
    obtain ⟨hi, hj⟩ := Finset.mem_product.1 hc
    rw [Finset.mem_range] at hi hj
    dsimp only at hi hj hne
    have hz := zones_near hR hC hw hh hcl (i := i) (j := j) (hs.rows ▸ hi) (hs.cols ▸ hj)
    rcases get_ne_lit hm hm' (by rw [hs.rows, hs'.rows]) (by rw [hs.cols, hs'.cols]) hi hj hne with ⟨h1, h2⟩ | ⟨h1, h2⟩
    · exact hz.1 (hs.near i j h1) fun hx => h2 (hs'.covered i j (hs.rows ▸ hi) (hs.cols ▸ hj) hx)
    · exact hz.2 (hs'.near i j h1) fun hx => h2 (hs.covered i j (hs.rows ▸ hi) (hs.cols ▸ hj) hx)
  have h1 : (diffCount m m' : ℚ) ≤ ((zones mn mx R C rs rs').card : ℚ) := by
    unfold diffCount; exact_mod_cast Finset.card_le_card hsub
  exact le_trans h1 (zones_card hR hC hw hh hcl)

/-- **C71** Seen through `Compare` (in exact arithmetic) and `==` (binary64): the former is at least
`1 − n(2δ+4)(R+C)/(R·C)`, and the latter is true as soon as `10000·n(2δ+4)(R+C) ≤ R·C`. -/
theorem C71_compare (mn mx : Coord) (R C : Nat) (hR : 0 < R) (hC : 0 < C) (hw : mn.x < mx.x) (hh : mn.y < mx.y) (δ : ℚ)
    (rs rs' : List Msk.Rect) (hcl : List.Forall₂ (CloseRect mn mx R C δ) rs rs') (m m' : BitMatrix) (hm : Built m) (hm' : Built m')
    (hs : Client.Shows mn mx R C rs m) (hs' : Client.Shows mn mx R C rs' m') (hsz : R * C ≤ 2 ^ 38) :
    (∃ x : ℚ, BitMatrix.compare id Alloc.ok m m' = .ok (.fin x) ∧ 1 - rs.length * ((2 * δ + 4) * (R + C)) / (R * C) ≤ x) ∧
    (10000 * (rs.length * ((2 * δ + 4) * (R + C))) ≤ (R : ℚ) * C → BitMatrix.opEq rne Alloc.ok m m' = .ok true) := by
  have hd := C71_similar mn mx R C hR hC hw hh δ rs rs' hcl m m' hm hm' hs hs'
  have e1 := hs.rows
  have e2 := hs.cols
  have e3 := hs'.rows
  have e4 := hs'.cols
  have hpos : (0 : ℚ) < (R : ℚ) * C := by positivity
  refine ⟨⟨_, (C09_compare m m' hm hm' (by omega) (by omega) (by omega) (by omega)
    (by rw [e1, e2]; exact le_trans hsz (by norm_num))).1, ?_⟩, fun hb => ?_⟩
  · rw [e1, e2]
    push_cast
    have := div_le_div_of_nonneg_right hd hpos.le
    linarith
  · rw [(C09_eq_ne_threshold m m' hm hm' (by omega) (by omega) (by omega) (by omega) (by rw [e1, e2]; exact hsz)).1]
    congr 1
    rw [decide_eq_true_iff, e1, e2]
    have : ((diffCount m m' * 10000 : ℕ) : ℚ) ≤ ((R * C : ℕ) : ℚ) := by push_cast; linarith
    exact_mod_cast this

/-- **C71** Different rectangles give different bitmaps: if the centres of the cells `K` lie in rectangles of the first list, and
none of these cells is near a rectangle of the second, the bitmaps differ in all of `K`. -/
theorem C71_different (mn mx : Coord) (R C : Nat) (rs rs' : List Msk.Rect) (m m' : BitMatrix)
    (hs : Client.Shows mn mx R C rs m) (hs' : Client.Shows mn mx R C rs' m') (K : Finset (Nat × Nat))
    (hK : ∀ p ∈ K, p.1 < R ∧ p.2 < C ∧
      (∃ r ∈ rs, InRect (Client.lt r) (Client.rb r) (centreX (window mn mx) C p.2) (centreY (window mn mx) R p.1)) ∧
      ∀ r ∈ rs', ¬ NearRect (window mn mx) R C (Client.lt r) (Client.rb r) p.1 p.2) :
    K.card ≤ diffCount m m' := by
  apply Finset.card_le_card
  intro p hp
  obtain ⟨h1, h2, h3, h4⟩ := hK p hp
  rw [Finset.mem_filter]
  refine ⟨Finset.mem_product.2 ⟨Finset.mem_range.2 (hs.rows ▸ h1), Finset.mem_range.2 (hs.cols ▸ h2)⟩, fun he => ?_⟩
  have hl := hs.covered p.1 p.2 h1 h2 h3
  have hl' : Lit m' p.1 p.2 := by unfold Lit at *; rw [← he]; exact hl
  obtain ⟨r, hr, hn⟩ := hs'.near p.1 p.2 hl'
  exact h4 r hr hn

/-- the rectangles of layer `n` -/
def onLayer (n : Int) (rs : List (Msk.Rect × Int)) : List Msk.Rect := (rs.filter fun q => q.2 = n).map Prod.fst

/-- **C71** From files to comparison: read two MSK files of rectangles, render layer `n` of both with the same window and grid,
and compare.  If the rectangles of that layer correspond one to one, with no side moved by more than `δ` cells, everything
returns, the bitmaps differ in at most `(2δ + 4)·(R + C)` cells per rectangle, and `Compare` says so. -/
theorem C71_files (env env' : Msk.Env) (name name' : List Nat) (r r' : Msk.Reader) (cr cr' : Bool) (header header' : List UInt8)
    (rs rs' : List (Msk.Rect × Int)) (hp : PlainFile env name r cr header rs) (hp' : PlainFile env' name' r' cr' header' rs')
    (addr addr' : Nat) (heap heap' : Elements)
    (hheap : ∀ e g, some g ∈ (heap e).geometries → g.coords.length < 2 ^ 64)
    (hheap' : ∀ e g, some g ∈ (heap' e).geometries → g.coords.length < 2 ^ 64) :
    ∃ w w', Msk.read env addr false ⟨r, {}, heap⟩ = .ok true w ∧ Msk.read env' addr' false ⟨r', {}, heap'⟩ = .ok true w' ∧
      ∀ (rnd : ℚ → ℚ) (_ : Rounding rnd) (mn mx : Coord) (R C : Nat) (_ : Grid mn mx R C) (_ : R * C ≤ 2 ^ 38) (al : Alloc)
        (_ : al R (bytesPerRow C) = none) (mem mem' : Memory) (a a' : Nat) (_ : mem.layouts a = w.data) (_ : mem.elements = w.heap)
        (_ : mem'.layouts a' = w'.data) (_ : mem'.elements = w'.heap) (k k' depth depth' : Nat) (n : Int) (δ : ℚ)
        (_ : ∀ q ∈ onLayer n rs ++ onLayer n rs', Client.Meets mn mx q → Client.StartsInside mn mx R C q ∨ Client.Covers mn mx q)
        (_ : List.Forall₂ (CloseRect mn mx R C δ) (onLayer n rs) (onLayer n rs')),
        ∃ g m g1 g' m' g1', Generator.init (some a) [0] mn mx (Generator.new rnd) = .ok () g ∧
          Verif.Client.renderLayers rnd al (.ok k) mem depth R C [n] g = some (.ok [m] g1) ∧
          Generator.init (some a') [0] mn mx (Generator.new rnd) = .ok () g' ∧
          Verif.Client.renderLayers rnd al (.ok k') mem' depth' R C [n] g' = some (.ok [m'] g1') ∧
          (diffCount m m' : ℚ) ≤ (onLayer n rs).length * ((2 * δ + 4) * (R + C)) ∧
          ∃ x : ℚ, BitMatrix.compare id Alloc.ok m m' = .ok (.fin x) ∧
            1 - (onLayer n rs).length * ((2 * δ + 4) * (R + C)) / (R * C) ≤ x := by
  obtain ⟨w, e, h⟩ := C62_file_to_bitmaps env name r cr header rs hp addr heap hheap
  obtain ⟨w', e', h'⟩ := C62_file_to_bitmaps env' name' r' cr' header' rs' hp' addr' heap' hheap'
  refine ⟨w, w', e, e', fun rnd hr mn mx R C hgr hsz al hal mem mem' a a' ha he ha' he' k k' depth depth' n δ hd hcl => ?_⟩
  have mem_on : ∀ (l : List (Msk.Rect × Int)), ∀ q ∈ l, q.2 ∈ [n] → q.1 ∈ onLayer n l := by
    intro l q hq hn
    exact List.mem_map.2 ⟨q, List.mem_filter.2 ⟨hq, by simpa using hn⟩, rfl⟩
  obtain ⟨g, ms, g1, i1, i2, i3⟩ := h rnd hr mn mx R C hgr al hal mem a ha he k depth [n]
    (fun q hq hn => hd q.1 (List.mem_append_left _ (mem_on rs q hq hn)))
  obtain ⟨g', ms', g1', i1', i2', i3'⟩ := h' rnd hr mn mx R C hgr al hal mem' a' ha' he' k' depth' [n]
    (fun q hq hn => hd q.1 (List.mem_append_right _ (mem_on rs' q hq hn)))
  rcases i3 with _ | ⟨⟨b, s⟩, i3⟩
  cases i3
  rcases i3' with _ | ⟨⟨b', s'⟩, i3'⟩
  cases i3'
  refine ⟨g, _, g1, g', _, g1', i1, i2, i1', i2', ?_, ?_⟩
  · exact C71_similar mn mx R C hgr.rpos hgr.cpos hgr.wpos hgr.hpos δ _ _ hcl _ _ b b' s s'
  · exact (C71_compare mn mx R C hgr.rpos hgr.cpos hgr.wpos hgr.hpos δ _ _ hcl _ _ b b' s s' hsz).1

/-! ### the hypotheses can be met -/

/-- the file of C62 with the first rectangle moved by three units to the right and made two units higher -/
def exRects2 : List (Msk.Rect × Int) := [(⟨23, 60, 25, 22, "ME"⟩, 23)]

theorem ex_plain2 : PlainFile (exEnv (Msk.fileText [10] (Msk.bytes "VERSION 1") (exRects2.map Prod.fst))) exName { fileName := exName } false
    (Msk.bytes "VERSION 1") exRects2 where
  reader := by
    have e : Msk.narrow exName = lit "d/x.msk" := by decide +kernel
    refine (C50_get_reader _ _ _).mpr ⟨⟨ex_name, Msk.fileText [10] (Msk.bytes "VERSION 1") (exRects2.map Prod.fst), by simp [exEnv, e], ?_⟩, rfl⟩
    decide +kernel
  content := by
    have e : Msk.narrow exName = lit "d/x.msk" := by decide +kernel
    simp [exEnv, e]
  names := ⟨⟨_, rfl⟩, _, rfl⟩
  line := by decide +kernel
  noBB := by decide +kernel
  noREC := by decide +kernel
  noTITLE := by decide +kernel
  layers := by
    simp only [exRects2, List.mem_cons, List.not_mem_nil, or_false, forall_eq]
    exact .me
  fits := by
    simp only [exRects2, List.mem_cons, List.not_mem_nil, or_false, forall_eq]
    unfold RectFits inI32; decide
  sizes := by
    simp only [exRects2, List.mem_cons, List.not_mem_nil, or_false, forall_eq]
    decide
  some_rect := by simp [exRects2]

/-- C71_files on a 100 × 100 grid: at most 1400 of the 10000 cells differ (`δ = 3/2`). -/
example : ∃ w w', Msk.read (exEnv (Msk.fileText [10] (Msk.bytes "VERSION 1") (exRects.map Prod.fst))) 7 false
      ⟨{ fileName := exName }, {}, fun _ => {}⟩ = .ok true w ∧
    Msk.read (exEnv (Msk.fileText [10] (Msk.bytes "VERSION 1") (exRects2.map Prod.fst))) 7 false
      ⟨{ fileName := exName }, {}, fun _ => {}⟩ = .ok true w' ∧
    ∃ g m g1 g' m' g1', Verif.Client.renderLayers rne Alloc.ok (.ok 0) ⟨fun _ => w.data, w.heap⟩ 0 100 100 [23] g = some (.ok [m] g1) ∧
      Verif.Client.renderLayers rne Alloc.ok (.ok 0) ⟨fun _ => w'.data, w'.heap⟩ 0 100 100 [23] g' = some (.ok [m'] g1') ∧
      diffCount m m' ≤ 1400 := by
  obtain ⟨w, w', e, e', h⟩ := C71_files _ _ _ _ _ _ _ _ _ _ _ _ ex_plain ex_plain2 7 7 (fun _ => {}) (fun _ => {}) (by simp) (by simp)
  have f1 : onLayer 23 exRects = [⟨20, 60, 25, 20, "ME"⟩] := by simp [exRects, onLayer]
  have f2 : onLayer 23 exRects2 = [⟨23, 60, 25, 22, "ME"⟩] := by simp [exRects2, onLayer]
  obtain ⟨g, m, g1, g', m', g1', _, h2, _, h4, h5, _⟩ := h rne rne_rounding ⟨0, 0⟩ ⟨200, 200⟩ 100 100
    ⟨by unfold inI32; decide, by unfold inI32; decide, by unfold inI32; decide, by decide, by decide, by decide, by decide, by decide, by decide⟩
    (by norm_num) Alloc.ok rfl ⟨fun _ => w.data, w.heap⟩ ⟨fun _ => w'.data, w'.heap⟩ 0 0 rfl rfl rfl rfl 0 0 0 0 23 (3 / 2) (by
      rw [f1, f2]
      intro q hq _
      simp only [List.mem_append, List.mem_cons, List.not_mem_nil, or_false] at hq
      rcases hq with rfl | rfl <;>
      exact .inl ⟨by decide, by decide, by unfold inI32; decide, by unfold inI32; decide, by decide, by decide⟩)
    (by
      rw [f1, f2]
      refine .cons ⟨?_, ?_, ?_, ?_⟩ .nil <;> unfold Client.Within <;> norm_num)
  rw [f1] at h5
  refine ⟨w, w', e, e', g, m, g1, g', m', g1', h2, h4, ?_⟩
  norm_num at h5
  exact_mod_cast h5

end Verif.Props
