import Verif.Spec.Cut
import Verif.Props.Enlarge
import Verif.Props.Scaled
import Verif.Props.ZondClear

/-! C87: drawing a rectangle, and drawing its two parts. -/

namespace Verif.Props
open Verif BitMatrix Zond Spec Ieee

theorem over_iff {b e : ℚ} (hbe : b ≤ e) {n j : Nat} (hj : j < n) :
    (⌊b⌋ ≠ ⌊e⌋ ∧ ((e < (n : ℚ) - 1 ∧ 1 / 2 ≤ e - ⌊e⌋ ∧ (j : ℤ) = ⌊e⌋ + 1) ∨ ((n : ℚ) - 1 ≤ e ∧ j + 1 = n))) ↔
      ((b < (j : ℚ) - 1 ∧ (j : ℚ) - 1 / 2 ≤ e ∧ e < j) ∨ (⌊b⌋ ≠ ⌊e⌋ ∧ (j : ℚ) ≤ e ∧ j + 1 = n)) := by
  have hjn : (j : ℚ) ≤ n - 1 := by
    have : (j : ℚ) + 1 ≤ n := by exact_mod_cast hj
    linarith
  have hn1 : j + 1 = n → (n : ℚ) - 1 = j := by
    intro h
    rw [← h]; push_cast; ring
  constructor
  · rintro ⟨hf, ⟨h1, h2, h3⟩ | ⟨h1, h2⟩⟩
    · left
      have h3q : (j : ℚ) = (⌊e⌋ : ℚ) + 1 := by exact_mod_cast h3
      have hlt : ⌊b⌋ < ⌊e⌋ := lt_of_le_of_ne (Int.floor_mono hbe) hf
      refine ⟨?_, by linarith, by have := Int.lt_floor_add_one e; linarith⟩
      have : b < (⌊e⌋ : ℚ) := Int.floor_lt.mp hlt
      linarith
    · right
      rw [hn1 h2] at h1
      exact ⟨hf, h1, h2⟩
  · rintro (⟨h1, h2, h3⟩ | ⟨hf, h1, h2⟩)
    · have hfl : ⌊e⌋ = (j : ℤ) - 1 := by
        rw [Int.floor_eq_iff]
        push_cast
        constructor <;> linarith
      refine ⟨?_, Or.inl ⟨by linarith, ?_, by omega⟩⟩
      · rw [hfl]
        apply ne_of_lt
        rw [Int.floor_lt]
        push_cast
        exact h1
      · rw [hfl]; push_cast; linarith
    · exact ⟨hf, Or.inr ⟨by rw [hn1 h2]; exact h1, h2⟩⟩

theorem axisCell_iff {b e t : ℚ} (hbe : b ≤ e) {n j : Nat} (hj : j < n) : AxisCell b e t n j ↔
    b ≤ j + 1 / 2 + t ∧ ((j : ℚ) + 1 / 2 ≤ e + t ∨ (b < (j : ℚ) - 1 ∧ (j : ℚ) - 1 / 2 ≤ e ∧ e < j) ∨
      (⌊b⌋ ≠ ⌊e⌋ ∧ (j : ℚ) ≤ e ∧ j + 1 = n)) := by
  unfold AxisCell
  rw [over_iff hbe hj]

/-- one axis: what the two parts draw together and the whole does not -/
theorem axis_gains {b x e t : ℚ} (hbx : b ≤ x) (hxe : x ≤ e) (ht : 0 ≤ t) {n j : Nat} (hj : j < n) :
    ((AxisCell b x t n j ∨ AxisCell x e t n j) ∧ ¬ AxisCell b e t n j) ↔ Gains b x e t n j := by
  rw [axisCell_iff hbx hj, axisCell_iff hxe hj, axisCell_iff (le_trans hbx hxe) hj]
  unfold Gains
  constructor
  · rintro ⟨h, hn⟩
    rcases h with ⟨h1, h2 | ⟨h2, h3, h4⟩ | ⟨h2, h3, h4⟩⟩ | ⟨h1, h2 | ⟨h2, h3, h4⟩ | ⟨h2, h3, h4⟩⟩
    · exact absurd ⟨h1, Or.inl (by linarith)⟩ hn
    · refine ⟨h2, ⟨h3, h4⟩, ?_⟩
      have hje : (j : ℚ) ≤ e := by
        by_contra hc
        rw [not_le] at hc
        exact hn ⟨h1, Or.inr (Or.inl ⟨h2, by linarith, hc⟩)⟩
      have hlt : e + t < j + 1 / 2 := by
        by_contra hc
        rw [not_lt] at hc
        exact hn ⟨h1, Or.inl hc⟩
      refine ⟨⟨hje, hlt⟩, ?_⟩
      by_contra hc
      have hl : j + 1 = n := by omega
      refine hn ⟨h1, Or.inr (Or.inr ⟨?_, hje, hl⟩)⟩
      apply ne_of_lt
      have : ⌊b⌋ < (j : ℤ) := by rw [Int.floor_lt]; push_cast; linarith
      have : (j : ℤ) ≤ ⌊e⌋ := by rw [Int.le_floor]; push_cast; exact hje
      omega
    · refine absurd ⟨h1, Or.inr (Or.inr ⟨?_, by linarith, h4⟩)⟩ hn
      apply ne_of_lt
      have := lt_of_le_of_ne (Int.floor_mono hbx) h2
      have := Int.floor_mono hxe
      omega
    · exact absurd ⟨by linarith, Or.inl h2⟩ hn
    · exact absurd ⟨by linarith, Or.inr (Or.inl ⟨by linarith, h3, h4⟩)⟩ hn
    · refine absurd ⟨by linarith, Or.inr (Or.inr ⟨?_, h3, h4⟩)⟩ hn
      apply ne_of_lt
      have := lt_of_le_of_ne (Int.floor_mono hxe) h2
      have := Int.floor_mono hbx
      omega
  · rintro ⟨h1, ⟨h2, h3⟩, ⟨h4, h5⟩, h6⟩
    refine ⟨Or.inl ⟨by linarith, Or.inr (Or.inl ⟨h1, h2, h3⟩)⟩, ?_⟩
    rintro ⟨-, h | ⟨_, _, h⟩ | ⟨_, _, h⟩⟩
    · linarith
    · linarith
    · omega

/-- one axis: what the whole draws and the two parts do not -/
theorem axis_loses {b x e t : ℚ} (hbx : b ≤ x) (hxe : x ≤ e) (ht : 0 ≤ t) (ht2 : t < 1 / 2) {n j : Nat} (hj : j < n) :
    (AxisCell b e t n j ∧ ¬ (AxisCell b x t n j ∨ AxisCell x e t n j)) ↔ Loses b x e j := by
  rw [axisCell_iff hbx hj, axisCell_iff hxe hj, axisCell_iff (le_trans hbx hxe) hj]
  unfold Loses
  constructor
  · rintro ⟨⟨h1, h⟩, hn⟩
    rw [not_or] at hn
    obtain ⟨n1, n2⟩ := hn
    rcases h with h | ⟨h2, h3, h4⟩ | ⟨h2, h3, h4⟩
    · by_cases hx : (j : ℚ) + 1 / 2 ≤ x + t
      · exact absurd ⟨h1, Or.inl hx⟩ n1
      · rw [not_le] at hx
        exact absurd ⟨by linarith, Or.inl h⟩ n2
    · have hx1 : (j : ℚ) - 1 ≤ x := by
        by_contra hc
        rw [not_le] at hc
        exact n2 ⟨by linarith, Or.inr (Or.inl ⟨hc, h3, h4⟩)⟩
      have hx2 : x < (j : ℚ) - 1 / 2 := by
        by_contra hc
        rw [not_lt] at hc
        exact n1 ⟨h1, Or.inr (Or.inl ⟨h2, hc, by linarith⟩)⟩
      exact ⟨h2, ⟨hx1, hx2⟩, h3, h4⟩
    · exfalso
      by_cases hx : (j : ℚ) + 1 / 2 ≤ x + t
      · exact n1 ⟨h1, Or.inl hx⟩
      rw [not_le] at hx
      by_cases hxe' : ⌊x⌋ = ⌊e⌋
      · refine n1 ⟨h1, Or.inr (Or.inr ⟨by rw [hxe']; exact h2, ?_, h4⟩)⟩
        have : (j : ℤ) ≤ ⌊x⌋ := by rw [hxe', Int.le_floor]; push_cast; exact h3
        rw [Int.le_floor] at this
        exact_mod_cast this
      · exact n2 ⟨by linarith, Or.inr (Or.inr ⟨hxe', h3, h4⟩)⟩
  · rintro ⟨h1, ⟨h2, h3⟩, h4, h5⟩
    refine ⟨⟨by linarith, Or.inr (Or.inl ⟨h1, h4, h5⟩)⟩, ?_⟩
    rintro (⟨-, h | ⟨_, h, _⟩ | ⟨_, h, _⟩⟩ | ⟨-, h | ⟨h, _⟩ | ⟨_, h, _⟩⟩) <;> linarith

/-- what a drawing does to every bitmap of one size -/
def Adds (rnd : ℚ → ℚ) (z : Zond) (g : Geometry) (R C : Nat) (P : Nat → Nat → Prop) : Prop :=
  ∀ m, Built m → m.isize = R → m.jsize = C → ∃ m', zondGeometry rnd z (some g) m = .ok () m' ∧
    ∀ i j, i < R → j < C → (Lit m' i j ↔ Lit m i j ∨ P i j)

theorem grown {rnd : ℚ → ℚ} {z : Zond} {g : Option Geometry} {m m1 : BitMatrix} (hm : Built m)
    (h1 : zondGeometry rnd z g m = .ok () m1) :
    ∃ P : Nat → Nat → Prop, Ones m m1 P ∧ ∀ i j, P i j → i < m.isize ∧ j < m.jsize := by
  rcases zondGeometry_outcome m.isize m.jsize rnd z g with (⟨P, hp, hin⟩ | hu) | ht
  · obtain ⟨m', e, o⟩ := hp m (built_shape hm)
    rw [h1] at e; cases e
    exact ⟨P, o, fun i j hij => ⟨(hin i j hij).1, (hin i j hij).2.1⟩⟩
  · rw [hu m (built_shape hm)] at h1; cases h1
  · rw [ht m (built_shape hm)] at h1; cases h1

/-- a drawing and two drawings in sequence that turn on the same cells give equal bitmaps -/
theorem same_of_lit_two {rnd : ℚ → ℚ} {z : Zond} {g g1 g2 : Option Geometry} {m a b c : BitMatrix} (hm : Built m)
    (h : zondGeometry rnd z g m = .ok () a) (h1 : zondGeometry rnd z g1 m = .ok () b) (h2 : zondGeometry rnd z g2 b = .ok () c)
    (hl : ∀ i j, i < m.isize → j < m.jsize → (Lit a i j ↔ Lit c i j)) : a = c := by
  obtain ⟨P, o, hP⟩ := grown hm h
  obtain ⟨Q, o1, hQ⟩ := grown hm h1
  have hb : Built b := (ones_lit hm o1).1
  obtain ⟨S, o2, hS⟩ := grown hb h2
  have o3 := o1.trans o2
  rw [o1.rows, o1.cols] at hS
  apply eq_of_cells o.wf o2.wf (o.rows.trans o3.rows.symm) (o.cols.trans o3.cols.symm)
  intro i j
  by_cases hb : i < m.isize ∧ j < m.jsize
  · have := hl i j hb.1 hb.2
    rw [lit_iff o.wf, lit_iff o2.wf, o.rows, o.cols, o3.rows, o3.cols] at this
    rw [Bool.eq_iff_iff]
    tauto
  · have e1 := o.bits i j
    have e2 := o1.bits i j
    have e3 := o2.bits i j
    have n1 : ¬ P i j := fun hp => hb (hP i j hp)
    have n2 : ¬ Q i j := fun hp => hb (hQ i j hp)
    have n3 : ¬ S i j := fun hp => hb (hS i j hp)
    rw [Bool.eq_iff_iff]
    tauto

theorem adds_two {rnd : ℚ → ℚ} {z : Zond} {g g1 g2 : Geometry} {R C : Nat} {P P1 P2 : Nat → Nat → Prop}
    (h : Adds rnd z g R C P) (h1 : Adds rnd z g1 R C P1) (h2 : Adds rnd z g2 R C P2)
    (m : BitMatrix) (hm : Built m) (hR : m.isize = R) (hC : m.jsize = C) :
    ∃ a b c, zondGeometry rnd z (some g) m = .ok () a ∧ zondGeometry rnd z (some g1) m = .ok () b ∧
      zondGeometry rnd z (some g2) b = .ok () c ∧
      (∀ i j, i < R → j < C → ((Lit c i j ∧ ¬ Lit a i j) ↔ ¬ Lit m i j ∧ (P1 i j ∨ P2 i j) ∧ ¬ P i j) ∧
        ((Lit a i j ∧ ¬ Lit c i j) ↔ ¬ Lit m i j ∧ P i j ∧ ¬ (P1 i j ∨ P2 i j))) := by
  obtain ⟨a, ea, la⟩ := h m hm hR hC
  obtain ⟨b, eb, lb⟩ := h1 m hm hR hC
  have fb := C37_frame rnd z (some g1) m hm
  rw [eb] at fb
  obtain ⟨c, ec, lc⟩ := h2 b fb.1 (fb.2.1.trans hR) (fb.2.2.1.trans hC)
  refine ⟨a, b, c, ea, eb, ec, fun i j hi hj => ?_⟩
  have := la i j hi hj
  have := lb i j hi hj
  have := lc i j hi hj
  tauto

theorem cut_gain {L A B B1 B2 : Prop} : (¬ L ∧ ((A ∧ B1) ∨ (A ∧ B2)) ∧ ¬ (A ∧ B)) ↔ ¬ L ∧ A ∧ (B1 ∨ B2) ∧ ¬ B := by tauto
theorem cut_loss {L A B B1 B2 : Prop} : (¬ L ∧ (A ∧ B) ∧ ¬ ((A ∧ B1) ∨ (A ∧ B2))) ↔ ¬ L ∧ A ∧ B ∧ ¬ (B1 ∨ B2) := by tauto
theorem cut_gain' {L A B B1 B2 : Prop} : (¬ L ∧ ((B1 ∧ A) ∨ (B2 ∧ A)) ∧ ¬ (B ∧ A)) ↔ ¬ L ∧ A ∧ (B1 ∨ B2) ∧ ¬ B := by tauto
theorem cut_loss' {L A B B1 B2 : Prop} : (¬ L ∧ (B ∧ A) ∧ ¬ ((B1 ∧ A) ∨ (B2 ∧ A))) ↔ ¬ L ∧ A ∧ B ∧ ¬ (B1 ∨ B2) := by tauto

theorem cut_same {a c L A G S : Prop} (h1 : (c ∧ ¬ a) ↔ ¬ L ∧ A ∧ G) (h2 : (a ∧ ¬ c) ↔ ¬ L ∧ A ∧ S) (ng : ¬ G) (ns : ¬ S) : a ↔ c := by
  tauto

section
variable {ws : Workspace} {R C : Nat}

theorem colOf_mono (hw : 0 < wsW ws) (hC : 0 < C) {x y : Int} (h : x ≤ y) : colOf ws C x ≤ colOf ws C y := by
  unfold colOf
  apply div_le_div_of_nonneg_right _ (by positivity)
  exact_mod_cast Int.sub_le_sub_right h _

theorem rowOf_mono (hw : 0 < wsH ws) (hR : 0 < R) {x y : Int} (h : y ≤ x) : rowOf ws R x ≤ rowOf ws R y := by
  unfold rowOf
  apply div_le_div_of_nonneg_right _ (by positivity)
  exact_mod_cast Int.sub_le_sub_left h _
end

/-- **C87** A rectangle cut by a vertical line at `X` (in exact arithmetic): drawing the whole and drawing the left and then the right part
always return normally, and the cells by which the two bitmaps differ are those of the rectangle's rows in the column that `Gains` (drawn
only for the parts) or `Loses` (drawn only for the whole) names. -/
theorem C87_cut (z : Zond) (ws : Workspace) (R C : Nat) (ep : ℚ) (hs : SetUp id z ws R C ep)
    (hep : 0 ≤ ep) (hex : ep * ((wsW ws : ℚ) / C) < 1 / 2) (hey : ep * ((wsH ws : ℚ) / R) < 1 / 2)
    (g g1 g2 : Geometry) (lt rb : Coord) (X : Int) (hg : RectGeom g lt rb) (hg1 : RectGeom g1 lt ⟨X, rb.y⟩)
    (hg2 : RectGeom g2 ⟨X, lt.y⟩ rb) (hf : DiffsFit ws lt rb)
    (hx0 : ws.leftTop.x ≤ lt.x) (hX0 : lt.x ≤ X) (hX1 : X ≤ rb.x) (hy0 : lt.y ≤ ws.leftTop.y) (hy1 : rb.y ≤ lt.y)
    (hx2 : colOf ws C rb.x < 2147483648) (hy2 : rowOf ws R rb.y < 2147483648)
    (m : BitMatrix) (hm : Built m) (hR : m.isize = R) (hC : m.jsize = C) :
    ∃ m1 ml m2, zondGeometry id z (some g) m = .ok () m1 ∧
      zondGeometry id z (some g1) m = .ok () ml ∧ zondGeometry id z (some g2) ml = .ok () m2 ∧
      ∀ i j, i < R → j < C →
        ((Lit m2 i j ∧ ¬ Lit m1 i j) ↔ ¬ Lit m i j ∧
          AxisCell (rowOf ws R lt.y) (rowOf ws R rb.y) (ep * ((wsH ws : ℚ) / R)) R i ∧
          Gains (colOf ws C lt.x) (colOf ws C X) (colOf ws C rb.x) (ep * ((wsW ws : ℚ) / C)) C j) ∧
        ((Lit m1 i j ∧ ¬ Lit m2 i j) ↔ ¬ Lit m i j ∧
          AxisCell (rowOf ws R lt.y) (rowOf ws R rb.y) (ep * ((wsH ws : ℚ) / R)) R i ∧
          Loses (colOf ws C lt.x) (colOf ws C X) (colOf ws C rb.x) j) := by
  obtain ⟨f1, f2, f3, f4⟩ := hf
  unfold inI32 at f1 f2 f3 f4
  have mX0 := colOf_mono hs.wpos hs.cpos hX0
  have mX1 := colOf_mono hs.wpos hs.cpos hX1
  have tp : 0 ≤ ep * ((wsW ws : ℚ) / C) := by
    have := hs.wpos
    positivity
  have a0 : Adds id z g R C _ := fun m hm hR hC =>
    C39_exact_cells z ws R C ep hs hep hex hey g lt rb hg ⟨f1, f2, f3, f4⟩ hx0 (by omega) hy0 hy1 hx2 hy2 m hm hR hC
  have a1 : Adds id z g1 R C _ := fun m hm hR hC =>
    C39_exact_cells z ws R C ep hs hep hex hey g1 lt ⟨X, rb.y⟩ hg1
      ⟨f1, by unfold inI32; dsimp only; omega, f3, f4⟩ hx0 hX0 hy0 hy1 (by dsimp only; linarith) hy2 m hm hR hC
  have a2 : Adds id z g2 R C _ := fun m hm hR hC =>
    C39_exact_cells z ws R C ep hs hep hex hey g2 ⟨X, lt.y⟩ rb hg2
      ⟨by unfold inI32; dsimp only; omega, f2, f3, f4⟩ (by dsimp only; omega) hX1 hy0 hy1 hx2 hy2 m hm hR hC
  obtain ⟨a, b, c, ea, eb, ec, h⟩ := adds_two a0 a1 a2 m hm hR hC
  refine ⟨a, b, c, ea, eb, ec, fun i j hi hj => ?_⟩
  obtain ⟨h1, h2⟩ := h i j hi hj
  rw [h1, h2, ← axis_gains mX0 mX1 tp hj, ← axis_loses mX0 mX1 tp hex hj]
  exact ⟨cut_gain, cut_loss⟩

/-- **C87** The same for a horizontal line at `Y`: the upper and then the lower part. -/
theorem C87_cut_rows (z : Zond) (ws : Workspace) (R C : Nat) (ep : ℚ) (hs : SetUp id z ws R C ep)
    (hep : 0 ≤ ep) (hex : ep * ((wsW ws : ℚ) / C) < 1 / 2) (hey : ep * ((wsH ws : ℚ) / R) < 1 / 2)
    (g g1 g2 : Geometry) (lt rb : Coord) (Y : Int) (hg : RectGeom g lt rb) (hg1 : RectGeom g1 lt ⟨rb.x, Y⟩)
    (hg2 : RectGeom g2 ⟨lt.x, Y⟩ rb) (hf : DiffsFit ws lt rb)
    (hx0 : ws.leftTop.x ≤ lt.x) (hx1 : lt.x ≤ rb.x) (hy0 : lt.y ≤ ws.leftTop.y) (hY0 : Y ≤ lt.y) (hY1 : rb.y ≤ Y)
    (hx2 : colOf ws C rb.x < 2147483648) (hy2 : rowOf ws R rb.y < 2147483648)
    (m : BitMatrix) (hm : Built m) (hR : m.isize = R) (hC : m.jsize = C) :
    ∃ m1 mu m2, zondGeometry id z (some g) m = .ok () m1 ∧
      zondGeometry id z (some g1) m = .ok () mu ∧ zondGeometry id z (some g2) mu = .ok () m2 ∧
      ∀ i j, i < R → j < C →
        ((Lit m2 i j ∧ ¬ Lit m1 i j) ↔ ¬ Lit m i j ∧
          AxisCell (colOf ws C lt.x) (colOf ws C rb.x) (ep * ((wsW ws : ℚ) / C)) C j ∧
          Gains (rowOf ws R lt.y) (rowOf ws R Y) (rowOf ws R rb.y) (ep * ((wsH ws : ℚ) / R)) R i) ∧
        ((Lit m1 i j ∧ ¬ Lit m2 i j) ↔ ¬ Lit m i j ∧
          AxisCell (colOf ws C lt.x) (colOf ws C rb.x) (ep * ((wsW ws : ℚ) / C)) C j ∧
          Loses (rowOf ws R lt.y) (rowOf ws R Y) (rowOf ws R rb.y) i) := by
  obtain ⟨f1, f2, f3, f4⟩ := hf
  unfold inI32 at f1 f2 f3 f4
  have mY0 := rowOf_mono hs.hpos hs.rpos hY0
  have mY1 := rowOf_mono hs.hpos hs.rpos hY1
  have tp : 0 ≤ ep * ((wsH ws : ℚ) / R) := by
    have := hs.hpos
    positivity
  have a0 : Adds id z g R C _ := fun m hm hR hC =>
    C39_exact_cells z ws R C ep hs hep hex hey g lt rb hg ⟨f1, f2, f3, f4⟩ hx0 hx1 hy0 (by omega) hx2 hy2 m hm hR hC
  have a1 : Adds id z g1 R C _ := fun m hm hR hC =>
    C39_exact_cells z ws R C ep hs hep hex hey g1 lt ⟨rb.x, Y⟩ hg1
      ⟨f1, f2, f3, by unfold inI32; dsimp only; omega⟩ hx0 hx1 hy0 hY0 hx2 (by dsimp only; linarith) m hm hR hC
  have a2 : Adds id z g2 R C _ := fun m hm hR hC =>
    C39_exact_cells z ws R C ep hs hep hex hey g2 ⟨lt.x, Y⟩ rb hg2
      ⟨f1, f2, by unfold inI32; dsimp only; omega, f4⟩ hx0 hx1 (by dsimp only; omega) hY1 hx2 hy2 m hm hR hC
  obtain ⟨a, b, c, ea, eb, ec, h⟩ := adds_two a0 a1 a2 m hm hR hC
  refine ⟨a, b, c, ea, eb, ec, fun i j hi hj => ?_⟩
  obtain ⟨h1, h2⟩ := h i j hi hj
  rw [h1, h2, ← axis_gains mY0 mY1 tp hi, ← axis_loses mY0 mY1 tp hey hi]
  exact ⟨cut_gain', cut_loss'⟩

/-- **C87** If the right part is at least one cell wide, the whole and the two parts give the same bitmap. -/
theorem C87_same (z : Zond) (ws : Workspace) (R C : Nat) (ep : ℚ) (hs : SetUp id z ws R C ep)
    (hep : 0 ≤ ep) (hex : ep * ((wsW ws : ℚ) / C) < 1 / 2) (hey : ep * ((wsH ws : ℚ) / R) < 1 / 2)
    (g g1 g2 : Geometry) (lt rb : Coord) (X : Int) (hg : RectGeom g lt rb) (hg1 : RectGeom g1 lt ⟨X, rb.y⟩)
    (hg2 : RectGeom g2 ⟨X, lt.y⟩ rb) (hf : DiffsFit ws lt rb)
    (hx0 : ws.leftTop.x ≤ lt.x) (hX0 : lt.x ≤ X) (hX1 : (wsW ws : ℚ) / C ≤ rb.x - X) (hy0 : lt.y ≤ ws.leftTop.y) (hy1 : rb.y ≤ lt.y)
    (hx2 : colOf ws C rb.x < 2147483648) (hy2 : rowOf ws R rb.y < 2147483648)
    (m : BitMatrix) (hm : Built m) (hR : m.isize = R) (hC : m.jsize = C) :
    ∃ m1 ml, zondGeometry id z (some g) m = .ok () m1 ∧
      zondGeometry id z (some g1) m = .ok () ml ∧ zondGeometry id z (some g2) ml = .ok () m1 := by
  have hw := hs.wpos
  have hc := hs.cpos
  have pdx : 0 < (wsW ws : ℚ) / C := by positivity
  have hXr : X ≤ rb.x := by
    have : (X : ℚ) ≤ rb.x := by linarith
    exact_mod_cast this
  obtain ⟨m1, ml, m2, e1, el, e2, h⟩ := C87_cut z ws R C ep hs hep hex hey g g1 g2 lt rb X hg hg1 hg2 hf hx0 hX0 hXr hy0 hy1 hx2 hy2
    m hm hR hC
  have wide : colOf ws C X + 1 ≤ colOf ws C rb.x := by
    unfold colOf
    rw [← div_self pdx.ne', ← add_div]
    apply div_le_div_of_nonneg_right _ pdx.le
    push_cast
    linarith
  have : m1 = m2 := by
    refine same_of_lit_two hm e1 el e2 fun i j hi hj => ?_
    rw [hR] at hi; rw [hC] at hj
    obtain ⟨h1, h2⟩ := h i j hi hj
    have ng : ¬ Gains (colOf ws C lt.x) (colOf ws C X) (colOf ws C rb.x) (ep * ((wsW ws : ℚ) / C)) C j := by
      rintro ⟨_, ⟨k1, k2⟩, ⟨k3, k4⟩, _⟩
      have : 0 ≤ ep * ((wsW ws : ℚ) / C) := by positivity
      linarith
    have nl : ¬ Loses (colOf ws C lt.x) (colOf ws C X) (colOf ws C rb.x) j := by
      rintro ⟨_, ⟨k1, k2⟩, ⟨k3, k4⟩⟩
      linarith
    exact cut_same h1 h2 ng nl
  subst this
  exact ⟨m1, ml, e1, el, e2⟩

/-- **C87** If the lower part is at least one cell high, the whole and the two parts give the same bitmap. -/
theorem C87_same_rows (z : Zond) (ws : Workspace) (R C : Nat) (ep : ℚ) (hs : SetUp id z ws R C ep)
    (hep : 0 ≤ ep) (hex : ep * ((wsW ws : ℚ) / C) < 1 / 2) (hey : ep * ((wsH ws : ℚ) / R) < 1 / 2)
    (g g1 g2 : Geometry) (lt rb : Coord) (Y : Int) (hg : RectGeom g lt rb) (hg1 : RectGeom g1 lt ⟨rb.x, Y⟩)
    (hg2 : RectGeom g2 ⟨lt.x, Y⟩ rb) (hf : DiffsFit ws lt rb)
    (hx0 : ws.leftTop.x ≤ lt.x) (hx1 : lt.x ≤ rb.x) (hy0 : lt.y ≤ ws.leftTop.y) (hY0 : Y ≤ lt.y) (hY1 : (wsH ws : ℚ) / R ≤ Y - rb.y)
    (hx2 : colOf ws C rb.x < 2147483648) (hy2 : rowOf ws R rb.y < 2147483648)
    (m : BitMatrix) (hm : Built m) (hR : m.isize = R) (hC : m.jsize = C) :
    ∃ m1 mu, zondGeometry id z (some g) m = .ok () m1 ∧
      zondGeometry id z (some g1) m = .ok () mu ∧ zondGeometry id z (some g2) mu = .ok () m1 := by
  have hw := hs.hpos
  have hc := hs.rpos
  have pdy : 0 < (wsH ws : ℚ) / R := by positivity
  have hYr : rb.y ≤ Y := by
    have : (rb.y : ℚ) ≤ Y := by linarith
    exact_mod_cast this
  obtain ⟨m1, ml, m2, e1, el, e2, h⟩ := C87_cut_rows z ws R C ep hs hep hex hey g g1 g2 lt rb Y hg hg1 hg2 hf hx0 hx1 hy0 hY0 hYr hx2 hy2
    m hm hR hC
  have wide : rowOf ws R Y + 1 ≤ rowOf ws R rb.y := by
    unfold rowOf
    rw [← div_self pdy.ne', ← add_div]
    apply div_le_div_of_nonneg_right _ pdy.le
    push_cast
    linarith
  have : m1 = m2 := by
    refine same_of_lit_two hm e1 el e2 fun i j hi hj => ?_
    rw [hR] at hi; rw [hC] at hj
    obtain ⟨h1, h2⟩ := h i j hi hj
    have ng : ¬ Gains (rowOf ws R lt.y) (rowOf ws R Y) (rowOf ws R rb.y) (ep * ((wsH ws : ℚ) / R)) R i := by
      rintro ⟨_, ⟨k1, k2⟩, ⟨k3, k4⟩, _⟩
      have : 0 ≤ ep * ((wsH ws : ℚ) / R) := by positivity
      linarith
    have nl : ¬ Loses (rowOf ws R lt.y) (rowOf ws R Y) (rowOf ws R rb.y) i := by
      rintro ⟨_, ⟨k1, k2⟩, ⟨k3, k4⟩⟩
      linarith
    exact cut_same h1 h2 ng nl
  subst this
  exact ⟨m1, ml, e1, el, e2⟩

/-- **C87** In `double` arithmetic (cells not smaller than 1/256 of a unit, sides and the cut clear of the lines of the grid): the same
exact list of differences, with no tolerance. -/
theorem C87_cut_double (rnd : ℚ → ℚ) (hr : Rounding rnd) (z : Zond) (ws : Workspace) (R C : Nat) (ep : ℚ)
    (hs : SetUp rnd z ws R C ep) (he0 : 0 ≤ ep) (he1 : ep ≤ 2 / 10 ^ 13)
    (hC2 : (C : ℤ) ≤ 256 * wsW ws) (hR2 : (R : ℤ) ≤ 256 * wsH ws)
    (hws : inI32 ws.leftTop.x ∧ inI32 ws.leftTop.y ∧ inI32 ws.rightBot.x ∧ inI32 ws.rightBot.y)
    (g g1 g2 : Geometry) (lt rb : Coord) (X : Int) (hg : RectGeom g lt rb) (hg1 : RectGeom g1 lt ⟨X, rb.y⟩)
    (hg2 : RectGeom g2 ⟨X, lt.y⟩ rb) (hrect : inI32 lt.x ∧ inI32 lt.y ∧ inI32 rb.x ∧ inI32 rb.y) (hf : DiffsFit ws lt rb)
    (hx0 : ws.leftTop.x ≤ lt.x) (hX0 : lt.x ≤ X) (hX1 : X ≤ rb.x) (hy0 : lt.y ≤ ws.leftTop.y) (hy1 : rb.y ≤ lt.y)
    (hx2 : colOf ws C rb.x ≤ 1073741824) (hy2 : rowOf ws R rb.y ≤ 1073741824)
    (hcl : SidesClear ws R C lt rb) (hXc : OffLines (colOf ws C X))
    (m : BitMatrix) (hm : Built m) (hR : m.isize = R) (hC : m.jsize = C) :
    ∃ m1 ml m2, zondGeometry rnd z (some g) m = .ok () m1 ∧
      zondGeometry rnd z (some g1) m = .ok () ml ∧ zondGeometry rnd z (some g2) ml = .ok () m2 ∧
      (∀ i j, i < R → j < C →
        ((Lit m2 i j ∧ ¬ Lit m1 i j) ↔ ¬ Lit m i j ∧
          AxisCell (rowOf ws R lt.y) (rowOf ws R rb.y) 0 R i ∧
          Gains (colOf ws C lt.x) (colOf ws C X) (colOf ws C rb.x) 0 C j) ∧
        ((Lit m1 i j ∧ ¬ Lit m2 i j) ↔ ¬ Lit m i j ∧
          AxisCell (rowOf ws R lt.y) (rowOf ws R rb.y) 0 R i ∧
          Loses (colOf ws C lt.x) (colOf ws C X) (colOf ws C rb.x) j)) ∧
      ((wsW ws : ℚ) / C ≤ rb.x - X → m1 = m2) := by
  obtain ⟨f1, f2, f3, f4⟩ := hf
  obtain ⟨r1, r2, r3, r4⟩ := hrect
  obtain ⟨s1, s2, s3, s4⟩ := hcl
  unfold inI32 at f1 f2 f3 f4 r1 r3
  have hw := hs.wpos
  have hcp := hs.cpos
  have pdx : 0 < (wsW ws : ℚ) / C := by positivity
  have mX0 := colOf_mono hs.wpos hs.cpos hX0
  have mX1 := colOf_mono hs.wpos hs.cpos hX1
  have iX : inI32 X := by unfold inI32; omega
  have a0 : Adds rnd z g R C _ := fun m hm hR hC =>
    C39_exact_cells_double rnd hr z ws R C ep hs he0 he1 hC2 hR2 hws g lt rb hg ⟨r1, r2, r3, r4⟩ ⟨f1, f2, f3, f4⟩ hx0 (by omega) hy0 hy1
      hx2 hy2 ⟨s1, s2, s3, s4⟩ m hm hR hC
  have a1 : Adds rnd z g1 R C _ := fun m hm hR hC =>
    C39_exact_cells_double rnd hr z ws R C ep hs he0 he1 hC2 hR2 hws g1 lt ⟨X, rb.y⟩ hg1 ⟨r1, r2, iX, r4⟩
      ⟨f1, by unfold inI32; dsimp only; omega, f3, f4⟩ hx0 hX0 hy0 hy1 (by dsimp only; linarith) hy2 ⟨s1, s2, Or.inr hXc, s4⟩ m hm hR hC
  have a2 : Adds rnd z g2 R C _ := fun m hm hR hC =>
    C39_exact_cells_double rnd hr z ws R C ep hs he0 he1 hC2 hR2 hws g2 ⟨X, lt.y⟩ rb hg2 ⟨iX, r2, r3, r4⟩
      ⟨by unfold inI32; dsimp only; omega, f2, f3, f4⟩ (by dsimp only; omega) hX1 hy0 hy1 hx2 hy2 ⟨Or.inr hXc, s2, s3, s4⟩ m hm hR hC
  obtain ⟨a, b, c, ea, eb, ec, h⟩ := adds_two a0 a1 a2 m hm hR hC
  have h' : ∀ i j, i < R → j < C →
      ((Lit c i j ∧ ¬ Lit a i j) ↔ ¬ Lit m i j ∧ AxisCell (rowOf ws R lt.y) (rowOf ws R rb.y) 0 R i ∧
        Gains (colOf ws C lt.x) (colOf ws C X) (colOf ws C rb.x) 0 C j) ∧
      ((Lit a i j ∧ ¬ Lit c i j) ↔ ¬ Lit m i j ∧ AxisCell (rowOf ws R lt.y) (rowOf ws R rb.y) 0 R i ∧
        Loses (colOf ws C lt.x) (colOf ws C X) (colOf ws C rb.x) j) := by
    intro i j hi hj
    obtain ⟨h1, h2⟩ := h i j hi hj
    rw [h1, h2, ← axis_gains mX0 mX1 le_rfl hj, ← axis_loses (t := 0) mX0 mX1 le_rfl (by norm_num) hj]
    exact ⟨cut_gain, cut_loss⟩
  refine ⟨a, b, c, ea, eb, ec, h', fun hwide => same_of_lit_two hm ea eb ec fun i j hi hj => ?_⟩
  rw [hR] at hi; rw [hC] at hj
  have wide : colOf ws C X + 1 ≤ colOf ws C rb.x := by
    unfold colOf
    rw [← div_self pdx.ne', ← add_div]
    apply div_le_div_of_nonneg_right _ pdx.le
    push_cast
    linarith
  obtain ⟨h1, h2⟩ := h' i j hi hj
  have ng : ¬ Gains (colOf ws C lt.x) (colOf ws C X) (colOf ws C rb.x) 0 C j := by
    rintro ⟨_, ⟨k1, k2⟩, ⟨k3, k4⟩, _⟩
    linarith
  have nl : ¬ Loses (colOf ws C lt.x) (colOf ws C X) (colOf ws C rb.x) j := by
    rintro ⟨_, ⟨k1, k2⟩, ⟨k3, k4⟩⟩
    linarith
  exact cut_same h1 h2 ng nl

/-- **C87** … and for a horizontal cut in `double` arithmetic. -/
theorem C87_cut_rows_double (rnd : ℚ → ℚ) (hr : Rounding rnd) (z : Zond) (ws : Workspace) (R C : Nat) (ep : ℚ)
    (hs : SetUp rnd z ws R C ep) (he0 : 0 ≤ ep) (he1 : ep ≤ 2 / 10 ^ 13)
    (hC2 : (C : ℤ) ≤ 256 * wsW ws) (hR2 : (R : ℤ) ≤ 256 * wsH ws)
    (hws : inI32 ws.leftTop.x ∧ inI32 ws.leftTop.y ∧ inI32 ws.rightBot.x ∧ inI32 ws.rightBot.y)
    (g g1 g2 : Geometry) (lt rb : Coord) (Y : Int) (hg : RectGeom g lt rb) (hg1 : RectGeom g1 lt ⟨rb.x, Y⟩)
    (hg2 : RectGeom g2 ⟨lt.x, Y⟩ rb) (hrect : inI32 lt.x ∧ inI32 lt.y ∧ inI32 rb.x ∧ inI32 rb.y) (hf : DiffsFit ws lt rb)
    (hx0 : ws.leftTop.x ≤ lt.x) (hx1 : lt.x ≤ rb.x) (hy0 : lt.y ≤ ws.leftTop.y) (hY0 : Y ≤ lt.y) (hY1 : rb.y ≤ Y)
    (hx2 : colOf ws C rb.x ≤ 1073741824) (hy2 : rowOf ws R rb.y ≤ 1073741824)
    (hcl : SidesClear ws R C lt rb) (hYc : OffLines (rowOf ws R Y))
    (m : BitMatrix) (hm : Built m) (hR : m.isize = R) (hC : m.jsize = C) :
    ∃ m1 mu m2, zondGeometry rnd z (some g) m = .ok () m1 ∧
      zondGeometry rnd z (some g1) m = .ok () mu ∧ zondGeometry rnd z (some g2) mu = .ok () m2 ∧
      (∀ i j, i < R → j < C →
        ((Lit m2 i j ∧ ¬ Lit m1 i j) ↔ ¬ Lit m i j ∧
          AxisCell (colOf ws C lt.x) (colOf ws C rb.x) 0 C j ∧
          Gains (rowOf ws R lt.y) (rowOf ws R Y) (rowOf ws R rb.y) 0 R i) ∧
        ((Lit m1 i j ∧ ¬ Lit m2 i j) ↔ ¬ Lit m i j ∧
          AxisCell (colOf ws C lt.x) (colOf ws C rb.x) 0 C j ∧
          Loses (rowOf ws R lt.y) (rowOf ws R Y) (rowOf ws R rb.y) i)) ∧
      ((wsH ws : ℚ) / R ≤ Y - rb.y → m1 = m2) := by
  obtain ⟨f1, f2, f3, f4⟩ := hf
  obtain ⟨r1, r2, r3, r4⟩ := hrect
  obtain ⟨s1, s2, s3, s4⟩ := hcl
  unfold inI32 at f1 f2 f3 f4 r2 r4
  have hh := hs.hpos
  have hrp := hs.rpos
  have pdy : 0 < (wsH ws : ℚ) / R := by positivity
  have mY0 := rowOf_mono hs.hpos hs.rpos hY0
  have mY1 := rowOf_mono hs.hpos hs.rpos hY1
  have iY : inI32 Y := by unfold inI32; omega
  have a0 : Adds rnd z g R C _ := fun m hm hR hC =>
    C39_exact_cells_double rnd hr z ws R C ep hs he0 he1 hC2 hR2 hws g lt rb hg ⟨r1, r2, r3, r4⟩ ⟨f1, f2, f3, f4⟩ hx0 hx1 hy0 (by omega)
      hx2 hy2 ⟨s1, s2, s3, s4⟩ m hm hR hC
  have a1 : Adds rnd z g1 R C _ := fun m hm hR hC =>
    C39_exact_cells_double rnd hr z ws R C ep hs he0 he1 hC2 hR2 hws g1 lt ⟨rb.x, Y⟩ hg1 ⟨r1, r2, r3, iY⟩
      ⟨f1, f2, f3, by unfold inI32; dsimp only; omega⟩ hx0 hx1 hy0 hY0 hx2 (by dsimp only; linarith) ⟨s1, s2, s3, Or.inr hYc⟩ m hm hR hC
  have a2 : Adds rnd z g2 R C _ := fun m hm hR hC =>
    C39_exact_cells_double rnd hr z ws R C ep hs he0 he1 hC2 hR2 hws g2 ⟨lt.x, Y⟩ rb hg2 ⟨r1, iY, r3, r4⟩
      ⟨f1, f2, by unfold inI32; dsimp only; omega, f4⟩ hx0 hx1 (by dsimp only; omega) hY1 hx2 hy2 ⟨s1, Or.inr hYc, s3, s4⟩ m hm hR hC
  obtain ⟨a, b, c, ea, eb, ec, h⟩ := adds_two a0 a1 a2 m hm hR hC
  have h' : ∀ i j, i < R → j < C →
      ((Lit c i j ∧ ¬ Lit a i j) ↔ ¬ Lit m i j ∧ AxisCell (colOf ws C lt.x) (colOf ws C rb.x) 0 C j ∧
        Gains (rowOf ws R lt.y) (rowOf ws R Y) (rowOf ws R rb.y) 0 R i) ∧
      ((Lit a i j ∧ ¬ Lit c i j) ↔ ¬ Lit m i j ∧ AxisCell (colOf ws C lt.x) (colOf ws C rb.x) 0 C j ∧
        Loses (rowOf ws R lt.y) (rowOf ws R Y) (rowOf ws R rb.y) i) := by
    intro i j hi hj
    obtain ⟨h1, h2⟩ := h i j hi hj
    rw [h1, h2, ← axis_gains mY0 mY1 le_rfl hi, ← axis_loses (t := 0) mY0 mY1 le_rfl (by norm_num) hi]
    exact ⟨cut_gain', cut_loss'⟩
  refine ⟨a, b, c, ea, eb, ec, h', fun hwide => same_of_lit_two hm ea eb ec fun i j hi hj => ?_⟩
  rw [hR] at hi; rw [hC] at hj
  have wide : rowOf ws R Y + 1 ≤ rowOf ws R rb.y := by
    unfold rowOf
    rw [← div_self pdy.ne', ← add_div]
    apply div_le_div_of_nonneg_right _ pdy.le
    push_cast
    linarith
  obtain ⟨h1, h2⟩ := h' i j hi hj
  have ng : ¬ Gains (rowOf ws R lt.y) (rowOf ws R Y) (rowOf ws R rb.y) 0 R i := by
    rintro ⟨_, ⟨k1, k2⟩, ⟨k3, k4⟩, _⟩
    linarith
  have nl : ¬ Loses (rowOf ws R lt.y) (rowOf ws R Y) (rowOf ws R rb.y) i := by
    rintro ⟨_, ⟨k1, k2⟩, ⟨k3, k4⟩⟩
    linarith
  exact cut_same h1 h2 ng nl

/-! ### Concrete cases: the 10 × 10 grid of 10 × 10 cells -/

/-- `10..52` cut at 47: column 5 is drawn only for the parts -/
example : Gains (colOf exWs 10 10) (colOf exWs 10 47) (colOf exWs 10 52) 0 10 5 := by
  unfold Gains colOf wsW exWs; norm_num

/-- `10..47` cut at 42: column 5 is drawn only for the whole -/
example : Loses (colOf exWs 10 10) (colOf exWs 10 42) (colOf exWs 10 47) 5 := by
  unfold Loses colOf wsW exWs; norm_num

/-- so in `double` arithmetic the bitmaps differ: the parts of `10..52` light a cell that the whole does not -/
example : ∃ m1 ml m2, zondGeometry rne (exZond rne) (some (exRect 10 80 52 60)) (BitMatrix.new Alloc.ok 10 10) = .ok () m1 ∧
    zondGeometry rne (exZond rne) (some (exRect 10 80 47 60)) (BitMatrix.new Alloc.ok 10 10) = .ok () ml ∧
    zondGeometry rne (exZond rne) (some (exRect 47 80 52 60)) ml = .ok () m2 ∧ Lit m2 3 5 ∧ ¬ Lit m1 3 5 := by
  have key : (match zondGeometry rne (exZond rne) (some (exRect 10 80 52 60)) (BitMatrix.new Alloc.ok 10 10),
      zondGeometry rne (exZond rne) (some (exRect 10 80 47 60)) (BitMatrix.new Alloc.ok 10 10) with
      | .ok () m1, .ok () ml =>
        (match zondGeometry rne (exZond rne) (some (exRect 47 80 52 60)) ml with
          | .ok () m2 => decide (BitMatrix.get m2 3 5 = .ok true ∧ BitMatrix.get m1 3 5 ≠ .ok true)
          | _ => false)
      | _, _ => false) = true := by decide +kernel
  split at key
  · rename_i m1 ml h1 h2
    split at key
    · rename_i m2 h3
      exact ⟨m1, ml, m2, h1, h2, h3, (of_decide_eq_true key).1, (of_decide_eq_true key).2⟩
    · cases key
  · cases key

/-- `20..57` cut at 33: the right part is 2.4 cells wide, the bitmaps agree -/
example : ∃ m1 ml, zondGeometry id (exZond id) (some (exRect 20 80 57 60)) (BitMatrix.new Alloc.ok 10 10) = .ok () m1 ∧
    zondGeometry id (exZond id) (some (exRect 20 80 33 60)) (BitMatrix.new Alloc.ok 10 10) = .ok () ml ∧
    zondGeometry id (exZond id) (some (exRect 33 80 57 60)) ml = .ok () m1 :=
  C87_same (exZond id) exWs 10 10 _ (exSetUp id) (by norm_num) (by unfold wsW exWs; norm_num)
    (by unfold wsH exWs; norm_num) (exRect 20 80 57 60) (exRect 20 80 33 60) (exRect 33 80 57 60) ⟨20, 80⟩ ⟨57, 60⟩ 33 ⟨rfl, _, _, rfl⟩
    ⟨rfl, _, _, rfl⟩ ⟨rfl, _, _, rfl⟩ (by unfold DiffsFit inI32; decide) (by decide) (by decide) (by unfold wsW exWs; norm_num) (by decide)
    (by decide) (by unfold colOf wsW exWs; norm_num) (by unfold rowOf wsH exWs; norm_num) _ (.new 10 10 (by norm_num) (by norm_num))
    rfl rfl

/-- the hypotheses of the `double` theorem, for `23..57 × 81..63` cut at 37 -/
example : SidesClear exWs 10 10 ⟨23, 81⟩ ⟨57, 63⟩ ∧ OffLines (colOf exWs 10 37) ∧ ((10 : Nat) : ℤ) ≤ 256 * wsW exWs := by
  refine ⟨⟨Or.inr (off_mk 4 ?_ ?_), Or.inr (off_mk 3 ?_ ?_), Or.inr (off_mk 11 ?_ ?_), Or.inr (off_mk 7 ?_ ?_)⟩, off_mk 7 ?_ ?_, by decide⟩ <;>
    simp only [colOf, rowOf, wsW, wsH, exWs] <;> norm_num

end Verif.Props
