import Verif.Proofs.ZondRect
import Verif.Spec.Transposed

/-! The rasteriser treats rows and columns alike. -/

namespace Verif.Zond
open Verif BitMatrix Spec

theorem flipPt_flipPt (c : Coord) : flipPt (flipPt c) = c := by
  simp [flipPt]

theorem flipGeom_flipGeom (g : Geometry) : flipGeom (flipGeom g) = g := by
  have h : flipPt ∘ flipPt = id := funext flipPt_flipPt
  simp [flipGeom, flipPt_flipPt, h]

theorem flipZond_flipZond (z : Zond) : flipZond (flipZond z) = z := by
  cases z
  simp [flipZond, flipWs, flipPt_flipPt]

theorem sub32_neg (a b : Int) : sub32 (-a) (-b) = sub32 b a := by
  unfold sub32
  rw [show -a - -b = b - a by ring]

theorem raw_flip {rnd : ℚ → ℚ} {z : Zond} {lt rb : Coord} {a b c d : Fl} (h : rawIndicies rnd z lt rb = .ok (a, b, c, d)) :
    rawIndicies rnd (flipZond z) (flipPt lt) (flipPt rb) = .ok (c, d, a, b) := by
  unfold rawIndicies at h ⊢
  simp only [flipZond, flipWs, flipPt, sub32_neg]
  cases h1 : sub32 lt.x z.ws.leftTop.x with
  | throw => rw [h1] at h; simp at h
  | ub => rw [h1] at h; simp at h
  | ok a' =>
    cases h2 : sub32 rb.x z.ws.leftTop.x with
    | throw => rw [h1, h2] at h; simp at h
    | ub => rw [h1, h2] at h; simp at h
    | ok b' =>
      cases h3 : sub32 z.ws.leftTop.y lt.y with
      | throw => rw [h1, h2, h3] at h; simp at h
      | ub => rw [h1, h2, h3] at h; simp at h
      | ok c' =>
        cases h4 : sub32 z.ws.leftTop.y rb.y with
        | throw => rw [h1, h2, h3, h4] at h; simp at h
        | ub => rw [h1, h2, h3, h4] at h; simp at h
        | ok d' =>
          rw [h1, h2, h3, h4] at h
          simp only [Res.ok_bind, Res.pure_eq, Res.ok.injEq, Prod.mk.injEq] at h ⊢
          obtain ⟨q1, q2, q3, q4⟩ := h
          exact ⟨q3, q4, q1, q2⟩

theorem covers_flip {rnd : ℚ → ℚ} (hneg : ∀ q, rnd (-q) = -rnd q) {z : Zond} {dx dy ep : ℚ} (hx : z.dx = .fin dx) (hy : z.dy = .fin dy)
    (he : z.eps = .fin ep) (lt rb : Coord) : coversAll rnd (flipZond z) (flipPt lt) (flipPt rb) = coversAll rnd z lt rb := by
  have k1 : ∀ (a b e t : ℚ), (-a ≤ rnd (rnd (-b + e) - t) ↔ rnd (rnd (b - e) + t) ≤ a) := by
    intro a b e t
    rw [show -b + e = -(b - e) by ring, hneg, show -rnd (b - e) - t = -(rnd (b - e) + t) by ring, hneg]
    constructor <;> intro h <;> linarith
  have k2 : ∀ (a b e t : ℚ), (rnd (rnd (-b - e) + t) ≤ -a ↔ a ≤ rnd (rnd (b + e) - t)) := by
    intro a b e t
    rw [show -b - e = -(b + e) by ring, hneg, show -rnd (b + e) + t = -(rnd (b + e) - t) by ring, hneg]
    constructor <;> intro h <;> linarith
  rw [Bool.eq_iff_iff]
  simp only [coversAll, flipZond, flipWs, flipPt, hx, hy, he, Fl.ofInt, Fl.div, Fl.mul, Fl.sub, Fl.add, Fl.le,
    Bool.and_eq_true, decide_eq_true_eq, show (2 : ℚ) ≠ 0 by norm_num, if_false, Int.cast_neg, hneg, k1, k2]
  tauto

theorem norm_flip {rnd : ℚ → ℚ} {z : Zond} {a b c d : Fl} {n : Indicies} (h : normIndicies rnd z a b c d = .ok n) :
    normIndicies rnd (flipZond z) c d a b = .ok ⟨n.jBegin, n.jEnd, n.iBegin, n.iEnd⟩ := by
  unfold normIndicies at h ⊢
  simp only [flipZond]
  cases h1 : normPair rnd a b z.dy z.eps z.bound.iBegin z.bound.iEnd with
  | throw => rw [h1] at h; simp at h
  | ub => rw [h1] at h; simp at h
  | ok p =>
    cases h2 : normPair rnd c d z.dx z.eps z.bound.jBegin z.bound.jEnd with
    | throw => rw [h1, h2] at h; simp at h
    | ub => rw [h1, h2] at h; simp at h
    | ok q =>
      rw [h1, h2] at h
      simp only [Res.ok_bind, Res.pure_eq, Res.ok.injEq] at h ⊢
      subst h
      rfl

/-- the indices a successful call yields -/
theorem normPair_small {rnd : ℚ → ℚ} {b e delta eps : Fl} {b1 b2 : Nat} {p : Nat × Nat} (h : normPair rnd b e delta eps b1 b2 = .ok p) :
    (p.1 ≤ 2147483648 ∨ p.1 = b1) ∧ (p.2 ≤ 2147483648 ∨ p.2 = b2) := by
  have ub : (b.toI32 = .ub ∨ e.toI32 = .ub) → False := by
    intro hu
    unfold normPair at h
    dsimp only at h
    split at h
    · cases h
    split at h
    · cases h
    split at h
    · cases h
    rcases hu with hu | hu
    · cases he : e.toI32 <;> rw [hu, he] at h <;> simp at h
    · rw [hu] at h; simp at h
  cases b with
  | nan => exact (ub (.inl rfl)).elim
  | pinf => exact (ub (.inl rfl)).elim
  | ninf => exact (ub (.inl rfl)).elim
  | fin B =>
    cases e with
    | nan => exact (ub (.inr rfl)).elim
    | pinf => exact (ub (.inr rfl)).elim
    | ninf => exact (ub (.inr rfl)).elim
    | fin E =>
      by_cases hE : E < 2147483648
      · rcases normPair_cases (rnd := rnd) (B := B) (delta := delta) (eps := eps) (b1 := b1) (b2 := b2) hE with ht | ⟨_, _, _, f, s, e, r⟩
        · rw [ht] at h; cases h
        · rw [e] at h
          cases h
          exact r
      · refine (ub (.inr ?_)).elim
        rw [not_lt] at hE
        have h0 : (0 : ℚ) ≤ E := by linarith
        have hf : (2147483648 : ℤ) ≤ ⌊E⌋ := Int.le_floor.2 (by exact_mod_cast hE)
        have ht : Fl.truncQ E = ⌊E⌋ := by unfold Fl.truncQ; rw [if_pos h0]
        show (if -2147483648 ≤ Fl.truncQ E ∧ Fl.truncQ E ≤ 2147483647 then Res.ok (Fl.truncQ E) else Res.ub) = Res.ub
        rw [ht, if_neg]
        omega

theorem norm_small {rnd : ℚ → ℚ} {z : Zond} {a b c d : Fl} {n : Indicies} (h : normIndicies rnd z a b c d = .ok n) :
    (n.iBegin ≤ 2147483648 ∨ n.iBegin = z.bound.iBegin) ∧ (n.iEnd ≤ 2147483648 ∨ n.iEnd = z.bound.iEnd) ∧
    (n.jBegin ≤ 2147483648 ∨ n.jBegin = z.bound.jBegin) ∧ (n.jEnd ≤ 2147483648 ∨ n.jEnd = z.bound.jEnd) := by
  unfold normIndicies at h
  cases h1 : normPair rnd a b z.dy z.eps z.bound.iBegin z.bound.iEnd with
  | throw => rw [h1] at h; simp at h
  | ub => rw [h1] at h; simp at h
  | ok p =>
    cases h2 : normPair rnd c d z.dx z.eps z.bound.jBegin z.bound.jEnd with
    | throw => rw [h1, h2] at h; simp at h
    | ub => rw [h1, h2] at h; simp at h
    | ok q =>
      rw [h1, h2] at h
      simp only [Res.ok_bind, Res.pure_eq, Res.ok.injEq] at h
      subst h
      exact ⟨(normPair_small h1).1, (normPair_small h1).2, (normPair_small h2).1, (normPair_small h2).2⟩

/-- index bounds for which no loop counter overflows -/
def SmallBound (b : Indicies) : Prop := b.iBegin < 2147483647 ∧ b.iEnd < 2147483647 ∧ b.jBegin < 2147483647 ∧ b.jEnd < 2147483647

/-- a call that returns paints a set of cells; on the reflected input it paints the reflected set -/
theorem zond_flip {rnd : ℚ → ℚ} (hneg : ∀ q, rnd (-q) = -rnd q) {z : Zond} {dx dy ep : ℚ} (hx : z.dx = .fin dx) (hy : z.dy = .fin dy)
    (he : z.eps = .fin ep) (hb : SmallBound z.bound) (g : Geometry) (m m1 : BitMatrix)
    (h : zondGeometry rnd z (some g) m = .ok () m1) (R C : Nat) :
    ∃ P : Nat → Nat → Prop, Paints R C (zondGeometry rnd z (some g)) P ∧
      Paints C R (zondGeometry rnd (flipZond z) (some (flipGeom g))) (fun j i => P i j) := by
  obtain ⟨b1, b2, b3, b4⟩ := hb
  have ht : (flipGeom g).type = g.type := rfl
  cases hty : g.type with
  | polygon =>
    refine ⟨fun _ _ => False, fun m hm => ⟨m, ?_, Ones.refl hm.1⟩, fun m hm => ⟨m, ?_, Ones.refl hm.1⟩⟩
    · simp only [zondGeometry, hty]; rfl
    · simp only [zondGeometry, ht, hty]; rfl
  | undefined => simp only [zondGeometry, hty] at h; cases h
  | path => simp only [zondGeometry, hty] at h; cases h
  | text => simp only [zondGeometry, hty] at h; cases h
  | reference => simp only [zondGeometry, hty] at h; cases h
  | rectangle =>
    have hrect : ∃ lt rb, RectGeom g lt rb := by
      rcases hc : g.coords with _ | ⟨a, _ | ⟨b, _ | ⟨c, l⟩⟩⟩
      · simp only [zondGeometry, hty] at h; unfold zondRectangle at h; rw [hc] at h; cases h
      · simp only [zondGeometry, hty] at h; unfold zondRectangle at h; rw [hc] at h; cases h
      · simp only [zondGeometry, hty] at h; unfold zondRectangle at h; rw [hc] at h; cases h
      · exact ⟨a, c, hty, b, l, hc⟩
    obtain ⟨lt, rb, hg⟩ := hrect
    have hg' : RectGeom (flipGeom g) (flipPt lt) (flipPt rb) := by
      obtain ⟨_, q, rest, e⟩ := hg
      exact ⟨hty, flipPt q, rest.map flipPt, by simp [flipGeom, e]⟩
    cases hc : coversAll rnd z lt rb with
    | true =>
      rw [rect_all hg hc, rect_all hg' ((covers_flip hneg hx hy he lt rb).trans hc)]
      refine ⟨_, fillAll_paints R C z.bound (by omega) (by omega) (by omega) (by omega), ?_⟩
      refine (fillAll_paints C R (flipZond z).bound b4 b2 (show z.bound.jBegin < _ by omega) (show z.bound.iBegin < _ by omega)).congr
        fun j i => ?_
      simp only [Box, flipZond]
      tauto
    | false =>
      rw [rect_raw hg hc] at h ⊢
      rw [rect_raw hg' ((covers_flip hneg hx hy he lt rb).trans hc)]
      cases hr : rawIndicies rnd z lt rb with
      | throw => rw [hr] at h; cases h
      | ub => rw [hr] at h; cases h
      | ok q =>
        obtain ⟨a, b, c, d⟩ := q
        rw [hr, M.run_bind_ok (M.run_lift_ok _ _)] at h
        dsimp only at h
        cases hn : normIndicies rnd z a b c d with
        | throw => rw [hn] at h; cases h
        | ub => rw [hn] at h; cases h
        | ok n =>
          rw [raw_flip hr]
          have lift : ∀ {α β : Type} (x : α) (f : α → M BitMatrix β), (M.lift (Res.ok x) >>= f) = f x := by
            intro α β x f
            funext m
            rw [M.run_bind_ok (M.run_lift_ok _ _)]
          rw [lift, lift]
          dsimp only
          rw [hn, norm_flip hn, lift, lift]
          obtain ⟨n1, n2, n3, n4⟩ := norm_small hn
          refine ⟨_, fillRange_paints R C z.bound n (by omega) (by omega) (by omega) (by omega) (by omega) (by omega), ?_⟩
          refine (fillRange_paints C R (flipZond z).bound ⟨n.jBegin, n.jEnd, n.iBegin, n.iEnd⟩ b4 b2 ?_ ?_ ?_ ?_).congr fun j i => ?_
          · show n.jBegin + z.bound.jBegin < _; omega
          · show n.iBegin + z.bound.iBegin < _; omega
          · show n.jEnd + z.bound.jBegin < _; omega
          · show n.iEnd + z.bound.iBegin < _; omega
          · simp only [Box, flipZond]
            tauto

end Verif.Zond
