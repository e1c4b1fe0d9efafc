import Verif.Props.PathPoints

/-! # C102: only rectangles are seen -/

namespace Verif.Props
open Verif BitMatrix Zond Spec Ieee Generator Client Converter

theorem paints_polygon {rnd : ℚ → ℚ} {z : Zond} {s : Geometry} (hs : s.type = .polygon) {R C : Nat} {P : Nat → Nat → Prop}
    (h : Paints R C (zondGeometry rnd z (some s)) P) (i j : Nat) : ¬ P i j := by
  intro hP
  obtain ⟨m', e, o⟩ := h _ (blank_shape R C)
  rw [C37_polygon_noop rnd z s hs] at e
  cases e
  have hc := (o.bits i j).mpr (.inr hP)
  unfold blank at hc
  rw [zeroMat_cell] at hc
  cases hc

/-- selected geometries are rectangles and polygons -/
theorem selected_drawable {H : Elements} {L : LayoutData} {req : List Int} {ws : Workspace} {s : Geometry}
    (h : Selected L H ws req s) : s.type = .rectangle ∨ s.type = .polygon := by
  obtain ⟨p, -, -, hs⟩ := h
  cases hs with
  | direct h => exact h
  | segment => exact .inl rfl
  | placed _ _ hd _ =>
    cases hd with
    | shape _ _ h => exact h.symm
    | segment => exact .inl rfl

/-- **C102** C88 strengthened: if two layouts, processed for the same window and bitmap size, have the same *rectangles* to draw, and the first
`Process` returns, then the second does not throw, and when it returns text and bitmap are the same. -/
theorem C102_same_rectangles (rnd : ℚ → ℚ) (mn mx : Coord) (R C : Nat)
    (g : Generator) (a : Nat) (req : List Int) (al : Alloc) (hr : Ready rnd g a mn mx req al R C) (k : Nat) (mem : Memory) (depth : Nat)
    (hfit : LayoutFits (mem.layouts a) mem.elements)
    (g2 : Generator) (a2 : Nat) (req2 : List Int) (al2 : Alloc) (hr2 : Ready rnd g2 a2 mn mx req2 al2 R C) (k2 : Nat) (mem2 : Memory)
    (depth2 : Nat) (hfit2 : LayoutFits (mem2.layouts a2) mem2.elements)
    (hsel : ∀ s, s.type = .rectangle →
      (Selected (mem.layouts a) mem.elements (wsOf mn mx) req s ↔ Selected (mem2.layouts a2) mem2.elements (wsOf mn mx) req2 s))
    (b : Bool) (txt : List UInt8) (g' : Generator) (hp : Generator.process rnd al (.ok k) mem depth R C g = some (.ok (b, txt) g')) :
    (∀ e s, Generator.process rnd al2 (.ok k2) mem2 depth2 R C g2 ≠ some (.throw e s)) ∧
    ∀ b2 txt2 g2', Generator.process rnd al2 (.ok k2) mem2 depth2 R C g2 = some (.ok (b2, txt2) g2') →
      b2 = b ∧ txt2 = txt ∧ getMatrix g2' = getMatrix g' := by
  obtain ⟨L, hL, pa, o, hpr⟩ := drawn_ones hr hfit hp
  constructor
  · intro e s h
    obtain ⟨-, s, hs, ht⟩ := (C41_returns_or_throws rnd g2 a2 mn mx req2 al2 R C hr2 k2 mem2 depth2 hfit2).1 e s h
    rcases selected_drawable hs with hty | hty
    · obtain ⟨P, hP⟩ := pa s ((hL s).2 ((hsel s hty).2 hs))
      obtain ⟨m, e, _⟩ := hP _ (blank_shape R C)
      rw [ht] at e; cases e
    · rw [C37_polygon_noop _ _ _ hty] at ht; cases ht
  · intro b2 txt2 g2' h2
    obtain ⟨L2, hL2, _, o2, hpr2⟩ := drawn_ones hr2 hfit2 h2
    have hm : getMatrix g2' = getMatrix g' := by
      refine ones_unique o2 o fun i j => ?_
      constructor
      · rintro ⟨s, hs, P, hP, hij⟩
        have hs' := (hL2 s).1 hs
        rcases selected_drawable hs' with hty | hty
        · exact ⟨s, (hL s).2 ((hsel s hty).2 hs'), P, hP, hij⟩
        · exact absurd hij (paints_polygon hty hP i j)
      · rintro ⟨s, hs, P, hP, hij⟩
        have hs' := (hL s).1 hs
        rcases selected_drawable hs' with hty | hty
        · exact ⟨s, (hL2 s).2 ((hsel s hty).1 hs'), P, hP, hij⟩
        · exact absurd hij (paints_polygon hty hP i j)
    obtain ⟨rfl, -⟩ := C41_bitmap rnd g2 a2 mn mx req2 al2 R C hr2 k2 mem2 depth2 hfit2 b2 txt2 g2' h2
    obtain ⟨rfl, -⟩ := C41_bitmap rnd g a mn mx req al R C hr k mem depth hfit b txt g' hp
    rw [hm, hpr] at hpr2
    exact ⟨rfl, (Res.ok.inj hpr2).symm, hm⟩

theorem contributes_nothing {H : Elements} {ws : Workspace} {p : Geometry} (ht : p.type = .text ∨ p.type = .undefined) (s : Geometry) :
    ¬ Contributes H ws p s := by
  intro h
  cases h with
  | direct h => rcases ht with ht | ht <;> (rw [ht] at h; rcases h with h | h <;> cases h)
  | segment h => rcases ht with ht | ht <;> (rw [ht] at h; cases h)
  | placed h => rcases ht with ht | ht <;> (rw [ht] at h; cases h)

/-- a layout of `rectanglesOf` contains rectangles only -/
theorem mem_rectanglesOf {ws : Workspace} {flat : Geometry → List Geometry} {p s : Geometry} (h : s ∈ rectanglesOf ws flat p) :
    s.type = .rectangle := by
  unfold rectanglesOf at h
  split at h
  · rename_i ht; rw [List.mem_singleton] at h; subst h; exact ht
  · split at h
    · rw [List.mem_singleton] at h; subst h; rfl
    · cases h
  · split at h
    · simpa using (List.mem_filter.mp h).2
    · cases h
  all_goals cases h

/-- **C102** Every bitmap is one of rectangles: replace, in the layers of a layout, every geometry by the rectangles that are seen of it.  The new layout
contains rectangles only, and if `Process` returns for the old one, it returns for the new one, with the same text and the same bitmap. -/
theorem C102_rectangles_only (rnd : ℚ → ℚ) (mn mx : Coord) (R C : Nat)
    (g : Generator) (a : Nat) (req : List Int) (al : Alloc) (hr : Ready rnd g a mn mx req al R C) (k : Nat) (mem : Memory) (depth : Nat)
    (hfit : LayoutFits (mem.layouts a) mem.elements)
    (flat : Geometry → List Geometry)
    (hflat : ∀ p n l, Candidate (mem.layouts a) req p → p.type = .reference → Touches (wsOf mn mx) p →
      splitSref mem.elements n (some p) ⟨0, 0⟩ = some (.ok l) → flat p = l)
    (g2 : Generator) (a2 : Nat) (al2 : Alloc) (hr2 : Ready rnd g2 a2 mn mx req al2 R C) (k2 : Nat) (mem2 : Memory)
    (depth2 : Nat) (hfit2 : LayoutFits (mem2.layouts a2) mem2.elements)
    (hL : mem2.layouts a2 = replacedLayout (rectanglesOf (wsOf mn mx) flat) (mem.layouts a))
    (b : Bool) (txt : List UInt8) (g' : Generator) (hp : Generator.process rnd al (.ok k) mem depth R C g = some (.ok (b, txt) g')) :
    (∀ p, Candidate (mem2.layouts a2) req p → p.type = .rectangle) ∧
    ∃ g2', Generator.process rnd al2 (.ok k2) mem2 depth2 R C g2 = some (.ok (b, txt) g2') ∧ getMatrix g2' = getMatrix g' := by
  have hrect : ∀ p, Candidate (mem2.layouts a2) req p → p.type = .rectangle := by
    intro p hc
    rw [hL] at hc
    obtain ⟨q, -, hq⟩ := candidate_replaced.mp hc
    exact mem_rectanglesOf hq
  refine ⟨hrect, ?_⟩
  obtain ⟨h1, h2, h3⟩ := process_inv hr hp
  have hok : ∀ p, Candidate (mem.layouts a) req p → Touches (wsOf mn mx) p → p.type = .reference →
      splitSref mem.elements depth (some p) ⟨0, 0⟩ = some (.ok (flat p)) := by
    intro p hc ht hty
    obtain ⟨rs, e⟩ := h3 p hc ht hty
    rw [hflat p depth rs hc hty ht e, e]
  have hsel : ∀ s, s.type = .rectangle →
      (Selected (mem.layouts a) mem.elements (wsOf mn mx) req s ↔ Selected (mem2.layouts a2) mem2.elements (wsOf mn mx) req s) := by
    intro s hs0
    rw [hL]
    constructor
    · rintro ⟨p, hc, ht, hs⟩
      refine ⟨s, candidate_replaced.mpr ⟨p, hc, ?_⟩, ?_, .direct (.inl hs0)⟩
      · unfold rectanglesOf
        cases hty : p.type with
        | rectangle => simpa using (contributes_drawable (.inr hty) s).mp hs
        | polygon => have := (contributes_drawable (.inl hty) s).mp hs; subst this; rw [hs0] at hty; cases hty
        | path =>
          obtain ⟨h, h1, -⟩ := (contributes_path hty s).mp hs
          simp [ht, h1, h]
        | reference => simp [ht, hs0, ((contributes_reference hfit.2 hty (hok p hc ht hty) s).mp hs).1]
        | text => exact absurd hs (contributes_nothing (.inl hty) s)
        | undefined => exact absurd hs (contributes_nothing (.inr hty) s)
      · cases hs with
        | direct => exact ht
        | segment _ _ h => exact h
        | placed _ _ _ h => exact h
    · rintro ⟨q, hc, ht, hs⟩
      obtain ⟨p, hp, hq⟩ := candidate_replaced.mp hc
      have := (contributes_drawable (.inr (mem_rectanglesOf hq)) s).mp hs
      subst this
      unfold rectanglesOf at hq
      split at hq
      · rw [List.mem_singleton] at hq; subst hq; exact ⟨s, hp, ht, .direct (.inl hs0)⟩
      · rename_i hty
        split at hq
        · rename_i h
          rw [List.mem_singleton] at hq
          exact ⟨p, hp, h.1, (contributes_path hty s).mpr ⟨hq, h.2, ht⟩⟩
        · cases hq
      · rename_i hty
        split at hq
        · rename_i h
          exact ⟨p, hp, h, (contributes_reference hfit.2 hty (hok p hp h hty) s).mpr ⟨(List.mem_filter.mp hq).1, ht⟩⟩
        · cases hq
      all_goals cases hq
  obtain ⟨L, hLm, pa, -, -⟩ := drawn_ones hr hfit hp
  obtain ⟨⟨b2, txt2⟩, g2', h⟩ := (C41_returns_or_throws rnd g2 a2 mn mx req al2 R C hr2 k2 mem2 depth2 hfit2).2
    (by rw [hL, none_replaced]; exact h1)
    (fun p hc _ hty => by rw [hrect p hc] at hty; cases hty)
    (fun p hc _ hty => by rw [hrect p hc] at hty; cases hty)
    (fun s hs => by
      rcases selected_drawable hs with hty | hty
      · obtain ⟨P, hP⟩ := pa s ((hLm s).2 ((hsel s hty).2 hs))
        obtain ⟨m, e, _⟩ := hP _ (blank_shape R C)
        exact ⟨m, e⟩
      · exact ⟨_, C37_polygon_noop _ _ _ hty _⟩)
  obtain ⟨rfl, rfl, hm⟩ := (C102_same_rectangles rnd mn mx R C g a req al hr k mem depth hfit g2 a2 req al2 hr2 k2 mem2 depth2 hfit2 hsel b txt g'
    hp).2 _ _ _ h
  exact ⟨g2', h, hm⟩

end Verif.Props
