import Verif.Props.Flattened
import Verif.Spec.Replaced

/-! # C101: the points of a path are never drawn -/

namespace Verif.Props
open Verif BitMatrix Zond Spec Ieee Generator Client Converter

theorem firstRequested_replaced {f : Geometry → List Geometry} {lib : Library} {req : List Int} {l' : Layer} :
    FirstRequested { lib with layers := lib.layers.map (replacedLayer f) } req l' ↔
      ∃ l, FirstRequested lib req l ∧ l' = replacedLayer f l := by
  constructor
  · rintro ⟨before, after, he, hl, hb⟩
    obtain ⟨b1, r1, h1, h2, h3⟩ := List.map_eq_append_iff.mp he
    obtain ⟨l, a1, h4, h5, h6⟩ := List.map_eq_cons_iff.mp h3
    subst h4 h2 h5
    exact ⟨l, ⟨b1, a1, h1, hl, fun x hx => hb (replacedLayer f x) (List.mem_map_of_mem hx)⟩, rfl⟩
  · rintro ⟨l, ⟨before, after, he, hl, hb⟩, rfl⟩
    refine ⟨before.map (replacedLayer f), after.map (replacedLayer f), by simp [he], hl, ?_⟩
    intro x hx
    obtain ⟨y, hy, rfl⟩ := List.mem_map.mp hx
    exact hb y hy

theorem candidate_replaced {f : Geometry → List Geometry} {L : LayoutData} {req : List Int} {s : Geometry} :
    Candidate (replacedLayout f L) req s ↔ ∃ p, Candidate L req p ∧ s ∈ f p := by
  have key : ∀ l : Layer, some s ∈ (replacedLayer f l).geometries ↔ ∃ p, some p ∈ l.geometries ∧ s ∈ f p := by
    intro l
    unfold replacedLayer
    simp only [List.mem_flatMap]
    constructor
    · rintro ⟨o, ho, hs⟩
      cases o with
      | none => simp at hs
      | some p => exact ⟨p, ho, by simpa using hs⟩
    · rintro ⟨p, hp, h⟩
      exact ⟨some p, hp, by simpa using h⟩
  constructor
  · rintro ⟨lib', l', hlib, hf, hs⟩
    obtain ⟨o, ho, he⟩ := List.mem_map.mp hlib
    cases o with
    | none => cases he
    | some lib =>
      simp only [Option.map_some, Option.some.injEq] at he
      subst he
      obtain ⟨l, hf2, rfl⟩ := firstRequested_replaced.mp hf
      obtain ⟨p, hp, h⟩ := (key l).mp hs
      exact ⟨p, ⟨lib, l, ho, hf2, hp⟩, h⟩
  · rintro ⟨p, ⟨lib, l, ho, hf, hp⟩, h⟩
    exact ⟨_, _, List.mem_map.mpr ⟨some lib, ho, rfl⟩, firstRequested_replaced.mpr ⟨l, hf, rfl⟩, (key l).mpr ⟨p, hp, h⟩⟩

theorem none_replaced {f : Geometry → List Geometry} {L : LayoutData} :
    none ∈ (replacedLayout f L).libraries ↔ none ∈ L.libraries := by
  unfold replacedLayout
  simp only [List.mem_map]
  constructor
  · rintro ⟨o, ho, he⟩
    cases o with
    | none => exact ho
    | some l => cases he
  · exact fun h => ⟨none, h, rfl⟩

theorem contributes_path {H : Elements} {ws : Workspace} {p : Geometry} (ht : p.type = .path) (s : Geometry) :
    Contributes H ws p s ↔ s = originRect p.layer ∧ 2 ≤ p.coords.length ∧ Touches ws s := by
  constructor
  · intro h
    cases h with
    | direct h => rw [ht] at h; rcases h with h | h <;> cases h
    | segment _ h1 h2 => exact ⟨rfl, h1, h2⟩
    | placed h => rw [ht] at h; cases h
  · rintro ⟨rfl, h1, h2⟩; exact .segment ht h1 h2

/-- a path contributes what `pathAtOrigin` says -/
theorem selected_pathAtOrigin {H : Elements} {L : LayoutData} {req : List Int} {ws : Workspace} (s : Geometry) :
    Selected L H ws req s ↔ Selected (replacedLayout (pathAtOrigin ws) L) H ws req s := by
  constructor
  · rintro ⟨p, hc, ht, hs⟩
    by_cases hty : p.type = .path
    · obtain ⟨rfl, h1, h2⟩ := (contributes_path hty s).mp hs
      exact ⟨_, candidate_replaced.mpr ⟨p, hc, by simp [pathAtOrigin, hty, ht, h1]⟩, h2, .direct (.inl rfl)⟩
    · exact ⟨p, candidate_replaced.mpr ⟨p, hc, by simp [pathAtOrigin, hty]⟩, ht, hs⟩
  · rintro ⟨q, hc, ht, hs⟩
    obtain ⟨p, hp, hq⟩ := candidate_replaced.mp hc
    unfold pathAtOrigin at hq
    split at hq
    · rename_i hty
      split at hq
      · rename_i h
        rw [List.mem_singleton] at hq
        subst hq
        have := (contributes_drawable (.inr rfl) s).mp hs
        subst this
        exact ⟨p, hp, h.1, .segment hty h.2 ht⟩
      · cases hq
    · rw [List.mem_singleton] at hq
      subst hq
      exact ⟨q, hp, ht, hs⟩

/-- When nothing but the paths is touched, a returning `Process` tells that the other layout can be processed. -/
theorem process_replaced {rnd : ℚ → ℚ} {mn mx : Coord} {R C : Nat}
    {g : Generator} {a : Nat} {req : List Int} {al : Alloc} (hr : Ready rnd g a mn mx req al R C) {k : Nat} {mem : Memory} {depth : Nat}
    (hfit : LayoutFits (mem.layouts a) mem.elements) (f : Geometry → List Geometry)
    (hf : ∀ p, p.type ≠ .path → f p = [p])
    (hq : ∀ p q, Candidate (mem.layouts a) req p → p.type = .path → q ∈ f p →
      q.type = .rectangle ∨ (q.type = .path ∧ (Touches (wsOf mn mx) q → ∃ rs, pathToRectList (some q) = .ok rs)))
    {g2 : Generator} {a2 : Nat} {al2 : Alloc} (hr2 : Ready rnd g2 a2 mn mx req al2 R C) {k2 : Nat} {mem2 : Memory}
    (hfit2 : LayoutFits (mem2.layouts a2) mem2.elements)
    (hL : mem2.layouts a2 = replacedLayout f (mem.layouts a)) (hH : mem2.elements = mem.elements)
    (hsel : ∀ s, Selected (mem.layouts a) mem.elements (wsOf mn mx) req s ↔ Selected (mem2.layouts a2) mem2.elements (wsOf mn mx) req s)
    {b : Bool} {txt : List UInt8} {g' : Generator} (hp : Generator.process rnd al (.ok k) mem depth R C g = some (.ok (b, txt) g')) :
    ∃ g2', Generator.process rnd al2 (.ok k2) mem2 depth R C g2 = some (.ok (b, txt) g2') ∧ getMatrix g2' = getMatrix g' := by
  obtain ⟨h1, h2, h3⟩ := process_inv hr hp
  obtain ⟨L, hLm, pa, -, -⟩ := drawn_ones hr hfit hp
  obtain ⟨⟨b2, txt2⟩, g2', h⟩ := (C41_returns_or_throws rnd g2 a2 mn mx req al2 R C hr2 k2 mem2 depth hfit2).2
    (by rw [hL, none_replaced]; exact h1)
    (fun p hc ht hty => by
      rw [hL] at hc
      obtain ⟨q, hqc, hm⟩ := candidate_replaced.mp hc
      by_cases hqt : q.type = .path
      · rcases hq q p hqc hqt hm with h | ⟨-, h⟩
        · rw [hty] at h; cases h
        · exact h ht
      · rw [hf q hqt, List.mem_singleton] at hm
        subst hm
        exact absurd hty hqt)
    (fun p hc ht hty => by
      rw [hL] at hc
      obtain ⟨q, hqc, hm⟩ := candidate_replaced.mp hc
      by_cases hqt : q.type = .path
      · rcases hq q p hqc hqt hm with h | ⟨h, -⟩ <;> (rw [hty] at h; cases h)
      · rw [hf q hqt, List.mem_singleton] at hm
        subst hm
        rw [hH]
        exact h3 p hqc ht hty)
    (fun s hs => by
      obtain ⟨P, hP⟩ := pa s ((hLm s).2 ((hsel s).2 hs))
      obtain ⟨m, e, _⟩ := hP _ (blank_shape R C)
      exact ⟨m, e⟩)
  obtain ⟨rfl, rfl, hm⟩ := (C88_same_set rnd mn mx R C g a req al hr k mem depth hfit g2 a2 req al2 hr2 k2 mem2 depth hfit2 hsel b txt g'
    hp).2 _ _ _ h
  exact ⟨g2', h, hm⟩

/-- **C101** If `Process` returns for a layout, it returns, with the same text and the same bitmap, for the layout in which every path is replaced by
the rectangle of size zero at the origin — or by nothing, if it has a single point or its box does not touch the window. -/
theorem C101_paths_at_origin (rnd : ℚ → ℚ) (mn mx : Coord) (R C : Nat)
    (g : Generator) (a : Nat) (req : List Int) (al : Alloc) (hr : Ready rnd g a mn mx req al R C) (k : Nat) (mem : Memory) (depth : Nat)
    (hfit : LayoutFits (mem.layouts a) mem.elements)
    (g2 : Generator) (a2 : Nat) (al2 : Alloc) (hr2 : Ready rnd g2 a2 mn mx req al2 R C) (k2 : Nat) (mem2 : Memory)
    (hfit2 : LayoutFits (mem2.layouts a2) mem2.elements)
    (hL : mem2.layouts a2 = replacedLayout (pathAtOrigin (wsOf mn mx)) (mem.layouts a)) (hH : mem2.elements = mem.elements)
    (b : Bool) (txt : List UInt8) (g' : Generator) (hp : Generator.process rnd al (.ok k) mem depth R C g = some (.ok (b, txt) g')) :
    ∃ g2', Generator.process rnd al2 (.ok k2) mem2 depth R C g2 = some (.ok (b, txt) g2') ∧ getMatrix g2' = getMatrix g' := by
  refine process_replaced hr hfit _ (fun p h => by simp [pathAtOrigin, h]) ?_ hr2 hfit2 hL hH (fun s => by rw [hL, hH]; exact selected_pathAtOrigin s) hp
  intro p q _ hty hq
  unfold pathAtOrigin at hq
  rw [if_pos hty] at hq
  split at hq
  · rw [List.mem_singleton] at hq; subst hq; exact .inl rfl
  · cases hq

/-- **C101** If the window does not contain the origin, no path is ever seen: if `Process` returns for a layout, it returns, with the same text and
the same bitmap, for the layout without its paths. -/
theorem C101_paths_invisible (rnd : ℚ → ℚ) (mn mx : Coord) (R C : Nat)
    (horigin : ¬ (mn.x ≤ 0 ∧ 0 ≤ mx.x ∧ mn.y ≤ 0 ∧ 0 ≤ mx.y))
    (g : Generator) (a : Nat) (req : List Int) (al : Alloc) (hr : Ready rnd g a mn mx req al R C) (k : Nat) (mem : Memory) (depth : Nat)
    (hfit : LayoutFits (mem.layouts a) mem.elements)
    (g2 : Generator) (a2 : Nat) (al2 : Alloc) (hr2 : Ready rnd g2 a2 mn mx req al2 R C) (k2 : Nat) (mem2 : Memory)
    (hfit2 : LayoutFits (mem2.layouts a2) mem2.elements)
    (hL : mem2.layouts a2 = replacedLayout withoutPath (mem.layouts a)) (hH : mem2.elements = mem.elements)
    (b : Bool) (txt : List UInt8) (g' : Generator) (hp : Generator.process rnd al (.ok k) mem depth R C g = some (.ok (b, txt) g')) :
    ∃ g2', Generator.process rnd al2 (.ok k2) mem2 depth R C g2 = some (.ok (b, txt) g2') ∧ getMatrix g2' = getMatrix g' := by
  have hno : ∀ n, ¬ Touches (wsOf mn mx) (originRect n) := by
    intro n h
    unfold Touches wsOf originRect at h
    exact horigin ⟨h.2.1, h.1, h.2.2.2, h.2.2.1⟩
  refine process_replaced hr hfit _ (fun p h => by simp [withoutPath, h]) ?_ hr2 hfit2 hL hH ?_ hp
  · intro p q _ hty hq
    simp [withoutPath, hty] at hq
  · intro s
    rw [hL, hH]
    constructor
    · rintro ⟨p, hc, ht, hs⟩
      by_cases hty : p.type = .path
      · obtain ⟨rfl, -, h2⟩ := (contributes_path hty s).mp hs
        exact absurd h2 (hno _)
      · exact ⟨p, candidate_replaced.mpr ⟨p, hc, by simp [withoutPath, hty]⟩, ht, hs⟩
    · rintro ⟨q, hc, ht, hs⟩
      obtain ⟨p, hp, hq⟩ := candidate_replaced.mp hc
      unfold withoutPath at hq
      split at hq
      · cases hq
      · rw [List.mem_singleton] at hq; subst hq; exact ⟨q, hp, ht, hs⟩

/-- **C101** Wherever the window lies: paths may be redrawn at will.  Let `redraw` change only points, width and further attributes of paths — not their
boxes and layers, and no path of at least two points into one of fewer or back.  If `Process` returns for a layout and all redrawn
paths that touch the window can be converted, it returns for the redrawn layout, with the same text and the same bitmap. -/
theorem C101_redrawn (rnd : ℚ → ℚ) (mn mx : Coord) (R C : Nat)
    (g : Generator) (a : Nat) (req : List Int) (al : Alloc) (hr : Ready rnd g a mn mx req al R C) (k : Nat) (mem : Memory) (depth : Nat)
    (hfit : LayoutFits (mem.layouts a) mem.elements)
    (redraw : Geometry → Geometry) (hother : ∀ p, p.type ≠ .path → redraw p = p)
    (hpath : ∀ p, p.type = .path → (redraw p).type = .path ∧ (redraw p).min = p.min ∧ (redraw p).max = p.max ∧ (redraw p).layer = p.layer ∧
      (2 ≤ (redraw p).coords.length ↔ 2 ≤ p.coords.length))
    (hconv : ∀ p, Candidate (mem.layouts a) req p → p.type = .path → Touches (wsOf mn mx) p → ∃ rs, pathToRectList (some (redraw p)) = .ok rs)
    (g2 : Generator) (a2 : Nat) (al2 : Alloc) (hr2 : Ready rnd g2 a2 mn mx req al2 R C) (k2 : Nat) (mem2 : Memory)
    (hfit2 : LayoutFits (mem2.layouts a2) mem2.elements)
    (hL : mem2.layouts a2 = replacedLayout (fun p => [redraw p]) (mem.layouts a)) (hH : mem2.elements = mem.elements)
    (b : Bool) (txt : List UInt8) (g' : Generator) (hp : Generator.process rnd al (.ok k) mem depth R C g = some (.ok (b, txt) g')) :
    ∃ g2', Generator.process rnd al2 (.ok k2) mem2 depth R C g2 = some (.ok (b, txt) g2') ∧ getMatrix g2' = getMatrix g' := by
  have htouch : ∀ p, p.type = .path → (Touches (wsOf mn mx) (redraw p) ↔ Touches (wsOf mn mx) p) := by
    intro p hty
    obtain ⟨-, h1, h2, -⟩ := hpath p hty
    unfold Touches
    rw [h1, h2]
  refine process_replaced hr hfit _ (fun p h => by rw [hother p h]) ?_ hr2 hfit2 hL hH ?_ hp
  · intro p q hc hty hq
    rw [List.mem_singleton] at hq
    subst hq
    exact .inr ⟨(hpath p hty).1, fun ht => hconv p hc hty ((htouch p hty).mp ht)⟩
  · intro s
    rw [hL, hH]
    constructor
    · rintro ⟨p, hc, ht, hs⟩
      by_cases hty : p.type = .path
      · obtain ⟨h0, -, -, h3, h4⟩ := hpath p hty
        obtain ⟨rfl, h1, h2⟩ := (contributes_path hty s).mp hs
        exact ⟨redraw p, candidate_replaced.mpr ⟨p, hc, by simp⟩, (htouch p hty).mpr ht, (contributes_path h0 _).mpr ⟨by rw [h3], h4.mpr h1, h2⟩⟩
      · exact ⟨p, candidate_replaced.mpr ⟨p, hc, by simp [hother p hty]⟩, ht, hs⟩
    · rintro ⟨q, hc, ht, hs⟩
      obtain ⟨p, hp, hq⟩ := candidate_replaced.mp hc
      rw [List.mem_singleton] at hq
      subst hq
      by_cases hty : p.type = .path
      · obtain ⟨h0, -, -, h3, h4⟩ := hpath p hty
        obtain ⟨rfl, h1, h2⟩ := (contributes_path h0 s).mp hs
        exact ⟨p, hp, (htouch p hty).mp ht, (contributes_path hty _).mpr ⟨by rw [h3], h4.mp h1, h2⟩⟩
      · rw [hother p hty] at ht hs
        exact ⟨p, hp, ht, hs⟩

end Verif.Props
