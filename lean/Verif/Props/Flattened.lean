import Verif.Props.Union
import Verif.Props.Flatten
import Verif.Spec.Flattened

/-! # C100: drawing a layout with references, and drawing it flattened -/

namespace Verif.Props
open Verif BitMatrix Zond Spec Ieee Generator Client Converter

theorem firstRequested_flattened {flat : Geometry → List Geometry} {lib : Library} {req : List Int} {l' : Layer} :
    FirstRequested { lib with layers := lib.layers.map (flattenedLayer flat) } req l' ↔
      ∃ l, FirstRequested lib req l ∧ l' = flattenedLayer flat l := by
  constructor
  · rintro ⟨before, after, he, hl, hb⟩
    obtain ⟨b1, r1, h1, h2, h3⟩ := List.map_eq_append_iff.mp he
    obtain ⟨l, a1, h4, h5, h6⟩ := List.map_eq_cons_iff.mp h3
    subst h4 h2 h5
    exact ⟨l, ⟨b1, a1, h1, hl, fun x hx => hb (flattenedLayer flat x) (List.mem_map_of_mem hx)⟩, rfl⟩
  · rintro ⟨l, ⟨before, after, he, hl, hb⟩, rfl⟩
    refine ⟨before.map (flattenedLayer flat), after.map (flattenedLayer flat), by simp [he], hl, ?_⟩
    intro x hx
    obtain ⟨y, hy, rfl⟩ := List.mem_map.mp hx
    exact hb y hy

theorem candidate_flattened {flat : Geometry → List Geometry} {L : LayoutData} {req : List Int} {s : Geometry} :
    Candidate (flattenedLayout flat L) req s ↔
      ∃ p, Candidate L req p ∧ ((p.type ≠ .reference ∧ s = p) ∨ (p.type = .reference ∧ s ∈ flat p)) := by
  have key : ∀ l : Layer, some s ∈ (flattenedLayer flat l).geometries ↔
      ∃ p, some p ∈ l.geometries ∧ ((p.type ≠ .reference ∧ s = p) ∨ (p.type = .reference ∧ s ∈ flat p)) := by
    intro l
    unfold flattenedLayer
    simp only [List.mem_flatMap]
    constructor
    · rintro ⟨o, ho, hs⟩
      cases o with
      | none => simp [flattened] at hs
      | some p =>
        refine ⟨p, ho, ?_⟩
        unfold flattened at hs
        by_cases ht : p.type = .reference
        · simp only [ht, if_true, List.mem_map, Option.some.injEq, exists_eq_right] at hs
          exact .inr ⟨ht, hs⟩
        · simp only [ht, if_false, List.mem_singleton, Option.some.injEq] at hs
          exact .inl ⟨ht, hs⟩
    · rintro ⟨p, hp, h⟩
      refine ⟨some p, hp, ?_⟩
      unfold flattened
      rcases h with ⟨ht, rfl⟩ | ⟨ht, h⟩
      · simp [ht]
      · simpa [ht] using h
  constructor
  · rintro ⟨lib', l', hlib, hf, hs⟩
    obtain ⟨o, ho, he⟩ := List.mem_map.mp hlib
    cases o with
    | none => cases he
    | some lib =>
      simp only [Option.map_some, Option.some.injEq] at he
      subst he
      obtain ⟨l, hf2, rfl⟩ := firstRequested_flattened.mp hf
      obtain ⟨p, hp, h⟩ := (key l).mp hs
      exact ⟨p, ⟨lib, l, ho, hf2, hp⟩, h⟩
  · rintro ⟨p, ⟨lib, l, ho, hf, hp⟩, h⟩
    exact ⟨_, _, List.mem_map.mpr ⟨some lib, ho, rfl⟩, firstRequested_flattened.mpr ⟨l, hf, rfl⟩, (key l).mpr ⟨p, hp, h⟩⟩

theorem none_flattened {flat : Geometry → List Geometry} {L : LayoutData} :
    none ∈ (flattenedLayout flat L).libraries ↔ none ∈ L.libraries := by
  unfold flattenedLayout
  simp only [List.mem_map]
  constructor
  · rintro ⟨o, ho, he⟩
    cases o with
    | none => exact ho
    | some l => cases he
  · exact fun h => ⟨none, h, rfl⟩

/-! what a returning collection of geometries tells -/

theorem gatherList_inv {H : Elements} {n : Nat} {ws : Workspace} : ∀ {ps : List (Option Geometry)} {x : List Geometry × List Geometry},
    gatherList H n ws ps = some (.ok x) → ∀ p ∈ ps, ∃ y, gatherOne H n ws p = some (.ok y)
  | [], _, _, p, hp => by simp at hp
  | q :: ps, x, h, p, hp => by
    unfold gatherList at h
    obtain ⟨a, ha, h⟩ := Run.bind_ok h
    obtain ⟨b, hb, -⟩ := Run.bind_ok h
    rcases List.mem_cons.mp hp with rfl | hp
    · exact ⟨a, ha⟩
    · exact gatherList_inv hb p hp

theorem gatherLayers_inv {H : Elements} {n : Nat} {ws : Workspace} {req : List Int} :
    ∀ {lays : List Layer} {x : List Geometry × List Geometry}, gatherLayers H n ws req lays = some (.ok x) →
    ∀ b l a, lays = b ++ l :: a → l.layer ∈ req → (∀ l' ∈ b, l'.layer ∉ req) → ∀ p ∈ l.geometries, ∃ y, gatherOne H n ws p = some (.ok y)
  | [], _, _, b, l, a, he, _, _, _, _ => by simp at he
  | m :: rest, x, h, b, l, a, he, hl, hb, p, hp => by
    unfold gatherLayers at h
    cases b with
    | nil =>
      simp only [List.nil_append, List.cons.injEq] at he
      obtain ⟨rfl, rfl⟩ := he
      rw [if_pos hl] at h
      exact gatherList_inv h p hp
    | cons c b =>
      simp only [List.cons_append, List.cons.injEq] at he
      obtain ⟨rfl, he⟩ := he
      rw [if_neg (hb m (by simp))] at h
      exact gatherLayers_inv h b l a he hl (fun x hx => hb x (by simp [hx])) p hp

theorem gatherLibs_inv {H : Elements} {n : Nat} {ws : Workspace} {req : List Int} :
    ∀ {libs : List (Option Library)} {x : List Geometry × List Geometry}, gatherLibs H n ws req libs = some (.ok x) →
    none ∉ libs ∧ ∀ lib, some lib ∈ libs → ∃ y, gatherLayers H n ws req lib.layers = some (.ok y)
  | [], _, _ => by simp
  | none :: rest, x, h => by simp [gatherLibs] at h
  | some lib :: rest, x, h => by
    unfold gatherLibs at h
    obtain ⟨a, ha, h⟩ := Run.bind_ok h
    obtain ⟨b, hb, -⟩ := Run.bind_ok h
    obtain ⟨h1, h2⟩ := gatherLibs_inv hb
    refine ⟨by simp [h1], fun l hl => ?_⟩
    rcases List.mem_cons.mp hl with he | hl
    · cases he; exact ⟨a, ha⟩
    · exact h2 l hl

/-- a returning `Process` met no null library and could convert every path and every reference whose box touches the window -/
theorem process_inv {rnd : ℚ → ℚ} {g : Generator} {a : Nat} {mn mx : Coord} {req : List Int} {al : Alloc} {R C : Nat}
    (hr : Ready rnd g a mn mx req al R C) {k : Nat} {mem : Memory} {depth : Nat} {r : Bool × List UInt8} {g' : Generator}
    (hp : Generator.process rnd al (.ok k) mem depth R C g = some (.ok r g')) :
    none ∉ (mem.layouts a).libraries ∧
    (∀ p, Candidate (mem.layouts a) req p → Touches (wsOf mn mx) p → p.type = .path → ∃ rs, pathToRectList (some p) = .ok rs) ∧
    (∀ p, Candidate (mem.layouts a) req p → Touches (wsOf mn mx) p → p.type = .reference →
      ∃ rs, splitSref mem.elements depth (some p) ⟨0, 0⟩ = some (.ok rs)) := by
  have hobs := ready_obs hr k mem depth
  rw [hp] at hobs
  simp only [Option.map_some, Out.mapS, drawOut] at hobs
  have hws : (genRaster rnd mn mx R C).ws = wsOf mn mx := rfl
  rw [hws] at hobs
  cases hg : gatherLibs mem.elements depth (wsOf mn mx) req (mem.layouts a).libraries with
  | none => rw [hg] at hobs; cases hobs
  | some r =>
    rw [hg] at hobs
    cases r with
    | ub => cases hobs
    | throw e => cases hobs
    | ok gl =>
      obtain ⟨h1, h2⟩ := gatherLibs_inv hg
      have one : ∀ p, Candidate (mem.layouts a) req p → ∃ y, gatherOne mem.elements depth (wsOf mn mx) (some p) = some (.ok y) := by
        rintro p ⟨lib, l, hlib, ⟨b, c, he, hl, hb⟩, hp⟩
        obtain ⟨y, hy⟩ := h2 lib hlib
        exact gatherLayers_inv hy b l c he hl hb _ hp
      refine ⟨h1, fun p hc ht hty => ?_, fun p hc ht hty => ?_⟩
      · obtain ⟨y, hy⟩ := one p hc
        simp only [gatherOne, (boxMeets_iff _ p).mpr ht, if_true, hty] at hy
        obtain ⟨rs, hrs, -⟩ := Run.bind_ok hy
        exact ⟨rs, by simpa using hrs⟩
      · obtain ⟨y, hy⟩ := one p hc
        simp only [gatherOne, (boxMeets_iff _ p).mpr ht, if_true, hty] at hy
        obtain ⟨rs, hrs, -⟩ := Run.bind_ok hy
        exact ⟨rs, hrs⟩

/-- what is drawn by a reference whose expansion is `l` -/
theorem contributes_reference {H : Elements} (hH : SizesFit H) {ws : Workspace} {p : Geometry} (ht : p.type = .reference) {n : Nat}
    {l : List Geometry} (h : splitSref H n (some p) ⟨0, 0⟩ = some (.ok l)) (s : Geometry) :
    Contributes H ws p s ↔ s ∈ l ∧ Touches ws s := by
  obtain ⟨e, he, hm⟩ := C36_exact H hH n p ⟨0, 0⟩ l h
  constructor
  · intro hc
    cases hc with
    | direct h => rw [ht] at h; rcases h with h | h <;> cases h
    | segment h => rw [ht] at h; cases h
    | placed _ he' hd htc => rw [he] at he'; cases he'; exact ⟨(hm s).mpr hd, htc⟩
  · rintro ⟨hs, htc⟩
    exact .placed ht he ((hm s).mp hs) htc

theorem contributes_other {H H2 : Elements} {ws : Workspace} {p : Geometry} (ht : p.type ≠ .reference) (s : Geometry) :
    Contributes H ws p s ↔ Contributes H2 ws p s := by
  constructor <;> intro h <;> cases h with
  | direct h => exact .direct h
  | segment h h1 h2 => exact .segment h h1 h2
  | placed h => exact absurd h ht

theorem contributes_drawable {H : Elements} {ws : Workspace} {p : Geometry} (ht : p.type = .polygon ∨ p.type = .rectangle) (s : Geometry) :
    Contributes H ws p s ↔ s = p := by
  constructor
  · intro h
    cases h with
    | direct => rfl
    | segment h => rw [h] at ht; rcases ht with h | h <;> cases h
    | placed h => rw [h] at ht; rcases ht with h | h <;> cases h
  · rintro rfl; exact .direct ht.symm

/-- Selected geometries of the flattened layout, when the touching references can be expanded. -/
theorem selected_flattened {H H2 : Elements} (hH : SizesFit H) {L : LayoutData} {req : List Int} {ws : Workspace} {flat : Geometry → List Geometry}
    {n : Nat} (hok : ∀ p, Candidate L req p → Touches ws p → p.type = .reference → splitSref H n (some p) ⟨0, 0⟩ = some (.ok (flat p)))
    (hno : ∀ p, Candidate L req p → ¬ Touches ws p → p.type = .reference → flat p = []) (s : Geometry) :
    Selected L H ws req s ↔ Selected (flattenedLayout flat L) H2 ws req s := by
  constructor
  · rintro ⟨p, hc, ht, hs⟩
    by_cases hty : p.type = .reference
    · obtain ⟨hl, hts⟩ := (contributes_reference hH hty (hok p hc ht hty) s).mp hs
      exact ⟨s, candidate_flattened.mpr ⟨p, hc, .inr ⟨hty, hl⟩⟩, hts,
        (contributes_drawable (C36_only_drawable H hH n p _ _ (hok p hc ht hty) s hl) s).mpr rfl⟩
    · exact ⟨p, candidate_flattened.mpr ⟨p, hc, .inl ⟨hty, rfl⟩⟩, ht, (contributes_other hty s).mp hs⟩
  · rintro ⟨q, hc, ht, hs⟩
    obtain ⟨p, hp, ⟨hty, rfl⟩ | ⟨hty, hq⟩⟩ := candidate_flattened.mp hc
    · exact ⟨q, hp, ht, (contributes_other hty s).mpr hs⟩
    · by_cases htp : Touches ws p
      · have hd := C36_only_drawable H hH n p _ _ (hok p hp htp hty) q hq
        have := (contributes_drawable hd s).mp hs
        subst this
        exact ⟨p, hp, htp, (contributes_reference hH hty (hok p hp htp hty) s).mpr ⟨hq, ht⟩⟩
      · rw [hno p hp htp hty] at hq; cases hq

/-- **C100** Flattening before drawing, the way the program does it: replace, in the layers of a layout, each reference whose own box touches the
window by the list `SplitSref` returns for it, and delete the other references.  If `Process` returns for the layout with references, it
returns for the flattened one, with the same text and the same bitmap. -/
theorem C100_flattened (rnd : ℚ → ℚ) (mn mx : Coord) (R C : Nat)
    (g : Generator) (a : Nat) (req : List Int) (al : Alloc) (hr : Ready rnd g a mn mx req al R C) (k : Nat) (mem : Memory) (depth : Nat)
    (hfit : LayoutFits (mem.layouts a) mem.elements)
    (flat : Geometry → List Geometry)
    (hflat : ∀ p n l, Candidate (mem.layouts a) req p → p.type = .reference → Touches (wsOf mn mx) p →
      splitSref mem.elements n (some p) ⟨0, 0⟩ = some (.ok l) → flat p = l)
    (hno : ∀ p, Candidate (mem.layouts a) req p → p.type = .reference → ¬ Touches (wsOf mn mx) p → flat p = [])
    (g2 : Generator) (a2 : Nat) (al2 : Alloc) (hr2 : Ready rnd g2 a2 mn mx req al2 R C) (k2 : Nat) (mem2 : Memory)
    (depth2 : Nat) (hfit2 : LayoutFits (mem2.layouts a2) mem2.elements)
    (hL : mem2.layouts a2 = flattenedLayout flat (mem.layouts a))
    (b : Bool) (txt : List UInt8) (g' : Generator) (hp : Generator.process rnd al (.ok k) mem depth R C g = some (.ok (b, txt) g')) :
    ∃ g2', Generator.process rnd al2 (.ok k2) mem2 depth2 R C g2 = some (.ok (b, txt) g2') ∧ getMatrix g2' = getMatrix g' := by
  obtain ⟨h1, h2, h3⟩ := process_inv hr hp
  have hok : ∀ p, Candidate (mem.layouts a) req p → Touches (wsOf mn mx) p → p.type = .reference →
      splitSref mem.elements depth (some p) ⟨0, 0⟩ = some (.ok (flat p)) := by
    intro p hc ht hty
    obtain ⟨rs, e⟩ := h3 p hc ht hty
    rw [hflat p depth rs hc hty ht e, e]
  have hsel : ∀ s, Selected (mem.layouts a) mem.elements (wsOf mn mx) req s ↔ Selected (mem2.layouts a2) mem2.elements (wsOf mn mx) req s := by
    intro s
    rw [hL]
    exact selected_flattened hfit.2 hok (fun p hc ht hty => hno p hc hty ht) s
  obtain ⟨L, hLm, pa, -, -⟩ := drawn_ones hr hfit hp
  obtain ⟨⟨b2, txt2⟩, g2', h⟩ := (C41_returns_or_throws rnd g2 a2 mn mx req al2 R C hr2 k2 mem2 depth2 hfit2).2
    (by rw [hL, none_flattened]; exact h1)
    (fun p hc ht hty => by
      rw [hL] at hc
      obtain ⟨q, hq, ⟨_, rfl⟩ | ⟨hq2, hm⟩⟩ := candidate_flattened.mp hc
      · exact h2 p hq ht hty
      · by_cases htq : Touches (wsOf mn mx) q
        · have := C36_only_drawable mem.elements hfit.2 depth q _ _ (hok q hq htq hq2) p hm
          rw [hty] at this; rcases this with h | h <;> cases h
        · rw [hno q hq hq2 htq] at hm; cases hm)
    (fun p hc ht hty => by
      rw [hL] at hc
      obtain ⟨q, hq, ⟨hn, rfl⟩ | ⟨hq2, hm⟩⟩ := candidate_flattened.mp hc
      · exact absurd hty hn
      · by_cases htq : Touches (wsOf mn mx) q
        · have := C36_only_drawable mem.elements hfit.2 depth q _ _ (hok q hq htq hq2) p hm
          rw [hty] at this; rcases this with h | h <;> cases h
        · rw [hno q hq hq2 htq] at hm; cases hm)
    (fun s hs => by
      obtain ⟨P, hP⟩ := pa s ((hLm s).2 ((hsel s).2 hs))
      obtain ⟨m, e, _⟩ := hP _ (blank_shape R C)
      exact ⟨m, e⟩)
  obtain ⟨rfl, rfl, hm⟩ := (C88_same_set rnd mn mx R C g a req al hr k mem depth hfit g2 a2 req al2 hr2 k2 mem2 depth2 hfit2 hsel b txt g'
    hp).2 _ _ _ h
  exact ⟨g2', h, hm⟩

/-- **C100** … and conversely, if all touching references can be expanded within the nesting depth at hand and `Process` returns for the
flattened layout, it returns for the one with references, with the same text and the same bitmap. -/
theorem C100_unflattened (rnd : ℚ → ℚ) (mn mx : Coord) (R C : Nat)
    (g : Generator) (a : Nat) (req : List Int) (al : Alloc) (hr : Ready rnd g a mn mx req al R C) (k : Nat) (mem : Memory) (depth : Nat)
    (hfit : LayoutFits (mem.layouts a) mem.elements)
    (flat : Geometry → List Geometry)
    (hok : ∀ p, Candidate (mem.layouts a) req p → p.type = .reference → Touches (wsOf mn mx) p →
      splitSref mem.elements depth (some p) ⟨0, 0⟩ = some (.ok (flat p)))
    (hno : ∀ p, Candidate (mem.layouts a) req p → p.type = .reference → ¬ Touches (wsOf mn mx) p → flat p = [])
    (g2 : Generator) (a2 : Nat) (al2 : Alloc) (hr2 : Ready rnd g2 a2 mn mx req al2 R C) (k2 : Nat) (mem2 : Memory)
    (depth2 : Nat) (hfit2 : LayoutFits (mem2.layouts a2) mem2.elements)
    (hL : mem2.layouts a2 = flattenedLayout flat (mem.layouts a))
    (b : Bool) (txt : List UInt8) (g2' : Generator)
    (hp : Generator.process rnd al2 (.ok k2) mem2 depth2 R C g2 = some (.ok (b, txt) g2')) :
    ∃ g', Generator.process rnd al (.ok k) mem depth R C g = some (.ok (b, txt) g') ∧ getMatrix g' = getMatrix g2' := by
  obtain ⟨h1, h2, -⟩ := process_inv hr2 hp
  have hsel : ∀ s, Selected (mem2.layouts a2) mem2.elements (wsOf mn mx) req s ↔ Selected (mem.layouts a) mem.elements (wsOf mn mx) req s := by
    intro s
    rw [hL]
    exact (selected_flattened hfit.2 (fun p hc ht hty => hok p hc hty ht) (fun p hc ht hty => hno p hc hty ht) s).symm
  obtain ⟨L, hLm, pa, -, -⟩ := drawn_ones hr2 hfit2 hp
  obtain ⟨⟨b1, txt1⟩, g', h⟩ := (C41_returns_or_throws rnd g a mn mx req al R C hr k mem depth hfit).2
    (by rw [hL, none_flattened] at h1; exact h1)
    (fun p hc ht hty => h2 p (by
      rw [hL]; exact candidate_flattened.mpr ⟨p, hc, .inl ⟨(by rw [hty]; decide), rfl⟩⟩) ht hty)
    (fun p hc ht hty => ⟨_, hok p hc hty ht⟩)
    (fun s hs => by
      obtain ⟨P, hP⟩ := pa s ((hLm s).2 ((hsel s).2 hs))
      obtain ⟨m, e, _⟩ := hP _ (blank_shape R C)
      exact ⟨m, e⟩)
  obtain ⟨rfl, rfl, hm⟩ := (C88_same_set rnd mn mx R C g2 a2 req al2 hr2 k2 mem2 depth2 hfit2 g a req al hr k mem depth hfit hsel b txt g2'
    hp).2 _ _ _ h
  exact ⟨g', h, hm⟩

/-- **C100** What a user would call flattening — every reference replaced by what it stands for — can show more, never less: a cell that is
on for the layout with references is on for the flattened one. -/
theorem C100_at_least (rnd : ℚ → ℚ) (mn mx : Coord) (R C : Nat)
    (g : Generator) (a : Nat) (req : List Int) (al : Alloc) (hr : Ready rnd g a mn mx req al R C) (k : Nat) (mem : Memory) (depth : Nat)
    (hfit : LayoutFits (mem.layouts a) mem.elements)
    (flat : Geometry → List Geometry)
    (hflat : ∀ p n l, Candidate (mem.layouts a) req p → p.type = .reference →
      splitSref mem.elements n (some p) ⟨0, 0⟩ = some (.ok l) → flat p = l)
    (g2 : Generator) (a2 : Nat) (al2 : Alloc) (hr2 : Ready rnd g2 a2 mn mx req al2 R C) (k2 : Nat) (mem2 : Memory)
    (depth2 : Nat) (hfit2 : LayoutFits (mem2.layouts a2) mem2.elements)
    (hL : mem2.layouts a2 = flattenedLayout flat (mem.layouts a))
    (b : Bool) (txt : List UInt8) (g' : Generator) (hp : Generator.process rnd al (.ok k) mem depth R C g = some (.ok (b, txt) g'))
    (b2 : Bool) (txt2 : List UInt8) (g2' : Generator)
    (hp2 : Generator.process rnd al2 (.ok k2) mem2 depth2 R C g2 = some (.ok (b2, txt2) g2')) (i j : Nat)
    (hlit : Lit (getMatrix g') i j) : Lit (getMatrix g2') i j := by
  obtain ⟨-, -, h3⟩ := process_inv hr hp
  refine (C89_superset rnd mn mx R C g a req al hr k mem depth hfit g2 a2 req al2 hr2 k2 mem2 depth2 hfit2 ?_ b2 txt2 g2' hp2).2 _ _ _ hp
    i j hlit
  rintro s ⟨p, hc, ht, hs⟩
  rw [hL]
  by_cases hty : p.type = .reference
  · obtain ⟨rs, e⟩ := h3 p hc ht hty
    have hf := hflat p depth rs hc hty e
    obtain ⟨hl, hts⟩ := (contributes_reference hfit.2 hty e s).mp hs
    exact ⟨s, candidate_flattened.mpr ⟨p, hc, .inr ⟨hty, by rw [hf]; exact hl⟩⟩, hts,
      (contributes_drawable (C36_only_drawable _ hfit.2 depth p _ _ e s hl) s).mpr rfl⟩
  · exact ⟨p, candidate_flattened.mpr ⟨p, hc, .inl ⟨hty, rfl⟩⟩, ht, (contributes_other hty s).mp hs⟩

/-- **C100** The box stored in a reference, not what it refers to, decides whether it is drawn.  If all references of the requested layers still
have the box `(-1, -1)` that `Reference` is constructed with and the window does not contain that point, the layout looks as if it had no
references. -/
theorem C100_default_box (rnd : ℚ → ℚ) (mn mx : Coord) (R C : Nat)
    (g : Generator) (a : Nat) (req : List Int) (al : Alloc) (hr : Ready rnd g a mn mx req al R C) (k : Nat) (mem : Memory) (depth : Nat)
    (hfit : LayoutFits (mem.layouts a) mem.elements)
    (hbox : ∀ p, Candidate (mem.layouts a) req p → p.type = .reference → p.min = ⟨-1, -1⟩ ∧ p.max = ⟨-1, -1⟩)
    (hwin : ¬ (mn.x ≤ -1 ∧ -1 ≤ mx.x ∧ mn.y ≤ -1 ∧ -1 ≤ mx.y))
    (g2 : Generator) (a2 : Nat) (al2 : Alloc) (hr2 : Ready rnd g2 a2 mn mx req al2 R C) (k2 : Nat) (mem2 : Memory)
    (depth2 : Nat) (hfit2 : LayoutFits (mem2.layouts a2) mem2.elements)
    (hL : mem2.layouts a2 = flattenedLayout (fun _ => []) (mem.layouts a))
    (b : Bool) (txt : List UInt8) (g' : Generator) (hp : Generator.process rnd al (.ok k) mem depth R C g = some (.ok (b, txt) g')) :
    ∃ g2', Generator.process rnd al2 (.ok k2) mem2 depth2 R C g2 = some (.ok (b, txt) g2') ∧ getMatrix g2' = getMatrix g' := by
  refine C100_flattened rnd mn mx R C g a req al hr k mem depth hfit (fun _ => []) ?_ (fun _ _ _ _ => rfl) g2 a2 al2 hr2 k2 mem2 depth2 hfit2
    hL b txt g' hp
  intro p n l hc hty ht
  obtain ⟨h1, h2⟩ := hbox p hc hty
  unfold Touches wsOf at ht
  rw [h1, h2] at ht
  exact absurd ⟨ht.2.1, ht.1, ht.2.2.2, ht.2.2.1⟩ hwin

/-- a layout of one library with one layer -/
def oneLayer (n : Int) (gs : List (Option Geometry)) : LayoutData :=
  { libraries := [some { layers := [{ layer := n, geometries := gs }] }] }

theorem candidate_oneLayer {n : Int} {gs : List (Option Geometry)} {req : List Int} (hn : n ∈ req) (p : Geometry) :
    Candidate (oneLayer n gs) req p ↔ some p ∈ gs := by
  constructor
  · rintro ⟨lib, l, hlib, ⟨b, c, he, -, -⟩, hp⟩
    simp only [oneLayer, List.mem_singleton, Option.some.injEq] at hlib
    subst hlib
    cases b with
    | nil =>
      simp only [List.nil_append, List.cons.injEq] at he
      obtain ⟨rfl, -⟩ := he
      exact hp
    | cons x b => simp at he
  · intro hp
    exact ⟨_, _, List.mem_singleton.mpr rfl, ⟨[], [], rfl, hn, by simp⟩, hp⟩

/-- **C100** The time and memory of drawing are not bounded by any polynomial in the size of the layout and the bitmap: for every `k`, a
layout with one reference to the chain of `k` doubling elements of C99 — `2 k + 2` geometries — shows, whenever `Process` returns for the layout
with the one rectangle `box`, the same bitmap as that layout, but on the way `SplitSref` lists `box` `2^k` times. -/
theorem C100_exponential (rnd : ℚ → ℚ) (mn mx : Coord) (R C : Nat) (k : Nat) (box r : Geometry) (n : Int)
    (hb : box.type = .rectangle) (hin : GeomInRange box) (hlen : box.coords.length < 2 ^ 64)
    (hr0 : r.type = .reference) (he : r.element = some 0) (hrl : r.coords.length < 2 ^ 64) (ht : Touches (wsOf mn mx) r)
    (g : Generator) (a : Nat) (req : List Int) (hn : n ∈ req) (al : Alloc) (hr : Ready rnd g a mn mx req al R C) (i : Nat) (mem : Memory)
    (hL : mem.layouts a = oneLayer n [some r]) (hH : mem.elements = doubling k box)
    (g2 : Generator) (a2 : Nat) (al2 : Alloc) (hr2 : Ready rnd g2 a2 mn mx req al2 R C) (i2 : Nat) (mem2 : Memory) (depth2 : Nat)
    (hL2 : mem2.layouts a2 = oneLayer n [some box]) (hH2 : SizesFit mem2.elements)
    (b : Bool) (txt : List UInt8) (g2' : Generator)
    (hp : Generator.process rnd al2 (.ok i2) mem2 depth2 R C g2 = some (.ok (b, txt) g2')) :
    (∃ g', Generator.process rnd al (.ok i) mem (k + 1) R C g = some (.ok (b, txt) g') ∧ getMatrix g' = getMatrix g2') ∧
    splitSref mem.elements (k + 1) (some r) ⟨0, 0⟩ = some (.ok (List.replicate (2 ^ k) box)) := by
  have hs : splitSref mem.elements (k + 1) (some r) ⟨0, 0⟩ = some (.ok (List.replicate (2 ^ k) box)) := by
    rw [hH]; exact (C99_doubles k box hb hin).2.2 r hr0 he
  refine ⟨?_, hs⟩
  have sz : SizesFit mem.elements := by
    rw [hH]
    intro e q hq
    unfold doubling at hq
    split at hq
    · simp only [List.mem_cons, Option.some.injEq, List.not_mem_nil, or_false, or_self] at hq
      subst hq; exact (by norm_num : (0:Nat) < 2 ^ 64)
    · split at hq
      · simp only [List.mem_singleton, Option.some.injEq] at hq
        subst hq; exact hlen
      · simp at hq
  have fit : ∀ (gs : List (Option Geometry)) (H : Elements), SizesFit H → (∀ p, some p ∈ gs → p.coords.length < 2 ^ 64) →
      LayoutFits (oneLayer n gs) H := by
    intro gs H hH hg
    refine ⟨?_, hH⟩
    intro lib l p h1 h2 h3
    simp only [oneLayer, List.mem_singleton, Option.some.injEq] at h1
    subst h1
    simp only [List.mem_singleton] at h2
    subst h2
    exact hg p h3
  have hone : ∀ s, Selected (oneLayer n [some box]) mem2.elements (wsOf mn mx) req s ↔ s = box ∧ Touches (wsOf mn mx) box := by
    intro s
    constructor
    · rintro ⟨p, hc, htp, hs⟩
      rw [candidate_oneLayer hn, List.mem_singleton] at hc
      cases hc
      exact ⟨(contributes_drawable (.inr hb) s).mp hs, htp⟩
    · rintro ⟨rfl, htp⟩
      exact ⟨s, (candidate_oneLayer hn s).mpr (by simp), htp, (contributes_drawable (.inr hb) s).mpr rfl⟩
  have hmany : ∀ s, Selected (mem.layouts a) mem.elements (wsOf mn mx) req s ↔ s = box ∧ Touches (wsOf mn mx) box := by
    intro s
    rw [hL]
    constructor
    · rintro ⟨p, hc, htp, hss⟩
      rw [candidate_oneLayer hn, List.mem_singleton] at hc
      cases hc
      obtain ⟨h1, h2⟩ := (contributes_reference sz hr0 hs s).mp hss
      have := List.eq_of_mem_replicate h1
      subst this
      exact ⟨rfl, h2⟩
    · rintro ⟨rfl, htp⟩
      exact ⟨r, (candidate_oneLayer hn r).mpr (by simp), ht, (contributes_reference sz hr0 hs s).mpr
        ⟨List.mem_replicate.mpr ⟨by positivity, rfl⟩, htp⟩⟩
  have hfit : LayoutFits (mem.layouts a) mem.elements := by
    rw [hL]; exact fit _ _ sz (by simpa using hrl)
  have hfit2 : LayoutFits (mem2.layouts a2) mem2.elements := by
    rw [hL2]; exact fit _ _ hH2 (by simpa using hlen)
  have hsel : ∀ s, Selected (mem2.layouts a2) mem2.elements (wsOf mn mx) req s ↔ Selected (mem.layouts a) mem.elements (wsOf mn mx) req s := by
    intro s; rw [hmany, hL2, hone]
  obtain ⟨L, hLm, pa, -, -⟩ := drawn_ones hr2 hfit2 hp
  have only : ∀ p, Candidate (mem.layouts a) req p → p = r := by
    intro p hc
    rw [hL, candidate_oneLayer hn, List.mem_singleton] at hc
    exact Option.some.inj hc
  obtain ⟨⟨b1, txt1⟩, g', h⟩ := (C41_returns_or_throws rnd g a mn mx req al R C hr i mem (k + 1) hfit).2
    (by rw [hL]; simp [oneLayer])
    (fun p hc _ hty => by rw [only p hc, hr0] at hty; cases hty)
    (fun p hc _ _ => by rw [only p hc]; exact ⟨_, hs⟩)
    (fun s hs => by
      obtain ⟨P, hP⟩ := pa s ((hLm s).2 ((hsel s).2 hs))
      obtain ⟨m, e, _⟩ := hP _ (blank_shape R C)
      exact ⟨m, e⟩)
  obtain ⟨rfl, rfl, hm⟩ := (C88_same_set rnd mn mx R C g2 a2 req al2 hr2 i2 mem2 depth2 hfit2 g a req al hr i mem (k + 1) hfit hsel b txt g2'
    hp).2 _ _ _ h
  exact ⟨g', h, hm⟩

end Verif.Props
