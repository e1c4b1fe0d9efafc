import Verif.Props.Flattened

/-! # C103: asking for several layers -/

namespace Verif.Props
open Verif BitMatrix Zond Spec Ieee Generator Client Converter

theorem firstRequested_find {lib : Library} {req : List Int} {l : Layer} :
    FirstRequested lib req l ↔ lib.layers.find? (fun y => decide (y.layer ∈ req)) = some l := by
  rw [List.find?_eq_some_iff_append]
  constructor
  · rintro ⟨b, c, he, hl, hb⟩
    exact ⟨by simpa using hl, b, c, he, fun y hy => by simpa using hb y hy⟩
  · rintro ⟨hl, b, c, he, hb⟩
    exact ⟨b, c, he, by simpa using hl, fun y hy => by simpa using hb y hy⟩

theorem gatherLayers_find (H : Elements) (n : Nat) (ws : Workspace) (req : List Int) : ∀ lays : List Layer,
    gatherLayers H n ws req lays = match lays.find? (fun y => decide (y.layer ∈ req)) with
      | none => some (.ok ([], []))
      | some l => gatherList H n ws l.geometries
  | [] => rfl
  | l :: rest => by
    unfold gatherLayers
    rw [List.find?_cons]
    by_cases h : l.layer ∈ req
    · simp [h]
    · simp only [h, if_false, decide_false]
      exact gatherLayers_find H n ws req rest

theorem gatherLibs_request (H : Elements) (n : Nat) (ws : Workspace) (req req2 : List Int) : ∀ libs : List (Option Library),
    (∀ lib, some lib ∈ libs → ∀ l, FirstRequested lib req l ↔ FirstRequested lib req2 l) →
    gatherLibs H n ws req libs = gatherLibs H n ws req2 libs
  | [], _ => rfl
  | none :: _, _ => rfl
  | some lib :: rest, h => by
    unfold gatherLibs
    rw [gatherLibs_request H n ws req req2 rest fun l hl => h l (by simp [hl]), gatherLayers_find, gatherLayers_find]
    have hf : lib.layers.find? (fun y => decide (y.layer ∈ req)) = lib.layers.find? (fun y => decide (y.layer ∈ req2)) := by
      ext l
      rw [← firstRequested_find, ← firstRequested_find]
      exact h lib (by simp) l
    rw [hf]

/-- **C103** Two requests that agree, in every library, on the first requested layer have the same outcome: the same text and bitmap, the same
exception, or both run into undefined behaviour. -/
theorem C103_same_first (rnd : ℚ → ℚ) (mn mx : Coord) (R C : Nat) (a : Nat) (req req2 : List Int)
    (g : Generator) (al : Alloc) (hr : Ready rnd g a mn mx req al R C) (k : Nat)
    (g2 : Generator) (al2 : Alloc) (hr2 : Ready rnd g2 a mn mx req2 al2 R C) (k2 : Nat) (mem : Memory) (depth : Nat)
    (hfirst : ∀ lib, some lib ∈ (mem.layouts a).libraries → ∀ l, FirstRequested lib req l ↔ FirstRequested lib req2 l) :
    (Generator.process rnd al (.ok k) mem depth R C g).map (Out.mapS getMatrix) =
      (Generator.process rnd al2 (.ok k2) mem depth R C g2).map (Out.mapS getMatrix) := by
  have h1 := ready_obs hr k mem depth
  have h2 := ready_obs hr2 k2 mem depth
  show (Generator.process rnd al (.ok k) mem depth R C g).map (Out.mapS Generator.bitmap) = (Generator.process rnd al2 (.ok k2) mem depth R C g2).map (Out.mapS Generator.bitmap)
  rw [h1, h2]
  unfold drawOut
  rw [gatherLibs_request _ _ _ req req2 _ hfirst]

/-- **C103** One layer is as good as many: in a layout with a single library, asking for any layers has the outcome of asking for just the one of them
that comes first in the library. -/
theorem C103_one_layer (rnd : ℚ → ℚ) (mn mx : Coord) (R C : Nat) (a : Nat) (req : List Int)
    (lib : Library) (before after : List Layer) (l : Layer) (hlib : lib.layers = before ++ l :: after) (hl : l.layer ∈ req)
    (hb : ∀ l' ∈ before, l'.layer ∉ req)
    (g : Generator) (al : Alloc) (hr : Ready rnd g a mn mx req al R C) (k : Nat)
    (g2 : Generator) (al2 : Alloc) (hr2 : Ready rnd g2 a mn mx [l.layer] al2 R C) (k2 : Nat) (mem : Memory) (depth : Nat)
    (hL : (mem.layouts a).libraries = [some lib]) :
    (Generator.process rnd al (.ok k) mem depth R C g).map (Out.mapS getMatrix) =
      (Generator.process rnd al2 (.ok k2) mem depth R C g2).map (Out.mapS getMatrix) := by
  refine C103_same_first rnd mn mx R C a req [l.layer] g al hr k g2 al2 hr2 k2 mem depth ?_
  intro lib' hm l'
  rw [hL, List.mem_singleton] at hm
  cases hm
  have h1 : FirstRequested lib req l := ⟨before, after, hlib, hl, hb⟩
  have h2 : FirstRequested lib [l.layer] l := ⟨before, after, hlib, by simp, fun y hy hn => hb y hy (by
    rw [List.mem_singleton] at hn; rw [hn]; exact hl)⟩
  rw [firstRequested_find] at h1 h2 ⊢
  rw [firstRequested_find, h1, h2]

/-- **C103** Asking for one layer more can take everything away that was shown: of two layers in one library, asked for together, only the
first is drawn — the outcome is that of asking for the first alone, whatever the second contains. -/
theorem C103_second_lost (rnd : ℚ → ℚ) (mn mx : Coord) (R C : Nat) (a : Nat) (n1 n2 : Int)
    (lib : Library) (before mid after : List Layer) (l1 l2 : Layer) (hlib : lib.layers = before ++ l1 :: (mid ++ l2 :: after))
    (h1 : l1.layer = n1) (_h2 : l2.layer = n2) (hb : ∀ l' ∈ before, l'.layer ≠ n1 ∧ l'.layer ≠ n2)
    (g : Generator) (al : Alloc) (req : List Int) (hreq : ∀ n, n ∈ req ↔ n = n1 ∨ n = n2) (hr : Ready rnd g a mn mx req al R C) (k : Nat)
    (g2 : Generator) (al2 : Alloc) (hr2 : Ready rnd g2 a mn mx [n1] al2 R C) (k2 : Nat) (mem : Memory) (depth : Nat)
    (hL : (mem.layouts a).libraries = [some lib]) :
    (Generator.process rnd al (.ok k) mem depth R C g).map (Out.mapS getMatrix) =
      (Generator.process rnd al2 (.ok k2) mem depth R C g2).map (Out.mapS getMatrix) := by
  subst h1
  exact C103_one_layer rnd mn mx R C a req lib before (mid ++ l2 :: after) l1 hlib ((hreq _).mpr (.inl rfl))
    (fun y hy hn => by
      rcases (hreq _).mp hn with h | h
      · exact (hb y hy).1 h
      · exact (hb y hy).2 h) g al hr k g2 al2 hr2 k2 mem depth hL

/-- **C103** A request that names no layer of any library gives a dark bitmap. -/
theorem C103_none (rnd : ℚ → ℚ) (mn mx : Coord) (R C : Nat) (a : Nat) (req : List Int)
    (g : Generator) (al : Alloc) (hr : Ready rnd g a mn mx req al R C) (k : Nat) (mem : Memory) (depth : Nat)
    (hfit : LayoutFits (mem.layouts a) mem.elements)
    (hlib : none ∉ (mem.layouts a).libraries)
    (hno : ∀ lib l, some lib ∈ (mem.layouts a).libraries → l ∈ lib.layers → l.layer ∉ req) :
    ∃ txt g', Generator.process rnd al (.ok k) mem depth R C g = some (.ok (true, txt) g') ∧
      (getMatrix g').isize = R ∧ (getMatrix g').jsize = C ∧ ∀ i j, ¬ Lit (getMatrix g') i j := by
  have hc : ∀ p, ¬ Candidate (mem.layouts a) req p := by
    rintro p ⟨lib, l, h1, ⟨b, c, he, hl, -⟩, -⟩
    exact hno lib l h1 (by rw [he]; simp) hl
  obtain ⟨⟨b, txt⟩, g', h⟩ := (C41_returns_or_throws rnd g a mn mx req al R C hr k mem depth hfit).2 hlib
    (fun p h => absurd h (hc p)) (fun p h => absurd h (hc p)) (fun s ⟨p, h, _⟩ => absurd h (hc p))
  obtain ⟨rfl, -, h1, h2, -, h3⟩ := C41_bitmap rnd g a mn mx req al R C hr k mem depth hfit b txt g' h
  exact ⟨txt, g', h, h1, h2, fun i j hl => by
    obtain ⟨s, ⟨p, hp, _⟩, _⟩ := (h3 i j).mp hl
    exact hc p hp⟩

end Verif.Props
