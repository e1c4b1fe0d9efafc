import Verif.Props.GdsiiAny
import Verif.Props.Generator
import Verif.Spec.GdsiiDark

/-!
C63: nothing the GDSII reader reads ever shows in a bitmap.
-/

namespace Verif.Props
open Verif BitMatrix Zond Spec Spec.Gdsii Generator

/-- there is no null library, and the layers hold no geometries -/
def Dark (libs : List (Option Library)) : Prop := ∀ o ∈ libs, ∃ l, o = some l ∧ ∀ y ∈ l.layers, y.geometries = []

theorem addLayer_dark {ls ls' : List Layer} {g : Option Geometry} (h : Gds.addLayer ls g = .ok ls') (hd : ∀ y ∈ ls, y.geometries = []) :
    ∀ y ∈ ls', y.geometries = [] := by
  unfold Gds.addLayer at h
  cases g with
  | none => cases h
  | some g =>
    dsimp only at h
    split_ifs at h
    · cases h; exact hd
    · cases h; exact hd
    · cases h
      intro y hy
      rcases List.mem_append.1 hy with hy | hy
      · exact hd y hy
      · rw [List.mem_singleton.1 hy]

theorem foldlM_keeps {α β : Type} (P : β → Prop) (f : β → α → Res β) (hf : ∀ b a b', f b a = .ok b' → P b → P b') :
    ∀ (l : List α) (b b' : β), l.foldlM f b = .ok b' → P b → P b' := by
  intro l
  induction l with
  | nil =>
    intro b b' h hp
    rw [List.foldlM_nil] at h
    cases h; exact hp
  | cons a l ih =>
    intro b b' h hp
    rw [List.foldlM_cons] at h
    cases h1 : f b a with
    | ub => rw [h1] at h; cases h
    | throw e => rw [h1] at h; cases h
    | ok c =>
      rw [h1, Res.ok_bind] at h
      exact ih c b' h (hf b a c h1 hp)

theorem enumLib_dark {heap : Elements} {l l' : Library} (h : Gds.enumLib heap l = .ok l') (hd : ∀ y ∈ l.layers, y.geometries = []) :
    ∀ y ∈ l'.layers, y.geometries = [] := by
  unfold Gds.enumLib at h
  cases hc : Gds.collectLayers heap l with
  | ub => rw [hc] at h; cases h
  | throw e => rw [hc] at h; cases h
  | ok ls =>
    rw [hc, Res.ok_bind] at h
    cases h
    have hls : ∀ y ∈ ls, y.geometries = [] := by
      unfold Gds.collectLayers at hc
      refine foldlM_keeps (fun ls : List Layer => ∀ y ∈ ls, y.geometries = []) _ ?_ _ _ _ hc hd
      intro b e b' he hb
      cases e with
      | none => cases he
      | some a => exact foldlM_keeps (fun ls : List Layer => ∀ y ∈ ls, y.geometries = []) _ (fun _ _ _ => addLayer_dark) _ _ _ he hb
    intro y hy
    have hm : y.geometries ∈ (Gds.sortPasses ls.length ls).map Layer.geometries := List.mem_map.2 ⟨y, hy, rfl⟩
    rw [Gds.sortPasses_rest Layer.geometries (fun _ _ => rfl), List.mem_map] at hm
    obtain ⟨z, hz, e⟩ := hm
    rw [← e]; exact hls z hz

theorem enumerate_dark {heap : Elements} : ∀ {libs libs' : List (Option Library)}, Gds.enumerateLayers heap libs = .ok libs' → Dark libs → Dark libs'
  | [], libs', h, _ => by cases h; intro o ho; cases ho
  | none :: _, _, h, _ => by cases h
  | some l :: t, libs', h, hd => by
    rw [Gds.enumerateLayers] at h
    obtain ⟨l1, h1, h⟩ := Gds.bind_ok h
    obtain ⟨t1, h2, h⟩ := Gds.bind_ok h
    cases h
    obtain ⟨l0, e0, hl0⟩ := hd (some l) (by simp)
    cases e0
    intro o ho
    rcases List.mem_cons.1 ho with rfl | ho
    · exact ⟨l1, rfl, enumLib_dark h1 hl0⟩
    · exact enumerate_dark h2 (fun o ho => hd o (List.mem_cons_of_mem _ ho)) o ho

theorem evaluate_dark {heap : Elements} : ∀ {libs libs' : List (Option Library)}, Gds.evaluateBoundingBox heap libs = .ok libs' → Dark libs → Dark libs'
  | [], libs', h, _ => by cases h; intro o ho; cases ho
  | none :: _, _, h, _ => by cases h
  | some l :: t, libs', h, hd => by
    rw [Gds.evaluateBoundingBox] at h
    obtain ⟨l1, h1, h⟩ := Gds.bind_ok h
    obtain ⟨t1, h2, h⟩ := Gds.bind_ok h
    cases h
    obtain ⟨l0, e0, hl0⟩ := hd (some l) (by simp)
    cases e0
    intro o ho
    rcases List.mem_cons.1 ho with rfl | ho
    · refine ⟨l1, rfl, ?_⟩
      refine foldlM_keeps (fun l : Library => ∀ y ∈ l.layers, y.geometries = []) _ ?_ _ _ _ h1 hl0
      intro b e b' he hb
      unfold Gds.evalElem at he
      cases e with
      | none => cases he
      | some a =>
        dsimp only at he
        split at he
        · cases he; exact hb
        · cases he; exact hb
    · exact evaluate_dark h2 (fun o ho => hd o (List.mem_cons_of_mem _ ho)) o ho

theorem postProcess_dark {libs libs' : List (Option Library)} {heap heap' : Elements} {b : Bool}
    (h : Gds.postProcess libs heap = .ok (libs', heap', b)) (hd : Dark libs) : Dark libs' := by
  unfold Gds.postProcess at h
  obtain ⟨⟨h1, b1⟩, _, h⟩ := Gds.bind_ok h
  dsimp only at h
  split at h
  · obtain ⟨l1, e1, h⟩ := Gds.bind_ok h
    obtain ⟨l2, e2, h⟩ := Gds.bind_ok h
    cases h
    exact evaluate_dark e2 (enumerate_dark e1 hd)
  · cases h; exact hd

theorem loaded_dark {d : LayoutData} (h : Loaded d) : Dark d.libraries := by
  induction h with
  | empty h => rw [h]; intro o ho; cases ho
  | @read env next null d d' r r' heap heap' b _ hr ih =>
    unfold Gds.read at hr
    dsimp only at hr
    split at hr
    · cases hr; exact ih
    · split at hr
      · cases hr; exact ih
      · rename_i content hf
        split at hr
        · cases hr
        · split at hr
          · rename_i p hp
            obtain ⟨new, h1, h2, _⟩ := C57_any_file _ _ _ _ _ _ hp
            split at hr
            · rename_i libs heap1 b1 hpp
              cases hr
              refine postProcess_dark hpp ?_
              rw [h1]
              intro o ho
              rcases List.mem_append.1 ho with ho | ho
              · exact ih o ho
              · obtain ⟨l, hl, rfl⟩ := List.mem_map.1 ho
                exact ⟨l, rfl, by rw [(h2 l hl).layers]; simp⟩
            · cases hr
          · cases hr

theorem gatherLayers_dark {H : Elements} {depth : Nat} {ws : Workspace} {req : List Int} :
    ∀ {ls : List Layer}, (∀ y ∈ ls, y.geometries = []) → gatherLayers H depth ws req ls = gatherList H depth ws []
  | [], _ => rfl
  | l :: ls, h => by
    rw [gatherLayers]
    split
    · rw [h l (by simp)]
    · exact gatherLayers_dark fun y hy => h y (List.mem_cons_of_mem _ hy)

theorem gatherLibs_dark {H : Elements} {depth : Nat} {ws : Workspace} {req : List Int} :
    ∀ {libs : List (Option Library)}, Dark libs → gatherLibs H depth ws req libs = gatherLibs H depth ws req []
  | [], _ => rfl
  | o :: libs, h => by
    obtain ⟨l, rfl, hl⟩ := h o (by simp)
    conv_lhs => rw [gatherLibs]
    rw [gatherLayers_dark hl, gatherLibs_dark (fun o ho => h o (List.mem_cons_of_mem _ ho))]
    rfl

/-- **C63** Whatever files have been read, the layers of the layout list no geometry. -/
theorem C63_layers_hold_nothing (d : LayoutData) (h : Loaded d) (l : Library) (hl : some l ∈ d.libraries) (y : Layer) (hy : y ∈ l.layers) :
    y.geometries = [] := by
  obtain ⟨l', e, h'⟩ := loaded_dark h _ hl
  cases e
  exact h' y hy

/-- **C63** So every bitmap of a layout read by the GDSII reader is dark: `Process` returns true for any window, layers and
grid, the matrix has the requested size, and no cell is on. -/
theorem C63_gdsii_dark (rnd : ℚ → ℚ) (g : Generator) (a : Nat) (mn mx : Coord) (req : List Int) (al : Alloc) (R C : Nat)
    (hr : Ready rnd g a mn mx req al R C) (k : Nat) (mem : Memory) (depth : Nat) (h : Loaded (mem.layouts a)) :
    ∃ txt g', Generator.process rnd al (.ok k) mem depth R C g = some (.ok (true, txt) g') ∧
      (getMatrix g').isize = R ∧ (getMatrix g').jsize = C ∧ ∀ i j, ¬ Lit (getMatrix g') i j := by
  have hobs := ready_obs hr k mem depth
  unfold drawOut at hobs
  rw [gatherLibs_dark (loaded_dark h), gatherLibs] at hobs
  obtain ⟨t, ht, _⟩ := C49_print (blank R C) (built_blank hr.rmax hr.cmax)
  have hz : zondAll rnd (genRaster rnd mn mx R C) (([] ++ [] : List Geometry).map some) (blank R C) = .ok () (blank R C) := rfl
  dsimp only at hobs
  rw [hz] at hobs
  dsimp only at hobs
  rw [ht] at hobs
  dsimp only at hobs
  cases hp : Generator.process rnd al (.ok k) mem depth R C g with
  | none => rw [hp] at hobs; cases hobs
  | some o =>
    rw [hp] at hobs
    cases o with
    | ub => cases hobs
    | throw e g' => cases hobs
    | ok r g' =>
      simp only [Option.map_some, Out.mapS, Option.some.injEq, Out.ok.injEq] at hobs
      obtain ⟨rfl, hbm⟩ := hobs
      refine ⟨t, g', rfl, ?_⟩
      unfold getMatrix
      rw [hbm]
      exact ⟨(blank_shape R C).2.1, (blank_shape R C).2.2, fun i j => blank_dark⟩

/-- C63 at work: a file with one boundary on layer 13 that covers the whole window.  `Read` succeeds and enumerates the
layer, yet the bitmap of that layer is dark. -/
def cover : Design :=
  { version := 600, dates := List.replicate 24 0, name := [76], user := ⟨0x3E, [0x41, 0x89, 0x37, 0x4B, 0xC6, 0xA7, 0xF0]⟩
    physical := ⟨0x39, [0x44, 0xB8, 0x2F, 0xA0, 0x9B, 0x5A, 0x54]⟩
    structures := [{ dates := List.replicate 24 0, name := [83], items := [
      { figure := .boundary 13 0 [⟨0, 0⟩, ⟨0, 100⟩, ⟨100, 100⟩, ⟨100, 0⟩, ⟨0, 0⟩] }] }] }

example : ∃ (d : LayoutData) (l : Library) (heap : Elements) (g : Generator), Loaded d ∧ d.libraries = [some l] ∧
    l.layers.map (fun y => (y.layer, y.dataType)) = [(13, 0)] ∧ l.elements = [some 10] ∧
    (heap 10).geometries.map (Option.map Geometry.coords) = [some [⟨0, 0⟩, ⟨0, 100⟩, ⟨100, 100⟩, ⟨100, 0⟩, ⟨0, 0⟩]] ∧
    Ready Ieee.rne g 7 ⟨0, 0⟩ ⟨100, 100⟩ [13, 23] Alloc.ok 10 10 ∧
    ∃ txt g', Generator.process Ieee.rne Alloc.ok (.ok 1) ⟨fun _ => d, heap⟩ 3 10 10 g = some (.ok (true, txt) g') ∧
      ∀ i j, ¬ Lit (getMatrix g') i j := by
  let env : Gds.Env := { fs := fun _ => some (cover.bytes ++ List.replicate 0 0), rnd := Ieee.rne, mem := fun _ => [] }
  let w : Gds.World := ⟨{ fileName := [97], hasData := true }, { libraries := [], fileName := [], fileFormat := .undefined }, fun _ => {}⟩
  obtain ⟨lib, h1, h2⟩ := C53_read env rfl cover (by decide) 0 10 w rfl rfl rfl (by
    intro s hs name hn
    simp only [cover, List.mem_cons, List.not_mem_nil, or_false] at hs
    obtain ⟨i, hi, f, m, p, h⟩ := hn
    subst hs
    simp only [List.mem_cons, List.not_mem_nil, or_false] at hi
    subst hi; cases h)
  obtain ⟨g, hr, _⟩ := exReady
  have hl : Loaded _ := .read (.empty (d := w.data) rfl) h2
  obtain ⟨txt, g', e1, _, _, e2⟩ := C63_gdsii_dark Ieee.rne g 7 _ _ _ _ _ _ hr 1
    ⟨fun _ => _, resolvedHeap (storeFrom w.heap 10 (cover.structures.map Structure.element)) [cover.library 10]⟩ 3 hl
  refine ⟨_, _, _, g, hl, rfl, ?_, ?_, ?_, hr, txt, g', e1, e2⟩
  · have := C47_right_when_sorted _ _ lib rfl h1 (by decide)
    have hb : ∀ H, (boxOf H lib).layers = lib.layers := by
      intro H
      unfold boxOf
      split <;> rfl
    rw [hb, this]
    decide
  · unfold boxOf
    rw [h1.rest]
    split <;> rfl
  · decide

end Verif.Props
