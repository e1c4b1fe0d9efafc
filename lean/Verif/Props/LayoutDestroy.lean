import Verif.Proofs.LayoutDestroy
import Verif.Props.GdsiiAny
import Verif.Props.Msk

/-!
C58: the life and death of the elements of a layout.
-/

namespace Verif.Props
open Verif Spec.Gdsii Spec.Layout Layout

/-- **C58** Destroying a layout is defined exactly if it owns its elements (each is there, and listed once); then exactly these are gone afterwards.  (If
deleting a geometry through its base class did no more harm than in practice.) -/
theorem C58_destroy (heap : Elements) (live : Nat → Bool) (data : LayoutData) :
    (Owns live data → destroy false heap live data = .ok fun a => live a && !decide (a ∈ pointers data)) ∧
    (¬ Owns live data → destroy false heap live data = .ub) := by
  rw [destroy_eq, deleteAll_lenient]
  exact ⟨fun h => if_pos h, fun h => if_neg h⟩

/-- **C58** As the standard has it, the destruction of any layout with a geometry is undefined: `Geometry` has no virtual destructor. -/
theorem C58_strict (heap : Elements) (live : Nat → Bool) (data : LayoutData) :
    (HasGeometry heap data → destroy true heap live data = .ub) ∧
    (¬ HasGeometry heap data → destroy true heap live data = destroy false heap live data) := by
  rw [destroy_eq, destroy_eq, deleteAll_strict]
  exact ⟨fun h => if_pos h, fun h => if_neg h⟩

/-- **C58** A copy of a layout shares its elements: once one of the two is destroyed, destroying the other is undefined. -/
theorem C58_copy (heap : Elements) (live live' : Nat → Bool) (data : LayoutData) (hne : pointers data ≠ [])
    (h : destroy false heap live data = .ok live') : destroy false heap live' data = .ub := by
  by_cases ho : Owns live data
  · have e := ((C58_destroy heap live data).1 ho).symm.trans h
    have e := Res.ok.inj e
    apply (C58_destroy heap live' data).2
    rintro ⟨_, h2⟩
    obtain ⟨a, t, ha⟩ := List.exists_cons_of_ne_nil hne
    have := h2 a (by rw [ha]; exact List.mem_cons_self)
    rw [← e] at this
    rw [ha] at this
    simp at this
  · rw [(C58_destroy heap live data).2 ho] at h
    cases h

/-- **C58** Whatever file the GDSII reader has read into an empty layout: with the elements it made (those from address `next` to before `p.next`), the layout
owns what it lists, and destroying it leaves what was there before and the structure the file ended in, if any, which nobody owns.  As the standard has
it, this is undefined exactly if a listed element is not empty. -/
theorem C58_gdsii (env : Gds.Env) (next : Nat) (w w' : Gds.World) (content : List UInt8) (b : Bool) (p : Gds.PS) (hdata : w.reader.hasData = true)
    (hw : w.data.libraries = []) (hf : env.fs (Msk.narrow w.reader.fileName) = some content) (hp : parse env content [] w.heap next = .ok p)
    (hr : Gds.read env next false w = .ok b w') (live : Nat → Bool) (hl : ∀ a, next ≤ a → live a = false) :
    let live1 := fun a => live a || decide (next ≤ a ∧ a < p.next)
    destroy false w'.heap live1 w'.data = .ok (fun a => live a || decide (p.elem = some a)) ∧
    (destroy true w'.heap live1 w'.data = .ub ↔ ∃ a ∈ pointers w'.data, (p.heap a).geometries ≠ []) := by
  intro live1
  obtain ⟨new, h1, h2, h3, h4, h5, h6⟩ := C57_any_file _ _ _ _ _ _ hp
  have hk : w'.data.libraries.map (Option.map Library.elements) = p.libs.map (Option.map Library.elements) ∧ Kinds p.heap w'.heap := by
    unfold Gds.read at hr
    rw [hdata] at hr
    simp only [Bool.not_true, Bool.false_eq_true, if_false] at hr
    rw [hf] at hr
    dsimp only at hr
    rw [hw] at hr
    unfold parse at hp
    rw [hp] at hr
    dsimp only at hr
    split at hr
    · rename_i libs heap b' hpp
      cases hr
      exact postProcess_keeps _ _ _ _ _ hpp
    · cases hr
  have hptr : pointers w'.data = elementsOf new := by
    rw [pointers_congr (d := { libraries := p.libs, fileName := [], fileFormat := .undefined }) hk.1]
    unfold pointers elementsOf
    rw [h1, List.nil_append, List.flatMap_map]
  have hnd : (List.range' next (p.next - next)).Nodup := List.nodup_range'
  have hnd' := hnd
  rw [← h5] at hnd'
  have hown : Owns live1 w'.data := by
    rw [Owns, hptr]
    refine ⟨(List.nodup_append.1 hnd').1, fun a ha => ?_⟩
    have : a ∈ List.range' next (p.next - next) := by rw [← h5]; exact List.mem_append_left _ ha
    rw [List.mem_range'_1] at this
    show (live a || decide (next ≤ a ∧ a < p.next)) = true
    rw [Bool.or_eq_true]
    exact .inr (decide_eq_true ⟨this.1, by omega⟩)
  have hdes := (C58_destroy w'.heap live1 w'.data).1 hown
  refine ⟨?_, ?_⟩
  · rw [hdes, hptr]
    congr 1
    funext a
    show ((live a || decide (next ≤ a ∧ a < p.next)) && !decide (a ∈ elementsOf new)) = (live a || decide (p.elem = some a))
    by_cases ha : next ≤ a ∧ a < p.next
    · have hm : a ∈ elementsOf new ++ p.elem.toList := by rw [h5, List.mem_range'_1]; omega
      rw [hl a ha.1]
      by_cases he : p.elem = some a
      · have : a ∉ elementsOf new := fun hc => (List.nodup_append.1 hnd').2.2 a hc a (by rw [he]; simp) rfl
        simp [ha, he, this]
      · have : a ∈ elementsOf new := by
          rcases List.mem_append.1 hm with hm | hm
          · exact hm
          · rw [Option.mem_toList] at hm; exact absurd hm he
        simp [he, this]
    · have hn : a ∉ elementsOf new ++ p.elem.toList := by
        rw [h5, List.mem_range'_1]
        intro hc
        exact ha ⟨hc.1, by omega⟩
      rw [List.mem_append, not_or, Option.mem_toList] at hn
      simp [ha, hn.1, hn.2]
  · have hg : HasGeometry w'.heap w'.data ↔ ∃ a ∈ pointers w'.data, (p.heap a).geometries ≠ [] := by
      rw [hasGeometry_iff]
      constructor
      · rintro ⟨a, ha, t, ht, _⟩
        refine ⟨a, ha, fun hc => ?_⟩
        rw [hk.2 a, hc] at ht
        cases ht
      · rintro ⟨a, ha, hne⟩
        obtain ⟨gs, hgs, hgood, _⟩ := (h3 a (hptr ▸ ha)).geometries
        rw [hgs] at hne
        cases gs with
        | nil => exact absurd rfl hne
        | cons g gs =>
          refine ⟨a, ha, g.type, ?_, (hgood g List.mem_cons_self).typed⟩
          rw [hk.2 a, hgs]
          simp
    rw [← hg]
    constructor
    · intro h
      by_contra hc
      rw [(C58_strict _ _ _).2 hc, hdes] at h
      cases h
    · exact (C58_strict _ _ _).1

theorem item_rectangle {ls : List (List UInt8)} {iss : List (List Spec.Msk.Item)} (hi : List.Forall₂ Spec.Msk.LineGives ls iss) {i : Spec.Msk.Item}
    (hm : i ∈ iss.flatten) : i.box.type = .rectangle := by
  induction hi with
  | nil => cases hm
  | cons h _ ih =>
    rw [List.flatten_cons, List.mem_append] at hm
    rcases hm with hm | hm
    · obtain ⟨o1, o2, h1, h2, _, rfl⟩ := h
      rcases List.mem_append.1 hm with hm | hm
      · cases h1 <;> simp at hm <;> subst hm <;> rfl
      · cases h2 <;> simp at hm; subst hm; rfl
    · exact ih hm

/-- **C58** The layout of any MSK file that was read into an empty layout owns its one element; as the standard has it, its destruction is undefined. -/
theorem C58_msk (env : Msk.Env) (addr : Nat) (w : Msk.World) (content ename lname : List UInt8) (hr : Ready42 env w content ename lname)
    (ls : List (List UInt8)) (hl : Spec.Msk.Lines content ls) (iss : List (List Spec.Msk.Item)) (hi : List.Forall₂ Spec.Msk.LineGives ls iss)
    (hne : iss.flatten ≠ []) (hempty : w.data.libraries = []) (live : Nat → Bool) (ha : live addr = true) :
    ∃ w', Msk.read env addr false w = .ok true w' ∧
      destroy false w'.heap live w'.data = .ok (fun a => live a && decide (a ≠ addr)) ∧
      destroy true w'.heap live w'.data = .ub := by
  obtain ⟨w', lib, h1, h2, _, h4, _, _, _, h8, _⟩ := C42_read env addr w content ename lname hr ls hl iss hi hne hempty
  have hptr : pointers w'.data = [addr] := by
    unfold pointers
    rw [h2]
    simp [h4]
  refine ⟨w', h1, ?_, (C58_strict _ _ _).1 ?_⟩
  · rw [(C58_destroy _ _ _).1 ⟨by rw [hptr]; simp, by rw [hptr]; simpa using ha⟩, hptr]
    congr 1
    funext a
    simp
  · obtain ⟨i, t, hit⟩ := List.exists_cons_of_ne_nil hne
    refine ⟨addr, by rw [hptr]; simp, i.box, ?_, ?_⟩
    · rw [h8, hit]; simp
    · have hm : i ∈ iss.flatten := by rw [hit]; exact List.mem_cons_self
      rw [item_rectangle hi hm]
      decide

/-- C58 at work: the odd file of C57; element 6, in which the file ends, is left over, and 5 was deleted with its polygon. -/
example : ∃ w w' : Gds.World, ∃ p, parse emptyEnv odd [] w.heap 5 = .ok p ∧ Gds.read emptyEnv 5 false w = .ok true w' ∧ p.elem = some 6 ∧
    destroy false w'.heap (fun a => decide (5 ≤ a ∧ a < p.next)) w'.data = .ok (fun a => decide (some 6 = some a)) ∧
    destroy true w'.heap (fun a => decide (5 ≤ a ∧ a < p.next)) w'.data = .ub := by
  let w : Gds.World := ⟨{ fileName := [97], hasData := true }, { libraries := [], fileName := [], fileFormat := .undefined }, fun _ => {}⟩
  obtain ⟨p, hp, hpe, hph⟩ : ∃ p, parse emptyEnv odd [] w.heap 5 = .ok p ∧ p.elem = some 6 ∧ (p.heap 5).geometries.length = 1 := ⟨_, rfl, rfl, rfl⟩
  obtain ⟨w', hr, hl⟩ : ∃ w', Gds.read emptyEnv 5 false w = .ok true w' ∧ pointers w'.data = [5] := by
    set_option maxRecDepth 20000 in
    exact ⟨_, rfl, rfl⟩
  obtain ⟨h1, h2⟩ := C58_gdsii emptyEnv 5 w w' odd true p rfl rfl rfl hp hr (fun _ => false) (fun _ _ => rfl)
  refine ⟨w, w', p, hp, hr, hpe, ?_, ?_⟩
  · rw [hpe] at h1
    exact h1
  · refine h2.2 ⟨5, by rw [hl]; simp, fun hc => ?_⟩
    rw [hc] at hph
    cases hph

end Verif.Props
