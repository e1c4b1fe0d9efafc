import Verif.Model.LayoutDestroy
import Verif.Spec.LayoutDestroy
import Verif.Proofs.GdsiiAny
import Mathlib.Data.List.Nodup

/-! Lemmas about the destructors. -/

namespace Verif.Layout
open Verif Spec.Layout

theorem deleteGeometries_lenient (gs : List (Option Geometry)) : deleteGeometries false gs = .ok () := by
  induction gs with
  | nil => rfl
  | cons g gs ih =>
    rw [deleteGeometries, ih]
    cases g <;> rfl

open Classical in
theorem deleteGeometries_strict (gs : List (Option Geometry)) :
    deleteGeometries true gs = if ∃ g, some g ∈ gs ∧ g.type ≠ .undefined then .ub else .ok () := by
  induction gs with
  | nil => simp [deleteGeometries]
  | cons g gs ih =>
    rw [deleteGeometries, ih]
    cases g with
    | none => simp [deleteGeometry]
    | some g =>
      by_cases h : g.type = .undefined
      · simp [deleteGeometry, h]
      · have h2 : ∃ x, some x ∈ some g :: gs ∧ x.type ≠ .undefined := ⟨g, List.mem_cons_self, h⟩
        have h3 : deleteGeometry true (some g) = .ub := by simp [deleteGeometry, h]
        rw [h3]
        simp only [if_pos h2, Res.ub_bind]

/-- the pointers that are deleted one after the other -/
def deleteAll (strict : Bool) (heap : Elements) : List Nat → (Nat → Bool) → Res (Nat → Bool)
  | [], live => .ok live
  | a :: as, live => deleteElement strict heap live (some a) >>= deleteAll strict heap as

theorem deleteElements_eq (strict : Bool) (heap : Elements) (es : List (Option Nat)) (live : Nat → Bool) :
    deleteElements strict heap es live = deleteAll strict heap (es.filterMap id) live := by
  induction es generalizing live with
  | nil => rfl
  | cons e es ih =>
    cases e with
    | none => rw [deleteElements]; exact ih live
    | some a =>
      rw [deleteElements]
      show _ = deleteAll strict heap (a :: es.filterMap id) live
      rw [deleteAll]
      congr 1
      funext l
      exact ih l

theorem deleteAll_append (strict : Bool) (heap : Elements) (as bs : List Nat) (live : Nat → Bool) :
    deleteAll strict heap (as ++ bs) live = (deleteAll strict heap as live >>= deleteAll strict heap bs) := by
  induction as generalizing live with
  | nil => rfl
  | cons a as ih =>
    rw [List.cons_append, deleteAll, deleteAll, bind_assoc]
    congr 1
    funext l
    exact ih l

theorem destroy_eq (strict : Bool) (heap : Elements) (live : Nat → Bool) (data : LayoutData) :
    destroy strict heap live data = deleteAll strict heap (pointers data) live := by
  unfold destroy pointers
  generalize data.libraries = ls
  induction ls generalizing live with
  | nil => rfl
  | cons l ls ih =>
    cases l with
    | none => rw [deleteLibraries, List.flatMap_cons]; exact ih live
    | some l =>
      rw [deleteLibraries, List.flatMap_cons, deleteAll_append, deleteElements_eq]
      congr 1
      funext x
      exact ih x

theorem deleteAll_lenient (heap : Elements) (as : List Nat) (live : Nat → Bool) :
    deleteAll false heap as live =
      if as.Nodup ∧ ∀ a ∈ as, live a = true then .ok fun b => live b && !decide (b ∈ as) else .ub := by
  induction as generalizing live with
  | nil => simp [deleteAll]
  | cons a as ih =>
    rw [deleteAll, deleteElement, deleteGeometries_lenient]
    by_cases ha : live a = true
    · rw [if_pos ha, Res.ok_bind, Res.pure_eq, Res.ok_bind, ih]
      by_cases hc : as.Nodup ∧ ∀ b ∈ as, (if b = a then false else live b) = true
      · have hn : a ∉ as := fun h => by have := hc.2 a h; simp at this
        rw [if_pos hc, if_pos]
        · congr 1
          funext b
          by_cases hb : b = a
          · simp [hb]
          · simp [hb]
        · refine ⟨List.nodup_cons.2 ⟨hn, hc.1⟩, fun b hb => ?_⟩
          rcases List.mem_cons.1 hb with rfl | hb
          · exact ha
          · have := hc.2 b hb
            split at this
            · cases this
            · exact this
      · rw [if_neg hc, if_neg]
        rintro ⟨h1, h2⟩
        rw [List.nodup_cons] at h1
        refine hc ⟨h1.2, fun b hb => ?_⟩
        rw [if_neg (by rintro rfl; exact h1.1 hb)]
        exact h2 b (List.mem_cons_of_mem _ hb)
    · rw [if_neg ha, if_neg]
      · rfl
      · exact fun h => ha (h.2 a (by simp))

open Classical in
theorem deleteAll_strict (heap : Elements) (as : List Nat) (live : Nat → Bool) :
    deleteAll true heap as live =
      if ∃ a ∈ as, ∃ g, some g ∈ (heap a).geometries ∧ g.type ≠ .undefined then .ub else deleteAll false heap as live := by
  induction as generalizing live with
  | nil => simp [deleteAll]
  | cons a as ih =>
    rw [deleteAll, deleteAll, deleteElement, deleteElement, deleteGeometries_strict, deleteGeometries_lenient]
    by_cases ha : live a = true
    · rw [if_pos ha, if_pos ha]
      by_cases h1 : ∃ g, some g ∈ (heap a).geometries ∧ g.type ≠ .undefined
      · rw [if_pos h1, if_pos ⟨a, by simp, h1⟩]; rfl
      · rw [if_neg h1]
        simp only [Res.ok_bind, Res.pure_eq]
        rw [ih]
        by_cases h2 : ∃ a ∈ as, ∃ g, some g ∈ (heap a).geometries ∧ g.type ≠ .undefined
        · rw [if_pos h2, if_pos]
          obtain ⟨b, hb, h⟩ := h2
          exact ⟨b, List.mem_cons_of_mem _ hb, h⟩
        · rw [if_neg h2, if_neg]
          rintro ⟨b, hb, h⟩
          rcases List.mem_cons.1 hb with rfl | hb
          · exact h1 h
          · exact h2 ⟨b, hb, h⟩
    · rw [if_neg ha, if_neg ha]
      simp only [Res.ub_bind]
      split <;> rfl

/-! ### post-processing neither makes nor loses geometries -/

/-- the types of all geometries -/
def Kinds (h h' : Elements) : Prop := ∀ a, (h' a).geometries.map (Option.map Geometry.type) = (h a).geometries.map (Option.map Geometry.type)

theorem Kinds.trans {a b c : Elements} (h1 : Kinds a b) (h2 : Kinds b c) : Kinds a c := fun x => (h2 x).trans (h1 x)

theorem kinds_resolveGeoms (libs : List (Option Library)) (a : Nat) (ks : List Nat) (h h' : Elements) (b : Bool)
    (hr : Gds.resolveGeoms libs a ks h = .ok (h', b)) : Kinds h h' := by
  induction ks generalizing h with
  | nil => cases hr; exact fun _ => rfl
  | cons k ks ih =>
    rw [Gds.resolveGeoms] at hr
    split at hr
    · rename_i g hg
      split at hr
      · exact ih h hr
      · obtain ⟨x, h1, hr⟩ := Gds.bind_ok hr
        cases x with
        | none => cases hr; exact fun _ => rfl
        | some c =>
          refine Kinds.trans ?_ (ih _ hr)
          intro d
          have e1 : ∀ e : Element, { e with nested := true }.geometries = e.geometries := fun _ => rfl
          have e2 : ((h a).geometries.set k (some { g with element := some c })).map (Option.map Geometry.type) =
              (h a).geometries.map (Option.map Geometry.type) := by
            rw [List.map_set]
            apply List.ext_getElem?
            intro i
            rw [List.getElem?_set]
            split
            · rename_i hki
              subst hki
              split
              · rw [List.getElem?_map, hg]; rfl
              · rename_i hlen
                rw [List.length_map] at hlen
                rw [List.getElem?_eq_none (by simpa using hlen)]
            · rfl
          by_cases hd : d = a
          · subst hd
            by_cases hc : d = c
            · subst hc; simpa using e2
            · simpa [hc] using e2
          · by_cases hc : d = c
            · subst hc; simp [hd]
            · simp [hd, hc]
    · cases hr

theorem kinds_resolveElems (libs : List (Option Library)) (es : List (Option Nat)) (h h' : Elements) (b : Bool)
    (hr : Gds.resolveElems libs es h = .ok (h', b)) : Kinds h h' := by
  induction es generalizing h with
  | nil => cases hr; exact fun _ => rfl
  | cons e es ih =>
    cases e with
    | none => cases hr
    | some a =>
      rw [Gds.resolveElems] at hr
      obtain ⟨⟨h1, done⟩, h2, hr⟩ := Gds.bind_ok hr
      have hk := kinds_resolveGeoms _ _ _ _ _ _ h2
      dsimp only at hr
      split at hr
      · exact hk.trans (ih _ hr)
      · cases hr; exact hk

theorem kinds_resolveLibs (libs ls : List (Option Library)) (h h' : Elements) (b : Bool)
    (hr : Gds.resolveLibs libs ls h = .ok (h', b)) : Kinds h h' := by
  induction ls generalizing h with
  | nil => cases hr; exact fun _ => rfl
  | cons l ls ih =>
    cases l with
    | none => cases hr
    | some l =>
      rw [Gds.resolveLibs] at hr
      obtain ⟨⟨h1, done⟩, h2, hr⟩ := Gds.bind_ok hr
      have hk := kinds_resolveElems _ _ _ _ _ h2
      dsimp only at hr
      split at hr
      · exact hk.trans (ih _ hr)
      · cases hr; exact hk

theorem enumerate_pointers (heap : Elements) (ls ls' : List (Option Library)) (h : Gds.enumerateLayers heap ls = .ok ls') :
    ls'.map (Option.map Library.elements) = ls.map (Option.map Library.elements) := by
  induction ls generalizing ls' with
  | nil => cases h; rfl
  | cons l ls ih =>
    cases l with
    | none => cases h
    | some l =>
      rw [Gds.enumerateLayers] at h
      obtain ⟨l1, h1, h⟩ := Gds.bind_ok h
      obtain ⟨t, h2, h⟩ := Gds.bind_ok h
      cases h
      obtain ⟨_, _, h1⟩ := Gds.bind_ok h1
      cases h1
      rw [List.map_cons, List.map_cons, ih _ h2]
      rfl

theorem evalElems_elements (heap : Elements) (es : List (Option Nat)) (l l' : Library) (h : es.foldlM (Gds.evalElem heap) l = .ok l') :
    l'.elements = l.elements := by
  induction es generalizing l with
  | nil => cases h; rfl
  | cons e es ih =>
    rw [List.foldlM_cons] at h
    obtain ⟨l1, h1, h⟩ := Gds.bind_ok h
    rw [ih _ h]
    cases e with
    | none => cases h1
    | some a =>
      unfold Gds.evalElem at h1
      dsimp only at h1
      split at h1
      · cases h1; rfl
      · cases h1; rfl

theorem evaluate_pointers (heap : Elements) (ls ls' : List (Option Library)) (h : Gds.evaluateBoundingBox heap ls = .ok ls') :
    ls'.map (Option.map Library.elements) = ls.map (Option.map Library.elements) := by
  induction ls generalizing ls' with
  | nil => cases h; rfl
  | cons l ls ih =>
    cases l with
    | none => cases h
    | some l =>
      rw [Gds.evaluateBoundingBox] at h
      obtain ⟨l1, h1, h⟩ := Gds.bind_ok h
      obtain ⟨t, h2, h⟩ := Gds.bind_ok h
      cases h
      rw [List.map_cons, List.map_cons, ih _ h2]
      simp [evalElems_elements _ _ _ _ h1]

theorem pointers_congr {d d' : LayoutData} (h : d'.libraries.map (Option.map Library.elements) = d.libraries.map (Option.map Library.elements)) :
    pointers d' = pointers d := by
  have e : ∀ d : LayoutData, pointers d = (d.libraries.map (Option.map Library.elements)).flatMap fun x => (x.getD []).filterMap id := by
    intro d
    unfold pointers
    rw [List.flatMap_map]
    congr 1
    funext l
    cases l <;> rfl
  rw [e, e, h]

theorem postProcess_keeps (libs libs' : List (Option Library)) (heap heap' : Elements) (b : Bool)
    (h : Gds.postProcess libs heap = .ok (libs', heap', b)) :
    libs'.map (Option.map Library.elements) = libs.map (Option.map Library.elements) ∧ Kinds heap heap' := by
  unfold Gds.postProcess at h
  obtain ⟨⟨h1, done⟩, h2, h⟩ := Gds.bind_ok h
  have hk := kinds_resolveLibs _ _ _ _ _ h2
  dsimp only at h
  split at h
  · obtain ⟨l1, h3, h⟩ := Gds.bind_ok h
    obtain ⟨l2, h4, h⟩ := Gds.bind_ok h
    cases h
    exact ⟨(evaluate_pointers _ _ _ h4).trans (enumerate_pointers _ _ _ h3), hk⟩
  · cases h
    exact ⟨rfl, hk⟩

theorem hasGeometry_iff (heap : Elements) (data : LayoutData) :
    HasGeometry heap data ↔ ∃ a ∈ pointers data, ∃ t, some t ∈ (heap a).geometries.map (Option.map Geometry.type) ∧ t ≠ .undefined := by
  unfold HasGeometry
  constructor
  · rintro ⟨a, ha, g, hg, ht⟩
    exact ⟨a, ha, g.type, List.mem_map.2 ⟨_, hg, rfl⟩, ht⟩
  · rintro ⟨a, ha, t, hg, ht⟩
    obtain ⟨x, hx, e⟩ := List.mem_map.1 hg
    cases x with
    | none => cases e
    | some g => cases e; exact ⟨a, ha, g, hx, ht⟩

end Verif.Layout
