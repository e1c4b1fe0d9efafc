import Verif.Model.Generator
import Verif.Spec.Generator
import Verif.Proofs.LayoutConverter
import Verif.Proofs.Zond
import Verif.Proofs.Ieee

/-! Proofs about the bitmap generator. -/

namespace Verif.Generator
open Verif Converter Spec BitMatrix Zond

theorem boxMeets_iff (ws : Workspace) (g : Geometry) : boxMeets ws g = true ↔ Touches ws g := by
  unfold boxMeets Touches
  split
  · simp; omega
  · simp; omega

theorem gatherOne_mem {H : Elements} (hH : ∀ e g, some g ∈ (H e).geometries → g.coords.length < 2 ^ 64)
    {n : Nat} {ws : Workspace} {p : Geometry} (hp : p.coords.length < 2 ^ 64) {gs ls : List Geometry}
    (h : gatherOne H n ws (some p) = some (.ok (gs, ls))) (x : Geometry) :
    (x ∈ gs ∨ x ∈ ls) ↔ Touches ws p ∧ Contributes H ws p x := by
  unfold gatherOne at h
  by_cases hm : boxMeets ws p = true
  · have ht := (boxMeets_iff ws p).mp hm
    simp only [hm, if_true] at h
    cases hty : p.type with
    | rectangle | polygon =>
      simp only [hty] at h
      injection h with h; injection h with h; injection h with h1 h2
      subst h1; subst h2
      constructor
      · rintro (h | h)
        · cases h
        · simp at h; subst h; exact ⟨ht, .direct (by simp [hty])⟩
      · rintro ⟨_, hc⟩
        cases hc with
        | direct _ => simp
        | segment e _ _ => rw [hty] at e; cases e
        | placed e _ _ _ => rw [hty] at e; cases e
    | text | undefined =>
      simp only [hty] at h
      injection h with h; injection h with h; injection h with h1 h2
      subst h1; subst h2
      constructor
      · rintro (h | h) <;> cases h
      · rintro ⟨_, hc⟩
        cases hc with
        | direct e => rw [hty] at e; rcases e with e | e <;> cases e
        | segment e _ _ => rw [hty] at e; cases e
        | placed e _ _ _ => rw [hty] at e; cases e
    | path =>
      simp only [hty] at h
      obtain ⟨rs, e1, e2⟩ := Run.bind_ok h
      injection e2 with e2; injection e2 with e2; injection e2 with h1 h2
      subst h1; subst h2
      injection e1 with e1
      have hrs : 1 ≤ p.coords.length ∧ rs = List.replicate (p.coords.length - 1) (originRect p.layer) := by
        by_cases hc : p.coords = []
        · rw [pathToRectList_empty p hty hc] at e1; cases e1
        · refine ⟨List.length_pos_of_ne_nil hc, ?_⟩
          rcases pathToRectList_cases p hty hc hp with h' | h'
          · rw [h'] at e1; injection e1 with e1; exact e1.symm
          · rw [h'] at e1; cases e1
      rw [hrs.2]
      simp only [List.mem_filter, List.mem_replicate, boxMeets_iff, List.not_mem_nil, or_false]
      constructor
      · rintro ⟨⟨h1, rfl⟩, h2⟩
        exact ⟨ht, .segment hty (by omega) h2⟩
      · rintro ⟨_, hc⟩
        cases hc with
        | direct e => rw [hty] at e; rcases e with e | e <;> cases e
        | segment _ h1 h2 => exact ⟨⟨by omega, rfl⟩, h2⟩
        | placed e _ _ _ => rw [hty] at e; cases e
    | reference =>
      simp only [hty] at h
      obtain ⟨rs, e1, e2⟩ := Run.bind_ok h
      injection e2 with e2; injection e2 with e2; injection e2 with h1 h2
      subst h1; subst h2
      obtain ⟨_, e, _, _, he, _⟩ := splitSref_ok_inv e1
      have hmem := splitSref_mem hH n p ⟨0, 0⟩ rs e e1 he
      simp only [List.mem_filter, boxMeets_iff, List.not_mem_nil, or_false, hmem]
      constructor
      · rintro ⟨h1, h2⟩
        exact ⟨ht, .placed hty he h1 h2⟩
      · rintro ⟨_, hc⟩
        cases hc with
        | direct e => rw [hty] at e; rcases e with e | e <;> cases e
        | segment e _ _ => rw [hty] at e; cases e
        | placed _ e' h1 h2 => rw [he] at e'; injection e' with e'; subst e'; exact ⟨h1, h2⟩
  · have ht : ¬ Touches ws p := fun t => hm ((boxMeets_iff ws p).mpr t)
    simp only [hm] at h
    injection h with h; injection h with h; injection h with h1 h2
    subst h1; subst h2
    constructor
    · rintro (h | h) <;> cases h
    · rintro ⟨h, _⟩; exact absurd h ht

theorem gatherList_mem {H : Elements} (hH : ∀ e g, some g ∈ (H e).geometries → g.coords.length < 2 ^ 64)
    {n : Nat} {ws : Workspace} : ∀ {ps : List (Option Geometry)} (_ : ∀ p, some p ∈ ps → p.coords.length < 2 ^ 64)
    {gs ls : List Geometry} (_ : gatherList H n ws ps = some (.ok (gs, ls))) (x : Geometry),
    (x ∈ gs ∨ x ∈ ls) ↔ ∃ p, some p ∈ ps ∧ Touches ws p ∧ Contributes H ws p x
  | [], _, gs, ls, h, x => by
    unfold gatherList at h
    injection h with h; injection h with h; injection h with h1 h2
    subst h1; subst h2; simp
  | p :: ps, hp, gs, ls, h, x => by
    unfold gatherList at h
    obtain ⟨⟨a1, a2⟩, e1, e2⟩ := Run.bind_ok h
    obtain ⟨⟨b1, b2⟩, e3, e4⟩ := Run.bind_ok e2
    injection e4 with e4; injection e4 with e4; injection e4 with h1 h2
    subst h1; subst h2
    have ih := gatherList_mem hH (fun q hq => hp q (List.mem_cons_of_mem _ hq)) e3 x
    have hd : (x ∈ a1 ∨ x ∈ a2) ↔ ∃ q, some q = p ∧ Touches ws q ∧ Contributes H ws q x := by
      cases p with
      | none =>
        unfold gatherOne at e1
        injection e1 with e1; injection e1 with e1; injection e1 with h1 h2
        subst h1; subst h2; simp
      | some q =>
        rw [gatherOne_mem hH (hp q List.mem_cons_self) e1]
        simp
    simp only [List.mem_append, List.mem_cons]
    constructor
    · rintro ((h | h) | (h | h))
      · obtain ⟨q, e, r⟩ := hd.mp (.inl h); exact ⟨q, .inl e, r⟩
      · obtain ⟨q, e, r⟩ := ih.mp (.inl h); exact ⟨q, .inr e, r⟩
      · obtain ⟨q, e, r⟩ := hd.mp (.inr h); exact ⟨q, .inl e, r⟩
      · obtain ⟨q, e, r⟩ := ih.mp (.inr h); exact ⟨q, .inr e, r⟩
    · rintro ⟨q, e | e, r⟩
      · rcases hd.mpr ⟨q, e, r⟩ with h | h
        · exact .inl (.inl h)
        · exact .inr (.inl h)
      · rcases ih.mpr ⟨q, e, r⟩ with h | h
        · exact .inl (.inr h)
        · exact .inr (.inr h)

theorem gatherLayers_mem {H : Elements} (hH : ∀ e g, some g ∈ (H e).geometries → g.coords.length < 2 ^ 64)
    {n : Nat} {ws : Workspace} {req : List Int} : ∀ {lays : List Layer}
    (_ : ∀ l p, l ∈ lays → some p ∈ l.geometries → p.coords.length < 2 ^ 64)
    {gs ls : List Geometry} (_ : gatherLayers H n ws req lays = some (.ok (gs, ls))) (x : Geometry),
    (x ∈ gs ∨ x ∈ ls) ↔ ∃ before l after, lays = before ++ l :: after ∧ l.layer ∈ req ∧
      (∀ l' ∈ before, l'.layer ∉ req) ∧ ∃ p, some p ∈ l.geometries ∧ Touches ws p ∧ Contributes H ws p x
  | [], _, gs, ls, h, x => by
    unfold gatherLayers at h
    injection h with h; injection h with h; injection h with h1 h2
    subst h1; subst h2; simp
  | l :: rest, hp, gs, ls, h, x => by
    unfold gatherLayers at h
    by_cases hl : l.layer ∈ req
    · simp only [hl, if_true] at h
      rw [gatherList_mem hH (fun p hq => hp l p List.mem_cons_self hq) h]
      constructor
      · intro hh; exact ⟨[], l, rest, rfl, hl, by simp, hh⟩
      · rintro ⟨b, l', a, e, h1, h2, h3⟩
        cases b with
        | nil => simp at e; obtain ⟨rfl, _⟩ := e; exact h3
        | cons y b => simp at e; obtain ⟨rfl, _⟩ := e; exact absurd hl (h2 _ List.mem_cons_self)
    · simp only [hl, if_false] at h
      rw [gatherLayers_mem hH (fun l p hq => hp l p (List.mem_cons_of_mem _ hq)) h]
      constructor
      · rintro ⟨b, l', a, e, h1, h2, h3⟩
        refine ⟨l :: b, l', a, by simp [e], h1, ?_, h3⟩
        intro y hy
        rcases List.mem_cons.mp hy with rfl | hy
        · exact hl
        · exact h2 y hy
      · rintro ⟨b, l', a, e, h1, h2, h3⟩
        cases b with
        | nil => simp at e; obtain ⟨rfl, _⟩ := e; exact absurd h1 hl
        | cons y b =>
          simp at e; obtain ⟨rfl, e⟩ := e
          exact ⟨b, l', a, e, h1, fun z hz => h2 z (List.mem_cons_of_mem _ hz), h3⟩

theorem gatherLibs_mem {H : Elements} (hH : ∀ e g, some g ∈ (H e).geometries → g.coords.length < 2 ^ 64)
    {n : Nat} {ws : Workspace} {req : List Int} : ∀ {libs : List (Option Library)}
    (_ : ∀ lib l p, some lib ∈ libs → l ∈ lib.layers → some p ∈ l.geometries → p.coords.length < 2 ^ 64)
    {gs ls : List Geometry} (_ : gatherLibs H n ws req libs = some (.ok (gs, ls))) (x : Geometry),
    (x ∈ gs ∨ x ∈ ls) ↔ ∃ p, (∃ lib l, some lib ∈ libs ∧ FirstRequested lib req l ∧ some p ∈ l.geometries) ∧
      Touches ws p ∧ Contributes H ws p x
  | [], _, gs, ls, h, x => by
    unfold gatherLibs at h
    injection h with h; injection h with h; injection h with h1 h2
    subst h1; subst h2; simp
  | none :: rest, hp, gs, ls, h, x => by
    unfold gatherLibs at h; injection h with h; cases h
  | some lib :: rest, hp, gs, ls, h, x => by
    unfold gatherLibs at h
    obtain ⟨⟨a1, a2⟩, e1, e2⟩ := Run.bind_ok h
    obtain ⟨⟨b1, b2⟩, e3, e4⟩ := Run.bind_ok e2
    injection e4 with e4; injection e4 with e4; injection e4 with h1 h2
    subst h1; subst h2
    have hd := gatherLayers_mem hH (fun l p hq => hp lib l p List.mem_cons_self hq) e1 x
    have ih := gatherLibs_mem hH (fun lib l p hq => hp lib l p (List.mem_cons_of_mem _ hq)) e3 x
    simp only [List.mem_append]
    constructor
    · intro hx
      have hx' : (x ∈ a1 ∨ x ∈ a2) ∨ (x ∈ b1 ∨ x ∈ b2) := by tauto
      rcases hx' with h | h
      · obtain ⟨b, l, a, e, h1, h2, p, h3, h4⟩ := hd.mp h
        exact ⟨p, ⟨lib, l, List.mem_cons_self, ⟨b, a, e, h1, h2⟩, h3⟩, h4⟩
      · obtain ⟨p, ⟨lib', l, h1, h2⟩, h3⟩ := ih.mp h
        exact ⟨p, ⟨lib', l, List.mem_cons_of_mem _ h1, h2⟩, h3⟩
    · rintro ⟨p, ⟨lib', l, h1, ⟨b, a, e, h2, h3⟩, h4⟩, h5⟩
      rcases List.mem_cons.mp h1 with h1 | h1
      · injection h1 with h1; subst h1
        have := hd.mpr ⟨b, l, a, e, h2, h3, p, h4, h5⟩
        tauto
      · have := ih.mpr ⟨p, ⟨lib', l, h1, ⟨b, a, e, h2, h3⟩, h4⟩, h5⟩
        tauto

/-! ### nothing in the collection throws -/

theorem mapM_noThrow {α β : Type} {f : α → Res β} (hf : ∀ a e, f a ≠ .throw e) :
    ∀ (l : List α) (e : Exc), l.mapM f ≠ .throw e
  | [], e => by simp
  | a :: l, e => by
    rw [List.mapM_cons]
    refine bind_noThrow (hf a) (fun b => bind_noThrow (mapM_noThrow hf l) fun bs => pure_noThrow _) e

theorem addCoordValue_noThrow (g : Geometry) (d : Coord) : ∀ e, addCoordValue g d ≠ .throw e := by
  unfold addCoordValue
  refine bind_noThrow (add32_noThrow _ _) fun _ => bind_noThrow (add32_noThrow _ _) fun _ =>
    bind_noThrow (add32_noThrow _ _) fun _ => bind_noThrow (add32_noThrow _ _) fun _ =>
    bind_noThrow (mapM_noThrow (fun c => ?_) _) fun _ => pure_noThrow _
  exact bind_noThrow (add32_noThrow _ _) fun _ => bind_noThrow (add32_noThrow _ _) fun _ => pure_noThrow _

theorem pathToRectList_noThrow (p : Geometry) (ht : p.type = .path) (hl : p.coords.length < 2 ^ 64) :
    ∀ e, pathToRectList (some p) ≠ .throw e := by
  intro e
  by_cases hc : p.coords = []
  · rw [pathToRectList_empty p ht hc]; simp
  · rcases pathToRectList_cases p ht hc hl with h' | h' <;> rw [h'] <;> simp

/-- a run that does not end in an exception -/
def NoThrow {α : Type} (x : Run α) : Prop := ∀ e, x ≠ some (.throw e)

theorem NoThrow.bind {α β : Type} {x : Run α} {f : α → Run β} (hx : NoThrow x) (hf : ∀ a, NoThrow (f a)) :
    NoThrow (x.bind f) := by
  intro e
  cases x with
  | none => simp [Run.bind]
  | some r =>
    cases r with
    | ok a => exact hf a e
    | throw e' => exact absurd rfl (hx e')
    | ub => simp [Run.bind]

theorem noThrow_some {α : Type} {r : Res α} (h : ∀ e, r ≠ .throw e) : NoThrow (some r) := by
  intro e he; injection he with he; exact h e he

theorem splitSref_noThrow {H : Elements} (hH : ∀ e g, some g ∈ (H e).geometries → g.coords.length < 2 ^ 64) :
    ∀ (n : Nat) (s : Option Geometry) (mn : Coord), NoThrow (splitSref H n s mn)
  | 0, s, mn => by intro e; simp [splitSref]
  | n + 1, s, mn => by
    have ih := splitSref_noThrow hH n
    cases s with
    | none => intro e; simp [splitSref]
    | some r =>
      unfold splitSref
      by_cases ht : r.type ≠ .reference
      · simp only [ht, ne_eq, not_false_eq_true, if_true]; intro e; simp
      · simp only [ht, if_false]
        cases he : r.element with
        | none => intro e; simp
        | some e0 =>
          simp only
          refine NoThrow.bind (noThrow_some ?_) fun mn' => ?_
          · exact bind_noThrow (add32_noThrow _ _) fun _ => bind_noThrow (add32_noThrow _ _) fun _ => pure_noThrow _
          · have key : ∀ l : List (Option Geometry), (∀ g, some g ∈ l → g.coords.length < 2 ^ 64) →
                NoThrow (splitAll (splitSref H n) mn' l) := by
              intro l
              induction l with
              | nil => intro _ e; simp [splitAll]
              | cons it rest ihl =>
                intro hl
                unfold splitAll
                refine NoThrow.bind ?_ fun a => NoThrow.bind (ihl fun g hg => hl g (List.mem_cons_of_mem _ hg))
                  fun b => noThrow_some (by simp)
                unfold splitOne
                cases it with
                | none => exact noThrow_some (by simp)
                | some g =>
                  cases hty : g.type <;> simp only [hty]
                  · exact noThrow_some (by simp)
                  · exact noThrow_some (bind_noThrow (addCoordValue_noThrow _ _) fun _ => by simp)
                  · exact noThrow_some (bind_noThrow (pathToRectList_noThrow g hty (hl g List.mem_cons_self))
                      fun _ => mapM_noThrow (fun _ => addCoordValue_noThrow _ _) _)
                  · exact noThrow_some (by simp)
                  · exact noThrow_some (bind_noThrow (addCoordValue_noThrow _ _) fun _ => by simp)
                  · exact ih _ _
            exact key _ (hH e0)

theorem gatherList_noThrow {H : Elements} (hH : ∀ e g, some g ∈ (H e).geometries → g.coords.length < 2 ^ 64)
    {n : Nat} {ws : Workspace} : ∀ (ps : List (Option Geometry)) (_ : ∀ p, some p ∈ ps → p.coords.length < 2 ^ 64),
    NoThrow (gatherList H n ws ps)
  | [], _ => by intro e; simp [gatherList]
  | p :: ps, hp => by
    unfold gatherList
    refine NoThrow.bind ?_ fun a => NoThrow.bind
      (gatherList_noThrow hH ps fun q hq => hp q (List.mem_cons_of_mem _ hq)) fun b => noThrow_some (by simp)
    unfold gatherOne
    cases p with
    | none => exact noThrow_some (by simp)
    | some g =>
      simp only
      split
      · cases hty : g.type <;> simp only [hty]
        · exact noThrow_some (by simp)
        · exact noThrow_some (by simp)
        · exact NoThrow.bind (noThrow_some (pathToRectList_noThrow g hty (hp g List.mem_cons_self))) fun _ =>
            noThrow_some (by simp)
        · exact noThrow_some (by simp)
        · exact noThrow_some (by simp)
        · exact NoThrow.bind (splitSref_noThrow hH _ _ _) fun _ => noThrow_some (by simp)
      · exact noThrow_some (by simp)

theorem gatherLayers_noThrow {H : Elements} (hH : ∀ e g, some g ∈ (H e).geometries → g.coords.length < 2 ^ 64)
    {n : Nat} {ws : Workspace} {req : List Int} : ∀ (lays : List Layer)
    (_ : ∀ l p, l ∈ lays → some p ∈ l.geometries → p.coords.length < 2 ^ 64), NoThrow (gatherLayers H n ws req lays)
  | [], _ => by intro e; simp [gatherLayers]
  | l :: rest, hp => by
    unfold gatherLayers
    split
    · exact gatherList_noThrow hH _ fun p hq => hp l p List.mem_cons_self hq
    · exact gatherLayers_noThrow hH rest fun l p hq => hp l p (List.mem_cons_of_mem _ hq)

theorem gatherLibs_noThrow {H : Elements} (hH : ∀ e g, some g ∈ (H e).geometries → g.coords.length < 2 ^ 64)
    {n : Nat} {ws : Workspace} {req : List Int} : ∀ (libs : List (Option Library))
    (_ : ∀ lib l p, some lib ∈ libs → l ∈ lib.layers → some p ∈ l.geometries → p.coords.length < 2 ^ 64),
    NoThrow (gatherLibs H n ws req libs)
  | [], _ => by intro e; simp [gatherLibs]
  | none :: rest, _ => by intro e; simp [gatherLibs]
  | some lib :: rest, hp => by
    unfold gatherLibs
    exact NoThrow.bind (gatherLayers_noThrow hH _ fun l p hq => hp lib l p List.mem_cons_self hq) fun a =>
      NoThrow.bind (gatherLibs_noThrow hH rest fun lib l p hq => hp lib l p (List.mem_cons_of_mem _ hq)) fun b =>
        noThrow_some (by simp)

/-! ### collection that ends -/

theorem gatherList_total (H : Elements) (n : Nat) (ws : Workspace) : ∀ (ps : List (Option Geometry))
    (_ : ∀ p, some p ∈ ps → Touches ws p → p.type = .path → ∃ rs, pathToRectList (some p) = .ok rs)
    (_ : ∀ p, some p ∈ ps → Touches ws p → p.type = .reference → ∃ rs, splitSref H n (some p) ⟨0, 0⟩ = some (.ok rs)),
    ∃ l, gatherList H n ws ps = some (.ok l)
  | [], _, _ => ⟨_, rfl⟩
  | p :: ps, h1, h2 => by
    obtain ⟨l, e⟩ := gatherList_total H n ws ps (fun q hq => h1 q (List.mem_cons_of_mem _ hq))
      (fun q hq => h2 q (List.mem_cons_of_mem _ hq))
    have hd : ∃ a, gatherOne H n ws p = some (.ok a) := by
      unfold gatherOne
      cases p with
      | none => exact ⟨_, rfl⟩
      | some g =>
        simp only
        split
        · rename_i hm
          have ht := (boxMeets_iff ws g).mp hm
          cases hty : g.type <;> simp only
          · exact ⟨_, rfl⟩
          · exact ⟨_, rfl⟩
          · obtain ⟨rs, e⟩ := h1 g List.mem_cons_self ht hty
            rw [e]; exact ⟨_, rfl⟩
          · exact ⟨_, rfl⟩
          · exact ⟨_, rfl⟩
          · obtain ⟨rs, e⟩ := h2 g List.mem_cons_self ht hty
            rw [e]; exact ⟨_, rfl⟩
        · exact ⟨_, rfl⟩
    obtain ⟨a, ea⟩ := hd
    unfold gatherList
    rw [ea, e]
    exact ⟨_, rfl⟩

theorem gatherLayers_total (H : Elements) (n : Nat) (ws : Workspace) (req : List Int) : ∀ (lays : List Layer)
    (_ : ∀ b l a p, lays = b ++ l :: a → l.layer ∈ req → (∀ l' ∈ b, l'.layer ∉ req) → some p ∈ l.geometries → Touches ws p →
      (p.type = .path → ∃ rs, pathToRectList (some p) = .ok rs) ∧
      (p.type = .reference → ∃ rs, splitSref H n (some p) ⟨0, 0⟩ = some (.ok rs))),
    ∃ l, gatherLayers H n ws req lays = some (.ok l)
  | [], _ => ⟨_, rfl⟩
  | l :: rest, h => by
    unfold gatherLayers
    by_cases hl : l.layer ∈ req
    · simp only [hl, if_true]
      exact gatherList_total H n ws _ (fun p hp ht hty => (h [] l rest p rfl hl (by simp) hp ht).1 hty)
        (fun p hp ht hty => (h [] l rest p rfl hl (by simp) hp ht).2 hty)
    · simp only [hl, if_false]
      refine gatherLayers_total H n ws req rest fun b l' a p e h1 h2 h3 h4 => ?_
      refine h (l :: b) l' a p (by simp [e]) h1 ?_ h3 h4
      intro y hy
      rcases List.mem_cons.mp hy with rfl | hy
      · exact hl
      · exact h2 y hy

theorem gatherLibs_total (H : Elements) (n : Nat) (ws : Workspace) (req : List Int) : ∀ (libs : List (Option Library))
    (_ : none ∉ libs)
    (_ : ∀ p, (∃ lib l, some lib ∈ libs ∧ FirstRequested lib req l ∧ some p ∈ l.geometries) → Touches ws p →
      p.type = .path → ∃ rs, pathToRectList (some p) = .ok rs)
    (_ : ∀ p, (∃ lib l, some lib ∈ libs ∧ FirstRequested lib req l ∧ some p ∈ l.geometries) → Touches ws p →
      p.type = .reference → ∃ rs, splitSref H n (some p) ⟨0, 0⟩ = some (.ok rs)),
    ∃ l, gatherLibs H n ws req libs = some (.ok l)
  | [], _, _, _ => ⟨_, rfl⟩
  | none :: rest, h, _, _ => absurd List.mem_cons_self h
  | some lib :: rest, h, h1, h2 => by
    obtain ⟨a, ea⟩ := gatherLayers_total H n ws req lib.layers fun b l a p e g1 g2 g3 g4 =>
      ⟨h1 p ⟨lib, l, List.mem_cons_self, ⟨b, a, e, g1, g2⟩, g3⟩ g4, h2 p ⟨lib, l, List.mem_cons_self, ⟨b, a, e, g1, g2⟩, g3⟩ g4⟩
    obtain ⟨r, er⟩ := gatherLibs_total H n ws req rest (fun hn => h (List.mem_cons_of_mem _ hn))
      (fun p ⟨lib', l, g1, g2⟩ => h1 p ⟨lib', l, List.mem_cons_of_mem _ g1, g2⟩)
      (fun p ⟨lib', l, g1, g2⟩ => h2 p ⟨lib', l, List.mem_cons_of_mem _ g1, g2⟩)
    unfold gatherLibs
    rw [ea, er]
    exact ⟨_, rfl⟩

/-! ### drawing a list -/

theorem zondAll_ok {R C : Nat} {rnd : ℚ → ℚ} {z : Zond} : ∀ {gs : List (Option Geometry)} {m m' : BitMatrix},
    Shape R C m → zondAll rnd z gs m = .ok () m' →
    (∀ g ∈ gs, ∃ P, Paints R C (zondGeometry rnd z g) P) ∧
    Ones m m' (fun i j => ∃ g ∈ gs, ∃ P, Paints R C (zondGeometry rnd z g) P ∧ P i j)
  | [], m, m', hm, h => by
    unfold zondAll at h
    simp only [M.run_pure, Out.ok.injEq, true_and] at h
    subst h
    exact ⟨by simp, (Ones.refl hm.1).congr fun i j => by simp⟩
  | g :: gs, m, m', hm, h => by
    unfold zondAll at h
    rcases zondGeometry_outcome R C rnd z g with (⟨P, hp, _⟩ | hu) | ht
    · obtain ⟨m1, e1, o1⟩ := hp m hm
      rw [M.run_bind_ok e1] at h
      obtain ⟨ha, o2⟩ := zondAll_ok (o1.shape hm) h
      refine ⟨?_, (o1.trans o2).congr fun i j => ?_⟩
      · intro g' hg'
        rcases List.mem_cons.mp hg' with rfl | hg'
        · exact ⟨P, hp⟩
        · exact ha g' hg'
      · constructor
        · rintro (h | ⟨g', h1, h2⟩)
          · exact ⟨g, List.mem_cons_self, P, hp, h⟩
          · exact ⟨g', List.mem_cons_of_mem _ h1, h2⟩
        · rintro ⟨g', h1, Q, h2, h3⟩
          rcases List.mem_cons.mp h1 with rfl | h1
          · left
            -- both describe the cells painted on the blank bitmap
            obtain ⟨m2, e2, o2⟩ := hp ⟨List.replicate R (List.replicate (bytesPerRow C) 0), R, C⟩ ⟨zeroMat_wf R C, rfl, rfl⟩
            obtain ⟨m3, e3, o3⟩ := h2 ⟨List.replicate R (List.replicate (bytesPerRow C) 0), R, C⟩ ⟨zeroMat_wf R C, rfl, rfl⟩
            rw [e2] at e3; injection e3 with _ e3; subst e3
            have a := o3.bits i j
            have b := o2.bits i j
            rw [zeroMat_cell] at a b
            simp only [Bool.false_eq_true, false_or] at a b
            exact b.mp (a.mpr h3)
          · exact Or.inr ⟨g', h1, Q, h2, h3⟩
    · rw [M.run_bind_ub (hu m hm)] at h; cases h
    · rw [M.run_bind_throw (ht m hm)] at h; cases h

theorem zondAll_throw {R C : Nat} {rnd : ℚ → ℚ} {z : Zond} : ∀ {gs : List (Option Geometry)} {m m' : BitMatrix} {e : Exc},
    Shape R C m → zondAll rnd z gs m = .throw e m' →
    e = .invalidArgument ∧ Shape R C m' ∧ ∃ g ∈ gs, Throws R C (zondGeometry rnd z g) .invalidArgument
  | [], m, m', e, hm, h => by unfold zondAll at h; simp at h
  | g :: gs, m, m', e, hm, h => by
    unfold zondAll at h
    rcases zondGeometry_outcome R C rnd z g with (⟨P, hp, _⟩ | hu) | ht
    · obtain ⟨m1, e1, o1⟩ := hp m hm
      rw [M.run_bind_ok e1] at h
      obtain ⟨h1, h2, g', h3, h4⟩ := zondAll_throw (o1.shape hm) h
      exact ⟨h1, h2, g', List.mem_cons_of_mem _ h3, h4⟩
    · rw [M.run_bind_ub (hu m hm)] at h; cases h
    · rw [M.run_bind_throw (ht m hm)] at h
      injection h with h1 h2
      subst h2
      exact ⟨h1.symm, hm, g, List.mem_cons_self, ht⟩

theorem zondAll_total {R C : Nat} {rnd : ℚ → ℚ} {z : Zond} : ∀ {gs : List (Option Geometry)} {m : BitMatrix},
    Shape R C m → (∀ g ∈ gs, ∃ P, Paints R C (zondGeometry rnd z g) P) → ∃ m', zondAll rnd z gs m = .ok () m'
  | [], m, hm, _ => ⟨m, rfl⟩
  | g :: gs, m, hm, h => by
    obtain ⟨P, hp⟩ := h g List.mem_cons_self
    obtain ⟨m1, e1, o1⟩ := hp m hm
    obtain ⟨m', e⟩ := zondAll_total (o1.shape hm) (fun g' hg' => h g' (List.mem_cons_of_mem _ hg'))
    exact ⟨m', by unfold zondAll; rw [M.run_bind_ok e1]; exact e⟩

/-! ### set-up -/

theorem sub32_of {a b : Int} (h : inI32 (a - b)) : sub32 a b = .ok (a - b) := chk32_ok h

theorem calcDelta_noThrow (rnd : ℚ → ℚ) (a b : Int) (n : Nat) : ∀ e, calcDelta rnd a b n ≠ .throw e := by
  unfold calcDelta
  exact bind_noThrow (sub32_noThrow _ _) fun _ => pure_noThrow _

theorem calcDelta_ok_iff (rnd : ℚ → ℚ) (a b : Int) (n : Nat) :
    (∃ v, calcDelta rnd a b n = .ok v) ↔ inI32 (b - a) := by
  unfold calcDelta sub32 chk32
  by_cases h : inI32 (b - a)
  · simp [h]
  · simp [h]

theorem calcDelta_ub (rnd : ℚ → ℚ) (a b : Int) (n : Nat) (h : ¬ inI32 (b - a)) : calcDelta rnd a b n = .ub := by
  unfold calcDelta sub32 chk32; simp [h]

theorem calcDelta_eq {rnd : ℚ → ℚ} (hr : Ieee.Rounding rnd) {a b : Int} {n : Nat} (h : inI32 (b - a)) (hn : 0 < n)
    (hn2 : n < 4294967296) : calcDelta rnd a b n = .ok (.fin (rnd ((|b - a| : Int) / n))) := by
  unfold calcDelta
  rw [sub32_of h, Res.ok_bind]
  have e1 : (n % 4294967296 : Nat) = n := Nat.mod_eq_of_lt hn2
  have e2 : (if b - a < 0 then -(b - a) else b - a) = |b - a| := by
    split
    · rw [abs_of_neg (by assumption)]
    · rw [abs_of_nonneg (by omega)]
  unfold inI32 at h
  have hi : |(|b - a| : Int)| ≤ 2 ^ 53 := by rw [abs_abs, abs_le]; omega
  have hi2 : |((n : Nat) : Int)| ≤ 2 ^ 53 := by rw [abs_le]; omega
  have r1 := hr.exact (|b - a|) 0 hi
  have r2 := hr.exact (n : Int) 0 hi2
  simp only [zpow_zero, mul_one] at r1 r2
  rw [e1, e2]
  unfold Fl.ofInt
  rw [r1, r2]
  have : ((n : Int) : ℚ) ≠ 0 := by exact_mod_cast hn.ne'
  simp [Fl.div, hn.ne']

theorem calcDelta_notNeg {rnd : ℚ → ℚ} (hr : Ieee.Rounding rnd) {a b : Int} {n : Nat} {v : Fl}
    (h : calcDelta rnd a b n = .ok v) : v.lt (.fin 0) = false := by
  unfold calcDelta at h
  cases hs : sub32 b a with
  | ub => rw [hs] at h; cases h
  | throw e => rw [hs] at h; cases h
  | ok d =>
    rw [hs] at h
    simp only [Res.ok_bind, Res.pure_eq, Res.ok.injEq] at h
    subst h
    unfold Fl.ofInt Fl.div
    have z0 : rnd 0 = 0 := by have := hr.exact 0 0 (by norm_num); simpa using this
    have nn : ∀ x : ℚ, 0 ≤ x → 0 ≤ rnd x := fun x hx => by rw [← z0]; exact hr.mono _ _ hx
    have a0 : 0 ≤ rnd (((if d < 0 then -d else d : Int)) : ℚ) := by
      apply nn
      have : 0 ≤ (if d < 0 then -d else d : Int) := by split <;> omega
      exact_mod_cast this
    have b0 : 0 ≤ rnd ((((n % 4294967296 : Nat) : Int)) : ℚ) := by
      apply nn
      exact_mod_cast Nat.zero_le _
    generalize rnd (((if d < 0 then -d else d : Int)) : ℚ) = A at a0 ⊢
    generalize rnd ((((n % 4294967296 : Nat) : Int)) : ℚ) = B at b0 ⊢
    simp only
    split
    · unfold Fl.infOf
      split
      · rfl
      · split
        · exact absurd a0 (not_le.mpr (by assumption))
        · rfl
    · simp only [Fl.lt, decide_eq_false_iff_not, not_lt]
      exact nn _ (div_nonneg a0 b0)

end Verif.Generator
