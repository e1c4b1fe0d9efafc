import Verif.Proofs.GdsiiReader

/-! Lemmas about the resolution of references and the library boxes of the GDSII reader. -/

namespace Verif.Gds
open Verif Spec.Gdsii

theorem findInLib_eq (h : Elements) (name : List UInt8) (es : List (Option Nat)) (he : none ∉ es) :
    findInLib h name es = .ok ((es.filterMap id).find? fun a => (h a).name = name) := by
  induction es with
  | nil => rfl
  | cons e es ih =>
    cases e with
    | none => simp at he
    | some a =>
      have e1 : (some a :: es).filterMap id = a :: es.filterMap id := rfl
      rw [e1, findInLib, List.find?_cons]
      by_cases hn : (h a).name = name
      · rw [if_pos hn]; simp [hn]
      · rw [if_neg hn, ih (fun h => he (List.mem_cons_of_mem _ h))]; simp [hn]

theorem findElem_eq (h : Elements) (name : List UInt8) (ls : List Library) (he : ∀ l ∈ ls, none ∉ l.elements) :
    findElem h name (ls.map some) = .ok (firstNamed h ls name) := by
  induction ls with
  | nil => rfl
  | cons l ls ih =>
    rw [List.map_cons, findElem, findInLib_eq h name l.elements (he l (by simp)), Res.ok_bind]
    unfold firstNamed elementsOf
    rw [List.flatMap_cons, List.find?_append]
    cases hf : (l.elements.filterMap id).find? fun a => (h a).name = name with
    | some a => rfl
    | none =>
      dsimp only
      rw [ih (fun l hl => he l (List.mem_cons_of_mem _ hl))]
      rfl

theorem firstNamed_congr {h h0 : Elements} (hs : ∀ a, (h a).name = (h0 a).name) (ls : List Library) (name : List UInt8) :
    firstNamed h ls name = firstNamed h0 ls name := by
  unfold firstNamed
  simp only [hs]

/-- a reference that is resolved -/
def okRef (h0 : Elements) (ls : List Library) (g : Geometry) : Prop := g.type = .reference → (firstNamed h0 ls g.refName).isSome

/-- a reference to the element at `c` -/
def refTo (h0 : Elements) (ls : List Library) (c : Nat) (g : Geometry) : Bool :=
  decide (g.type = .reference) && decide (firstNamed h0 ls g.refName = some c)

theorem resolveGeoms_ok (h0 : Elements) (ls : List Library) (he : ∀ l ∈ ls, none ∉ l.elements) (a : Nat) (suf pre : List Geometry)
    (h : Elements) (hs : ∀ a, (h a).name = (h0 a).name) (hg : (h a).geometries = (pre ++ suf).map some) :
    (∀ g ∈ suf, okRef h0 ls g) → resolveGeoms (ls.map some) a (List.range' pre.length suf.length) h =
      .ok (fun c => { h c with
        geometries := if c = a then (pre ++ suf.map (resolved h0 ls)).map some else (h c).geometries
        nested := (h c).nested || suf.any (refTo h0 ls c) }, true) := by
  induction suf generalizing pre h with
  | nil =>
    intro _
    rw [List.length_nil, List.range'_zero, resolveGeoms]
    congr 2
    funext c
    by_cases hc : c = a
    · subst hc
      rw [List.append_nil] at hg
      simp [← hg]
    · simp [hc]
  | cons g suf ih =>
    intro hr
    rw [List.length_cons, List.range'_succ, resolveGeoms]
    have hk : (h a).geometries[pre.length]? = some (some g) := by
      rw [hg, List.map_append, List.getElem?_append_right (by simp)]
      simp
    rw [hk]
    dsimp only
    have hp : pre.length + 1 = (pre ++ [resolved h0 ls g]).length := by simp
    by_cases ht : g.type = .reference
    · rw [if_neg (by simpa using ht), findElem_eq h _ ls he, firstNamed_congr hs, Res.ok_bind]
      obtain ⟨b, hb⟩ := Option.isSome_iff_exists.1 (hr g (by simp) ht)
      rw [hb]
      dsimp only
      have hgr : resolved h0 ls g = { g with element := some b } := by
        unfold resolved; rw [if_pos ht, hb]
      rw [hp, ih (pre ++ [resolved h0 ls g])]
      · congr 2
        funext c
        have e2 : refTo h0 ls c g = decide (b = c) := by
          unfold refTo; rw [hb]; simp [ht]
        rw [List.any_cons, e2]
        by_cases hca : c = a
        · subst hca
          by_cases hcb : b = c
          · subst hcb
            simp
          · simp [Ne.symm hcb, hcb]
        · by_cases hcb : b = c
          · subst hcb
            simp [hca]
          · simp [hca, Ne.symm hcb, hcb]
      · intro c
        by_cases hcb : c = b
        · subst hcb
          by_cases hca : c = a
          · subst hca; simp [hs]
          · simp [hca, hs]
        · by_cases hca : c = a
          · subst hca; simp [hcb, hs]
          · simp [hca, hcb, hs]
      · have hset : (h a).geometries.set pre.length (some { g with element := some b }) =
            (pre ++ [resolved h0 ls g] ++ suf).map some := by
          rw [hg, hgr, List.map_append, List.set_append_right _ _ (by simp)]
          simp
        by_cases hab : a = b
        · subst hab; simp [hset]
        · simp [hab, hset]
      · exact fun x hx => hr x (List.mem_cons_of_mem _ hx)
    · rw [if_pos ht]
      have hgr : resolved h0 ls g = g := by unfold resolved; rw [if_neg ht]
      rw [hp, hgr, ih (pre ++ [g]) h hs (by rw [hg]; simp) (fun x hx => hr x (List.mem_cons_of_mem _ hx))]
      congr 2
      funext c
      have e2 : refTo h0 ls c g = false := by unfold refTo; simp [ht]
      rw [List.any_cons, e2, Bool.false_or, List.map_cons, hgr, List.append_assoc]
      rfl

theorem resolveGeoms_fail (h0 : Elements) (ls : List Library) (he : ∀ l ∈ ls, none ∉ l.elements) (a : Nat) (suf pre : List Geometry)
    (h : Elements) (hs : ∀ a, (h a).name = (h0 a).name) (hg : (h a).geometries = (pre ++ suf).map some)
    (hr : ¬ ∀ g ∈ suf, okRef h0 ls g) :
    ∃ h', resolveGeoms (ls.map some) a (List.range' pre.length suf.length) h = .ok (h', false) := by
  induction suf generalizing pre h with
  | nil => simp at hr
  | cons g suf ih =>
    rw [List.length_cons, List.range'_succ, resolveGeoms]
    have hk : (h a).geometries[pre.length]? = some (some g) := by
      rw [hg, List.map_append, List.getElem?_append_right (by simp)]
      simp
    rw [hk]
    dsimp only
    by_cases ht : g.type = .reference
    · rw [if_neg (by simpa using ht), findElem_eq h _ ls he, firstNamed_congr hs, Res.ok_bind]
      cases hb : firstNamed h0 ls g.refName with
      | none => exact ⟨h, rfl⟩
      | some b =>
        dsimp only
        have hp : pre.length + 1 = (pre ++ [{ g with element := some b }]).length := by simp
        rw [hp]
        refine ih (pre ++ [{ g with element := some b }]) _ ?_ ?_ ?_
        · intro c
          by_cases hcb : c = b
          · subst hcb
            by_cases hca : c = a
            · subst hca; simp [hs]
            · simp [hca, hs]
          · by_cases hca : c = a
            · subst hca; simp [hcb, hs]
            · simp [hca, hcb, hs]
        · have hset : (h a).geometries.set pre.length (some { g with element := some b }) =
              (pre ++ [{ g with element := some b }] ++ suf).map some := by
            rw [hg, List.map_append, List.set_append_right _ _ (by simp)]
            simp
          by_cases hab : a = b
          · subst hab; simp [hset]
          · simp [hab, hset]
        · intro hall
          refine hr fun x hx => ?_
          rcases List.mem_cons.1 hx with rfl | hx
          · intro _; rw [hb]; rfl
          · exact hall x hx
    · rw [if_pos ht]
      have hp : pre.length + 1 = (pre ++ [g]).length := by simp
      rw [hp]
      refine ih (pre ++ [g]) h hs (by rw [hg]; simp) ?_
      intro hall
      refine hr fun x hx => ?_
      rcases List.mem_cons.1 hx with rfl | hx
      · exact fun h => absurd h ht
      · exact hall x hx

/-- the elements after those of the list `as` have been processed -/
def after (h0 : Elements) (ls : List Library) (as : List Nat) : Elements := fun c =>
  { h0 c with
    geometries := if c ∈ as then (h0 c).geometries.map (Option.map (resolved h0 ls)) else (h0 c).geometries
    nested := (h0 c).nested || (as.flatMap fun a => (h0 a).geometries.filterMap id).any (refTo h0 ls c) }

theorem resolved_type (h0 : Elements) (ls : List Library) (g : Geometry) : (resolved h0 ls g).type = g.type := by
  unfold resolved; split <;> rfl

theorem resolved_refName (h0 : Elements) (ls : List Library) (g : Geometry) : (resolved h0 ls g).refName = g.refName := by
  unfold resolved; split <;> rfl

theorem resolved_idem (h0 : Elements) (ls : List Library) (g : Geometry) : resolved h0 ls (resolved h0 ls g) = resolved h0 ls g := by
  unfold resolved
  by_cases h : g.type = .reference
  · rw [if_pos h, if_pos h]
  · rw [if_neg h, if_neg h]

theorem refTo_resolved (h0 : Elements) (ls : List Library) (c : Nat) (g : Geometry) :
    refTo h0 ls c (resolved h0 ls g) = refTo h0 ls c g := by
  unfold refTo; rw [resolved_type, resolved_refName]

/-- the geometries of an element without null pointers -/
theorem geoms_some {gs : List (Option Geometry)} (h : none ∉ gs) : gs = (gs.filterMap id).map some := by
  induction gs with
  | nil => rfl
  | cons g gs ih =>
    cases g with
    | none => simp at h
    | some g =>
      have e1 : (some g :: gs).filterMap id = g :: gs.filterMap id := rfl
      rw [e1, List.map_cons, ← ih (fun hh => h (List.mem_cons_of_mem _ hh))]

theorem resolveOne (h0 : Elements) (ls : List Library) (he : ∀ l ∈ ls, none ∉ l.elements) (as : List Nat) (a : Nat)
    (hg : none ∉ (h0 a).geometries) :
    ((∀ g ∈ (h0 a).geometries.filterMap id, okRef h0 ls g) →
      resolveGeoms (ls.map some) a (List.range (after h0 ls as a).geometries.length) (after h0 ls as) =
        .ok (after h0 ls (as ++ [a]), true)) ∧
    ((¬ ∀ g ∈ (h0 a).geometries.filterMap id, okRef h0 ls g) →
      ∃ h', resolveGeoms (ls.map some) a (List.range (after h0 ls as a).geometries.length) (after h0 ls as) = .ok (h', false)) := by
  -- the geometries of `a` at this point
  obtain ⟨gs, h1, h2, h3, h4⟩ : ∃ gs : List Geometry, (after h0 ls as a).geometries = gs.map some ∧
      gs.map (resolved h0 ls) = ((h0 a).geometries.filterMap id).map (resolved h0 ls) ∧
      (∀ c, gs.any (refTo h0 ls c) = ((h0 a).geometries.filterMap id).any (refTo h0 ls c)) ∧
      ((∀ g ∈ gs, okRef h0 ls g) ↔ ∀ g ∈ (h0 a).geometries.filterMap id, okRef h0 ls g) := by
    by_cases ha : a ∈ as
    · refine ⟨((h0 a).geometries.filterMap id).map (resolved h0 ls), ?_, ?_, ?_, ?_⟩
      · unfold after
        simp only [ha, if_true]
        conv_lhs => rw [geoms_some hg]
        rw [List.map_map, List.map_map]
        rfl
      · rw [List.map_map]
        apply List.map_congr_left
        intro g _
        exact resolved_idem h0 ls g
      · intro c
        rw [List.any_map]
        congr 1
        funext g
        exact refTo_resolved h0 ls c g
      · unfold okRef
        simp only [List.mem_map, forall_exists_index, and_imp, forall_apply_eq_imp_iff₂, resolved_type, resolved_refName]
    · refine ⟨(h0 a).geometries.filterMap id, ?_, rfl, fun _ => rfl, Iff.rfl⟩
      unfold after
      simp only [ha, if_false]
      exact geoms_some hg
  have hr : List.range (after h0 ls as a).geometries.length = List.range' ([] : List Geometry).length gs.length := by
    rw [h1, List.length_map, List.range_eq_range']
    rfl
  have hs : ∀ c, (after h0 ls as c).name = (h0 c).name := fun _ => rfl
  rw [hr, ← h4]
  constructor
  · intro hok
    rw [resolveGeoms_ok h0 ls he a gs [] (after h0 ls as) hs (by rw [h1]; rfl) hok]
    congr 2
    funext c
    rw [List.nil_append, h2, h3]
    unfold after
    rw [List.flatMap_append, List.any_append, ← Bool.or_assoc]
    simp only [List.flatMap_cons, List.flatMap_nil, List.append_nil, List.mem_append, List.mem_singleton]
    congr 1
    by_cases hca : c = a
    · subst hca
      rw [if_pos rfl, if_pos (.inr rfl)]
      conv_rhs => rw [geoms_some hg]
      rw [List.map_map, List.map_map]
      rfl
    · simp [hca]
  · intro hno
    exact resolveGeoms_fail h0 ls he a gs [] (after h0 ls as) hs (by rw [h1]; rfl) hno

theorem resolveElems_eq (h0 : Elements) (ls : List Library) (he : ∀ l ∈ ls, none ∉ l.elements) (es : List (Option Nat)) (as : List Nat)
    (hes : none ∉ es) (hg : ∀ a, some a ∈ es → none ∉ (h0 a).geometries) :
    ((∀ a, some a ∈ es → ∀ g ∈ (h0 a).geometries.filterMap id, okRef h0 ls g) →
      resolveElems (ls.map some) es (after h0 ls as) = .ok (after h0 ls (as ++ es.filterMap id), true)) ∧
    ((¬ ∀ a, some a ∈ es → ∀ g ∈ (h0 a).geometries.filterMap id, okRef h0 ls g) →
      ∃ h', resolveElems (ls.map some) es (after h0 ls as) = .ok (h', false)) := by
  induction es generalizing as with
  | nil =>
    refine ⟨fun _ => by simp [resolveElems], fun h => absurd (by simp) h⟩
  | cons e es ih =>
    cases e with
    | none => simp at hes
    | some a =>
      have e1 : (some a :: es).filterMap id = a :: es.filterMap id := rfl
      have hall : (∀ b, some b ∈ some a :: es → ∀ g ∈ (h0 b).geometries.filterMap id, okRef h0 ls g) ↔
          (∀ g ∈ (h0 a).geometries.filterMap id, okRef h0 ls g) ∧
          ∀ b, some b ∈ es → ∀ g ∈ (h0 b).geometries.filterMap id, okRef h0 ls g := by
        constructor
        · exact fun h => ⟨h a (by simp), fun b hb => h b (List.mem_cons_of_mem _ hb)⟩
        · rintro ⟨h1, h2⟩ b hb
          rcases List.mem_cons.1 hb with hb | hb
          · cases hb; exact h1
          · exact h2 b hb
      obtain ⟨o1, o2⟩ := resolveOne h0 ls he as a (hg a (by simp))
      obtain ⟨i1, i2⟩ := ih (as ++ [a]) (fun h => hes (List.mem_cons_of_mem _ h)) (fun b hb => hg b (List.mem_cons_of_mem _ hb))
      rw [hall, resolveElems, e1]
      constructor
      · rintro ⟨h1, h2⟩
        rw [o1 h1, Res.ok_bind]
        dsimp only
        rw [if_pos rfl, i1 h2, List.append_assoc]
        rfl
      · intro hno
        by_cases h1 : ∀ g ∈ (h0 a).geometries.filterMap id, okRef h0 ls g
        · obtain ⟨h', hh⟩ := i2 (fun h2 => hno ⟨h1, h2⟩)
          refine ⟨h', ?_⟩
          rw [o1 h1, Res.ok_bind]
          dsimp only
          rw [if_pos rfl, hh]
        · obtain ⟨h', hh⟩ := o2 h1
          refine ⟨h', ?_⟩
          rw [hh, Res.ok_bind]
          rfl

theorem resolveLibs_eq (h0 : Elements) (all : List Library) (he : ∀ l ∈ all, none ∉ l.elements) (ls : List Library) (as : List Nat)
    (hn : ∀ l ∈ ls, NoNulls h0 l) :
    ((∀ a ∈ elementsOf ls, ∀ g ∈ (h0 a).geometries.filterMap id, okRef h0 all g) →
      resolveLibs (all.map some) (ls.map some) (after h0 all as) = .ok (after h0 all (as ++ elementsOf ls), true)) ∧
    ((¬ ∀ a ∈ elementsOf ls, ∀ g ∈ (h0 a).geometries.filterMap id, okRef h0 all g) →
      ∃ h', resolveLibs (all.map some) (ls.map some) (after h0 all as) = .ok (h', false)) := by
  induction ls generalizing as with
  | nil =>
    refine ⟨fun _ => by simp [resolveLibs, elementsOf], fun h => absurd (by simp [elementsOf]) h⟩
  | cons l ls ih =>
    have e1 : elementsOf (l :: ls) = l.elements.filterMap id ++ elementsOf ls := by
      unfold elementsOf; rw [List.flatMap_cons]
    have hl := hn l (by simp)
    have hg : ∀ a, some a ∈ l.elements → none ∉ (h0 a).geometries := by
      intro a ha hno
      exact hl.2 (List.mem_flatMap.2 ⟨some a, ha, hno⟩)
    have hmem : ∀ a, a ∈ l.elements.filterMap id ↔ some a ∈ l.elements := by
      intro a
      rw [List.mem_filterMap]
      constructor
      · rintro ⟨x, hx, rfl⟩; exact hx
      · exact fun h => ⟨some a, h, rfl⟩
    have hall : (∀ a ∈ elementsOf (l :: ls), ∀ g ∈ (h0 a).geometries.filterMap id, okRef h0 all g) ↔
        (∀ a, some a ∈ l.elements → ∀ g ∈ (h0 a).geometries.filterMap id, okRef h0 all g) ∧
        ∀ a ∈ elementsOf ls, ∀ g ∈ (h0 a).geometries.filterMap id, okRef h0 all g := by
      rw [e1]
      constructor
      · exact fun h => ⟨fun a ha => h a (List.mem_append_left _ ((hmem a).2 ha)), fun a ha => h a (List.mem_append_right _ ha)⟩
      · rintro ⟨h1, h2⟩ a ha
        rcases List.mem_append.1 ha with ha | ha
        · exact h1 a ((hmem a).1 ha)
        · exact h2 a ha
    obtain ⟨o1, o2⟩ := resolveElems_eq h0 all he l.elements as hl.1 hg
    obtain ⟨i1, i2⟩ := ih (as ++ l.elements.filterMap id) (fun x hx => hn x (List.mem_cons_of_mem _ hx))
    rw [hall, List.map_cons, resolveLibs]
    constructor
    · rintro ⟨h1, h2⟩
      rw [o1 h1, Res.ok_bind]
      dsimp only
      rw [if_pos rfl, i1 h2, e1, List.append_assoc]
    · intro hno
      by_cases h1 : ∀ a, some a ∈ l.elements → ∀ g ∈ (h0 a).geometries.filterMap id, okRef h0 all g
      · obtain ⟨h', hh⟩ := i2 (fun h2 => hno ⟨h1, h2⟩)
        refine ⟨h', ?_⟩
        rw [o1 h1, Res.ok_bind]
        dsimp only
        rw [if_pos rfl, hh]
      · obtain ⟨h', hh⟩ := o2 h1
        refine ⟨h', ?_⟩
        rw [hh, Res.ok_bind]
        rfl

theorem partly_refl (h0 : Elements) (ls : List Library) : PartlyResolved h0 ls h0 := by
  intro a
  refine ⟨rfl, ?_, fun h => h, fun h => .inl h⟩
  generalize (h0 a).geometries = gs
  induction gs with
  | nil => exact .nil
  | cons g gs ih => exact .cons (.inl rfl) ih

theorem forall₂_set {α β : Type} {R : α → β → Prop} {l : List α} {l' : List β} (h : List.Forall₂ R l l') (k : Nat) (y : β)
    (hy : ∀ x, l[k]? = some x → R x y) : List.Forall₂ R l (l'.set k y) := by
  induction h generalizing k with
  | nil => exact .nil
  | cons h0 h1 ih =>
    cases k with
    | zero => exact .cons (hy _ rfl) h1
    | succ k => exact .cons h0 (ih k fun x hx => hy x (by simpa using hx))

theorem forall₂_get {α β : Type} {R : α → β → Prop} {l : List α} {l' : List β} (h : List.Forall₂ R l l') (k : Nat) (y : β)
    (hy : l'[k]? = some y) : ∃ x, l[k]? = some x ∧ R x y := by
  induction h generalizing k with
  | nil => simp at hy
  | cons h0 h1 ih =>
    cases k with
    | zero => simp at hy; subst hy; exact ⟨_, rfl, h0⟩
    | succ k =>
      obtain ⟨x, hx, hr⟩ := ih k (by simpa using hy)
      exact ⟨x, by simpa using hx, hr⟩

theorem resolveGeoms_partly (h0 : Elements) (ls : List Library) (he : ∀ l ∈ ls, none ∉ l.elements) (a : Nat)
    (ha : a ∈ elementsOf ls) (ks : List Nat) (h h' : Elements) (b : Bool) (hp : PartlyResolved h0 ls h)
    (e : resolveGeoms (ls.map some) a ks h = .ok (h', b)) : PartlyResolved h0 ls h' := by
  induction ks generalizing h with
  | nil => simp only [resolveGeoms, Res.ok.injEq, Prod.mk.injEq] at e; rw [← e.1]; exact hp
  | cons k ks ih =>
    rw [resolveGeoms] at e
    cases hk : (h a).geometries[k]? with
    | none => rw [hk] at e; cases e
    | some o =>
      cases o with
      | none => rw [hk] at e; cases e
      | some g =>
        rw [hk] at e
        dsimp only at e
        by_cases ht : g.type = .reference
        · have hs : ∀ a, (h a).name = (h0 a).name := fun a => by rw [(hp a).1]
          rw [if_neg (by simpa using ht), findElem_eq h _ ls he, firstNamed_congr hs, Res.ok_bind] at e
          cases hb : firstNamed h0 ls g.refName with
          | none =>
            rw [hb] at e
            cases e
            exact hp
          | some c =>
            rw [hb] at e
            dsimp only at e
            -- the geometry as it was
            obtain ⟨o0, ho0, hor⟩ := forall₂_get (hp a).2.1 k _ hk
            have hg0 : ∃ g0, o0 = some g0 ∧ resolved h0 ls g0 = { g with element := some c } ∧ g0.type = .reference ∧
                g0.refName = g.refName := by
              rcases hor with hor | hor
              · subst hor
                refine ⟨g, rfl, ?_, ht, rfl⟩
                unfold resolved; rw [if_pos ht, hb]
              · cases o0 with
                | none => cases hor
                | some g0 =>
                  have hor : g = resolved h0 ls g0 := by simpa using hor
                  have t0 : g0.type = .reference := by rw [← ht, hor, resolved_type]
                  have n0 : g0.refName = g.refName := by rw [hor, resolved_refName]
                  refine ⟨g0, rfl, ?_, t0, n0⟩
                  rw [hor]
                  unfold resolved
                  rw [if_pos t0, n0, hb]
            obtain ⟨g0, rfl, hg1, hg2, hg3⟩ := hg0
            have hin : g0 ∈ referencesOf h0 ls := by
              unfold referencesOf
              refine List.mem_flatMap.2 ⟨a, ha, List.mem_filter.2 ⟨List.mem_filterMap.2 ⟨some g0, List.mem_of_getElem? ho0, rfl⟩, by simpa using hg2⟩⟩
            refine ih _ ?_ e
            intro x
            obtain ⟨p1, p2, p3, p4⟩ := hp x
            have q2 : x = a → List.Forall₂ (fun o o' => o' = o ∨ o' = Option.map (resolved h0 ls) o) (h0 x).geometries
                ((h x).geometries.set k (some { g with element := some c })) := by
              rintro rfl
              refine forall₂_set p2 k _ fun y hy => ?_
              rw [ho0] at hy
              cases hy
              exact .inr (by rw [Option.map_some, hg1])
            by_cases hxc : x = c
            · subst hxc
              by_cases hxa : x = a
              · subst hxa
                simp only [if_true]
                exact ⟨by rw [p1], q2 rfl, fun _ => trivial, fun _ => .inr ⟨g0, hin, by rw [hg3, hb]⟩⟩
              · simp only [if_true, if_neg hxa]
                exact ⟨by rw [p1], p2, fun _ => trivial, fun _ => .inr ⟨g0, hin, by rw [hg3, hb]⟩⟩
            · by_cases hxa : x = a
              · subst hxa
                simp only [if_neg hxc, if_true]
                exact ⟨by rw [p1], q2 rfl, p3, p4⟩
              · simp only [if_neg hxc, if_neg hxa]
                exact ⟨p1, p2, p3, p4⟩
        · rw [if_pos ht] at e
          exact ih h hp e

theorem resolveElems_partly (h0 : Elements) (ls : List Library) (he : ∀ l ∈ ls, none ∉ l.elements) (es : List (Option Nat))
    (hes : ∀ a, some a ∈ es → a ∈ elementsOf ls) (h h' : Elements) (b : Bool) (hp : PartlyResolved h0 ls h)
    (e : resolveElems (ls.map some) es h = .ok (h', b)) : PartlyResolved h0 ls h' := by
  induction es generalizing h with
  | nil => simp only [resolveElems, Res.ok.injEq, Prod.mk.injEq] at e; rw [← e.1]; exact hp
  | cons o es ih =>
    cases o with
    | none => cases e
    | some a =>
      rw [resolveElems] at e
      cases hx : resolveGeoms (ls.map some) a (List.range (h a).geometries.length) h with
      | ub => rw [hx] at e; cases e
      | throw x => rw [hx] at e; cases e
      | ok r =>
        obtain ⟨h1, d⟩ := r
        have hp1 := resolveGeoms_partly h0 ls he a (hes a (by simp)) _ h h1 d hp hx
        rw [hx, Res.ok_bind] at e
        cases d with
        | true => exact ih (fun x hx => hes x (by simp [hx])) h1 hp1 e
        | false =>
          cases e
          exact hp1

theorem resolveLibs_partly (h0 : Elements) (all : List Library) (he : ∀ l ∈ all, none ∉ l.elements) (ls : List Library)
    (hls : ∀ l ∈ ls, l ∈ all) (h h' : Elements) (b : Bool) (hp : PartlyResolved h0 all h)
    (e : resolveLibs (all.map some) (ls.map some) h = .ok (h', b)) : PartlyResolved h0 all h' := by
  induction ls generalizing h with
  | nil => simp only [List.map_nil, resolveLibs, Res.ok.injEq, Prod.mk.injEq] at e; rw [← e.1]; exact hp
  | cons l ls ih =>
    rw [List.map_cons, resolveLibs] at e
    cases hx : resolveElems (all.map some) l.elements h with
    | ub => rw [hx] at e; cases e
    | throw x => rw [hx] at e; cases e
    | ok r =>
      obtain ⟨h1, d⟩ := r
      have hp1 := resolveElems_partly h0 all he l.elements (fun a ha => by
        unfold elementsOf
        exact List.mem_flatMap.2 ⟨l, hls l (by simp), List.mem_filterMap.2 ⟨some a, ha, rfl⟩⟩) h h1 d hp hx
      rw [hx, Res.ok_bind] at e
      cases d with
      | true => exact ih (fun x hx => hls x (by simp [hx])) h1 hp1 e
      | false =>
        cases e
        exact hp1

theorem after_nil (h0 : Elements) (ls : List Library) : after h0 ls [] = h0 := by
  funext c
  unfold after
  simp

theorem after_all (h0 : Elements) (ls : List Library) : after h0 ls (elementsOf ls) = resolvedHeap h0 ls := by
  funext c
  have key : ((elementsOf ls).flatMap fun a => (h0 a).geometries.filterMap id).any (refTo h0 ls c) =
      (referencesOf h0 ls).any fun g => firstNamed h0 ls g.refName = some c := by
    unfold referencesOf
    rw [Bool.eq_iff_iff, List.any_eq_true, List.any_eq_true]
    unfold refTo
    simp only [List.mem_flatMap, Bool.and_eq_true, decide_eq_true_iff, List.mem_filter]
    constructor
    · rintro ⟨g, ⟨a, h1, h2⟩, h3, h4⟩
      exact ⟨g, ⟨a, h1, h2, h3⟩, h4⟩
    · rintro ⟨g, ⟨a, h1, h2, h3⟩, h4⟩
      exact ⟨g, ⟨a, h1, h2⟩, h3, h4⟩
  unfold after resolvedHeap
  rw [key]

/-! ### boxes -/

theorem evalElem_eq (h : Elements) (l : Library) (a : Nat) :
    evalElem h l (some a) = .ok (if (h a).nested then l else { l with min := (h a).min, max := (h a).max }) := by
  unfold evalElem
  dsimp only
  split
  · rfl
  · simp

theorem evalElems_eq (h : Elements) (es : List (Option Nat)) (he : none ∉ es) (l : Library) :
    es.foldlM (evalElem h) l = .ok (match ((es.filterMap id).filter fun a => !(h a).nested).getLast? with
      | none => l
      | some a => { l with min := (h a).min, max := (h a).max }) := by
  induction es generalizing l with
  | nil => rfl
  | cons e es ih =>
    cases e with
    | none => simp at he
    | some a =>
      have e1 : (some a :: es).filterMap id = a :: es.filterMap id := rfl
      rw [List.foldlM_cons, evalElem_eq, Res.ok_bind, ih (fun h => he (List.mem_cons_of_mem _ h)), e1]
      by_cases hn : (h a).nested
      · rw [if_pos hn, List.filter_cons_of_neg (by simp [hn])]
      · rw [if_neg hn, List.filter_cons_of_pos (by simp [hn]), List.getLast?_cons]
        cases ((es.filterMap id).filter fun a => !(h a).nested).getLast? <;> rfl

theorem evaluate_eq (h : Elements) (ls : List Library) (he : ∀ l ∈ ls, none ∉ l.elements) :
    evaluateBoundingBox h (ls.map some) = .ok ((ls.map (boxOf h)).map some) := by
  induction ls with
  | nil => rfl
  | cons l ls ih =>
    rw [List.map_cons, evaluateBoundingBox, evalElems_eq h l.elements (he l (by simp)), Res.ok_bind,
      ih (fun x hx => he x (List.mem_cons_of_mem _ hx)), Res.ok_bind]
    rfl

/-! ### both together -/

theorem nonref_resolved (h0 : Elements) (ls : List Library) (gs : List (Option Geometry)) :
    ((gs.map (Option.map (resolved h0 ls))).filterMap id).filter (·.type ≠ .reference) =
      (gs.filterMap id).filter (·.type ≠ .reference) := by
  induction gs with
  | nil => rfl
  | cons g gs ih =>
    cases g with
    | none => exact ih
    | some g =>
      have e1 : ((some g :: gs).map (Option.map (resolved h0 ls))).filterMap id =
        resolved h0 ls g :: (gs.map (Option.map (resolved h0 ls))).filterMap id := rfl
      have e2 : (some g :: gs).filterMap id = g :: gs.filterMap id := rfl
      rw [e1, e2]
      by_cases ht : g.type = .reference
      · rw [List.filter_cons_of_neg (by simp [resolved_type, ht]), List.filter_cons_of_neg (by simp [ht]), ih]
      · have hg : resolved h0 ls g = g := by unfold resolved; rw [if_neg ht]
        rw [hg, List.filter_cons_of_pos (by simp [ht]), List.filter_cons_of_pos (by simp [ht]), ih]

theorem pairsOf_resolved (h0 : Elements) (ls : List Library) (l : Library) : pairsOf (resolvedHeap h0 ls) l = pairsOf h0 l := by
  have key : ∀ es : List (Option Nat),
      ((es.flatMap fun e => match e with | none => [] | some a => (resolvedHeap h0 ls a).geometries).filterMap id).filter (·.type ≠ .reference) =
      ((es.flatMap fun e => match e with | none => [] | some a => (h0 a).geometries).filterMap id).filter (·.type ≠ .reference) := by
    intro es
    induction es with
    | nil => rfl
    | cons e es ih =>
      rw [List.flatMap_cons, List.flatMap_cons, List.filterMap_append, List.filterMap_append, List.filter_append, List.filter_append, ih]
      congr 1
      cases e with
      | none => rfl
      | some a =>
        dsimp only
        unfold resolvedHeap
        dsimp only
        split
        · exact nonref_resolved h0 ls _
        · rfl
  unfold pairsOf geometriesOf
  exact congrArg (List.map pairOf) (key l.elements)

theorem noNulls_resolved (h0 : Elements) (ls : List Library) (l : Library) (h : NoNulls h0 l) : NoNulls (resolvedHeap h0 ls) l := by
  refine ⟨h.1, ?_⟩
  intro hm
  unfold geometriesOf at hm
  obtain ⟨e, he, hg⟩ := List.mem_flatMap.1 hm
  cases e with
  | none => simp at hg
  | some a =>
    refine h.2 (List.mem_flatMap.2 ⟨some a, he, ?_⟩)
    unfold resolvedHeap at hg
    dsimp only at hg ⊢
    split at hg
    · rw [List.mem_map] at hg
      obtain ⟨x, hx, hxe⟩ := hg
      cases x with
      | none => exact hx
      | some g => cases hxe
    · exact hg

theorem enumerated_resolved {h0 : Elements} {ls : List Library} {l l' : Library} (h : Enumerated (resolvedHeap h0 ls) l l') :
    Enumerated h0 l l' := by
  obtain ⟨a, b, c, d, e, f⟩ := h
  unfold enumPairs at c d
  rw [pairsOf_resolved] at c d
  exact ⟨a, b, c, d, e, f⟩

theorem okRefs_iff (h0 : Elements) (ls : List Library) :
    (∀ a ∈ elementsOf ls, ∀ g ∈ (h0 a).geometries.filterMap id, okRef h0 ls g) ↔
      ∀ g ∈ referencesOf h0 ls, (firstNamed h0 ls g.refName).isSome := by
  unfold referencesOf okRef
  simp only [List.mem_flatMap, List.mem_filter, decide_eq_true_iff, forall_exists_index, and_imp]
  constructor
  · exact fun h g a ha hg ht => h a ha g hg ht
  · exact fun h a ha g hg ht => h g a ha hg ht

end Verif.Gds
