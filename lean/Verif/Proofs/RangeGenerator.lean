import Verif.Proofs.RangeZond
import Verif.Proofs.Generator2
import Verif.Props.LayoutConverter

/-! Proofs for C82: the generator. -/

namespace Verif.Proofs.Range
open Verif Ieee Zond Generator Converter Verif.Spec.Binary64

/-- the points of a geometry are `int32_t` -/
def PtsFit (g : Geometry) : Prop := ∀ c ∈ g.coords, inI32 c.x ∧ inI32 c.y

theorem add32_cases (a b : Int) : add32 a b = .ub ∨ ∃ v, add32 a b = .ok v ∧ inI32 v := by
  unfold add32 chk32
  split_ifs with h
  · exact .inr ⟨_, rfl, h⟩
  · exact .inl rfl

theorem mapM_fit {f : Coord → Res Coord} (hf : ∀ c v, f c = .ok v → inI32 v.x ∧ inI32 v.y) : ∀ (l r : List Coord), l.mapM f = .ok r →
    ∀ c ∈ r, inI32 c.x ∧ inI32 c.y := by
  intro l
  induction l with
  | nil =>
    intro r h
    rw [List.mapM_nil] at h
    injection h with h
    subst h
    simp
  | cons a l ih =>
    intro r h
    rw [List.mapM_cons] at h
    cases ha : f a with
    | ub => rw [ha] at h; cases h
    | throw e => rw [ha] at h; cases h
    | ok v =>
      rw [ha, Res.ok_bind] at h
      cases hl : l.mapM f with
      | ub => rw [hl] at h; cases h
      | throw e => rw [hl] at h; cases h
      | ok vs =>
        rw [hl, Res.ok_bind] at h
        injection h with h
        subst h
        intro c hc
        rcases List.mem_cons.1 hc with rfl | hc
        · exact hf a _ ha
        · exact ih vs hl c hc

theorem addCoordValue_fit {g g' : Geometry} {d : Coord} (h : addCoordValue g d = .ok g') : PtsFit g' := by
  unfold addCoordValue at h
  rcases add32_cases g.min.x d.x with e | ⟨a, e, _⟩ <;> rw [e] at h
  · cases h
  rcases add32_cases g.min.y d.y with e | ⟨b, e, _⟩ <;> rw [e] at h
  · cases h
  rcases add32_cases g.max.x d.x with e | ⟨c, e, _⟩ <;> rw [e] at h
  · cases h
  rcases add32_cases g.max.y d.y with e | ⟨m, e, _⟩ <;> rw [e] at h
  · cases h
  simp only [Res.ok_bind] at h
  generalize hm : (List.mapM _ g.coords : Res (List Coord)) = cs at h
  cases cs with
  | ub => cases h
  | throw e => cases h
  | ok cs =>
    rw [Res.ok_bind] at h
    injection h with h
    subst h
    refine mapM_fit ?_ _ _ hm
    intro c v hv
    rcases add32_cases c.x d.x with e | ⟨x, e, hx⟩ <;> rw [e] at hv
    · cases hv
    rcases add32_cases c.y d.y with e | ⟨y, e, hy⟩ <;> rw [e] at hv
    · cases hv
    simp only [Res.ok_bind] at hv
    injection hv with hv
    subst hv
    exact ⟨hx, hy⟩

theorem mapM_addCoordValue_fit {d : Coord} : ∀ (l r : List Geometry), l.mapM (fun g => addCoordValue g d) = .ok r → ∀ g ∈ r, PtsFit g := by
  intro l
  induction l with
  | nil =>
    intro r h
    rw [List.mapM_nil] at h
    injection h with h
    subst h
    simp
  | cons a l ih =>
    intro r h
    rw [List.mapM_cons] at h
    cases ha : addCoordValue a d with
    | ub => rw [ha] at h; cases h
    | throw e => rw [ha] at h; cases h
    | ok v =>
      rw [ha, Res.ok_bind] at h
      cases hl : l.mapM (fun g => addCoordValue g d) with
      | ub => rw [hl] at h; cases h
      | throw e => rw [hl] at h; cases h
      | ok vs =>
        rw [hl, Res.ok_bind] at h
        injection h with h
        subst h
        intro c hc
        rcases List.mem_cons.1 hc with rfl | hc
        · exact addCoordValue_fit ha
        · exact ih vs hl c hc

theorem bind_ok {α β : Type} {x : Run α} {f : α → Run β} {b : β} (h : Run.bind x f = some (.ok b)) :
    ∃ a, x = some (.ok a) ∧ f a = some (.ok b) := by
  unfold Run.bind at h
  split at h
  · cases h
  · cases h
  · cases h
  · exact ⟨_, rfl, h⟩

theorem splitOne_fit {rec : Option Geometry → Coord → Run (List Geometry)}
    (hrec : ∀ s d l, rec s d = some (.ok l) → ∀ g ∈ l, PtsFit g) {mn : Coord} {it : Option Geometry} {l : List Geometry}
    (h : splitOne rec mn it = some (.ok l)) : ∀ g ∈ l, PtsFit g := by
  unfold splitOne at h
  cases it with
  | none => simp only [Option.some.injEq, Res.ok.injEq] at h; subst h; simp
  | some x =>
    dsimp only at h
    have shape : some ((addCoordValue x mn) >>= fun g' => Res.ok [g']) = some (.ok l) → ∀ g ∈ l, PtsFit g := by
      intro h
      rw [Option.some.injEq] at h
      cases ha : addCoordValue x mn with
      | ub => rw [ha] at h; cases h
      | throw e => rw [ha] at h; cases h
      | ok v =>
        rw [ha, Res.ok_bind] at h
        injection h with h
        subst h
        intro g hg
        rw [List.mem_singleton] at hg
        subst hg
        exact addCoordValue_fit ha
    cases ht : x.type <;> rw [ht] at h <;> dsimp only at h
    · simp only [Option.some.injEq, Res.ok.injEq] at h; subst h; simp
    · exact shape h
    · rw [Option.some.injEq] at h
      cases hp : pathToRectList (some x) with
      | ub => rw [hp] at h; cases h
      | throw e => rw [hp] at h; cases h
      | ok rs =>
        rw [hp, Res.ok_bind] at h
        exact mapM_addCoordValue_fit _ _ h
    · simp only [Option.some.injEq, Res.ok.injEq] at h; subst h; simp
    · exact shape h
    · exact hrec _ _ _ h

theorem splitAll_fit {rec : Option Geometry → Coord → Run (List Geometry)}
    (hrec : ∀ s d l, rec s d = some (.ok l) → ∀ g ∈ l, PtsFit g) {mn : Coord} : ∀ (gs : List (Option Geometry)) (l : List Geometry),
    splitAll rec mn gs = some (.ok l) → ∀ g ∈ l, PtsFit g := by
  intro gs
  induction gs with
  | nil => intro l h; simp only [splitAll, Option.some.injEq, Res.ok.injEq] at h; subst h; simp
  | cons it rest ih =>
    intro l h
    unfold splitAll at h
    obtain ⟨a, ha, h⟩ := bind_ok h
    obtain ⟨b, hb, h⟩ := bind_ok h
    simp only [Option.some.injEq, Res.ok.injEq] at h
    subst h
    intro g hg
    rcases List.mem_append.1 hg with hg | hg
    · exact splitOne_fit hrec ha g hg
    · exact ih b hb g hg

theorem splitSref_fit (H : Elements) : ∀ (n : Nat) (s : Option Geometry) (d : Coord) (l : List Geometry), splitSref H n s d = some (.ok l) →
    ∀ g ∈ l, PtsFit g := by
  intro n
  induction n with
  | zero => intro s d l h; cases h
  | succ n ih =>
    intro s d l h
    unfold splitSref at h
    cases s with
    | none => simp only [Option.some.injEq, Res.ok.injEq] at h; subst h; simp
    | some r =>
      dsimp only at h
      split_ifs at h
      · cases h
      · cases he : r.element with
        | none => rw [he] at h; cases h
        | some e =>
          rw [he] at h
          obtain ⟨a, _, h⟩ := bind_ok h
          exact splitAll_fit ih _ _ h

theorem originRect_fit (n : Int) : PtsFit (Spec.originRect n) := by
  intro c hc
  have : c = ⟨0, 0⟩ := by
    simp only [Spec.originRect] at hc
    simpa using hc
  subst this
  unfold inI32
  decide

theorem gatherOne_fit {H : Elements} {depth : Nat} {ws : Workspace} {p : Option Geometry} {x : List Geometry × List Geometry}
    (hp : ∀ g, p = some g → g.coords.length < 2 ^ 64 ∧ PtsFit g) (h : gatherOne H depth ws p = some (.ok x)) :
    (∀ g ∈ x.1, PtsFit g) ∧ ∀ g ∈ x.2, PtsFit g := by
  unfold gatherOne at h
  cases p with
  | none => simp only [Option.some.injEq, Res.ok.injEq] at h; subst h; simp
  | some g =>
    obtain ⟨hl, hg⟩ := hp g rfl
    dsimp only at h
    by_cases hb : boxMeets ws g = true
    · rw [if_pos hb] at h
      have shape : some (Res.ok (([], [g]) : List Geometry × List Geometry)) = some (.ok x) →
          (∀ g ∈ x.1, PtsFit g) ∧ ∀ g ∈ x.2, PtsFit g := by
        intro h
        simp only [Option.some.injEq, Res.ok.injEq] at h
        subst h
        exact ⟨by simp, fun y hy => by rw [List.mem_singleton] at hy; subst hy; exact hg⟩
      have none_ : some (Res.ok (([], []) : List Geometry × List Geometry)) = some (.ok x) →
          (∀ g ∈ x.1, PtsFit g) ∧ ∀ g ∈ x.2, PtsFit g := by
        intro h
        simp only [Option.some.injEq, Res.ok.injEq] at h
        subst h
        simp
      cases ht : g.type <;> rw [ht] at h <;> dsimp only at h
      · exact none_ h
      · exact shape h
      · obtain ⟨rs, hrs, h⟩ := bind_ok h
        rw [Option.some.injEq] at hrs
        obtain ⟨_, rfl⟩ := Props.C35_result g ht hl rs hrs
        simp only [Option.some.injEq, Res.ok.injEq] at h
        subst h
        refine ⟨fun y hy => ?_, by simp⟩
        have := List.eq_of_mem_replicate (List.mem_filter.1 hy).1
        rw [this]
        exact originRect_fit _
      · exact none_ h
      · exact shape h
      · obtain ⟨rs, hrs, h⟩ := bind_ok h
        simp only [Option.some.injEq, Res.ok.injEq] at h
        subst h
        exact ⟨fun y hy => splitSref_fit _ _ _ _ _ hrs y (List.mem_filter.1 hy).1, by simp⟩
    · rw [if_neg hb] at h
      simp only [Option.some.injEq, Res.ok.injEq] at h; subst h; simp

theorem append_fit {a b : List Geometry × List Geometry} (ha : (∀ g ∈ a.1, PtsFit g) ∧ ∀ g ∈ a.2, PtsFit g)
    (hb : (∀ g ∈ b.1, PtsFit g) ∧ ∀ g ∈ b.2, PtsFit g) : (∀ g ∈ a.1 ++ b.1, PtsFit g) ∧ ∀ g ∈ a.2 ++ b.2, PtsFit g :=
  ⟨fun g hg => (List.mem_append.1 hg).elim (ha.1 g) (hb.1 g), fun g hg => (List.mem_append.1 hg).elim (ha.2 g) (hb.2 g)⟩

theorem gatherList_fit {H : Elements} {depth : Nat} {ws : Workspace} : ∀ (ps : List (Option Geometry)) (x : List Geometry × List Geometry),
    (∀ g, some g ∈ ps → g.coords.length < 2 ^ 64 ∧ PtsFit g) → gatherList H depth ws ps = some (.ok x) →
    (∀ g ∈ x.1, PtsFit g) ∧ ∀ g ∈ x.2, PtsFit g := by
  intro ps
  induction ps with
  | nil => intro x _ h; simp only [gatherList, Option.some.injEq, Res.ok.injEq] at h; subst h; simp
  | cons p ps ih =>
    intro x hp h
    unfold gatherList at h
    obtain ⟨a, ha, h⟩ := bind_ok h
    obtain ⟨b, hb, h⟩ := bind_ok h
    simp only [Option.some.injEq, Res.ok.injEq] at h
    subst h
    exact append_fit (gatherOne_fit (fun g e => hp g (by rw [e]; exact List.mem_cons_self)) ha)
      (ih b (fun g hg => hp g (List.mem_cons_of_mem _ hg)) hb)

theorem gatherLayers_fit {H : Elements} {depth : Nat} {ws : Workspace} {req : List Int} : ∀ (ls : List Layer)
    (x : List Geometry × List Geometry), (∀ y g, y ∈ ls → some g ∈ y.geometries → g.coords.length < 2 ^ 64 ∧ PtsFit g) →
    gatherLayers H depth ws req ls = some (.ok x) → (∀ g ∈ x.1, PtsFit g) ∧ ∀ g ∈ x.2, PtsFit g := by
  intro ls
  induction ls with
  | nil => intro x _ h; simp only [gatherLayers, Option.some.injEq, Res.ok.injEq] at h; subst h; simp
  | cons l ls ih =>
    intro x hp h
    unfold gatherLayers at h
    split_ifs at h
    · exact gatherList_fit _ _ (fun g hg => hp l g List.mem_cons_self hg) h
    · exact ih x (fun y g hy => hp y g (List.mem_cons_of_mem _ hy)) h

theorem gatherLibs_fit {H : Elements} {depth : Nat} {ws : Workspace} {req : List Int} : ∀ (ls : List (Option Library))
    (x : List Geometry × List Geometry),
    (∀ l y g, some l ∈ ls → y ∈ l.layers → some g ∈ y.geometries → g.coords.length < 2 ^ 64 ∧ PtsFit g) →
    gatherLibs H depth ws req ls = some (.ok x) → (∀ g ∈ x.1, PtsFit g) ∧ ∀ g ∈ x.2, PtsFit g := by
  intro ls
  induction ls with
  | nil => intro x _ h; simp only [gatherLibs, Option.some.injEq, Res.ok.injEq] at h; subst h; simp
  | cons l ls ih =>
    intro x hp h
    cases l with
    | none => unfold gatherLibs at h; cases h
    | some l =>
      unfold gatherLibs at h
      obtain ⟨a, ha, h⟩ := bind_ok h
      obtain ⟨b, hb, h⟩ := bind_ok h
      simp only [Option.some.injEq, Res.ok.injEq] at h
      subst h
      exact append_fit (gatherLayers_fit _ _ (fun y g hy => hp l y g List.mem_cons_self hy) ha)
        (ih b (fun l y g hl => hp l y g (List.mem_cons_of_mem _ hl)) hb)

theorem setUp_eq {rnd : ℚ → ℚ} (hr : RoundsNormal rnd) (stale : Res Nat) (R C : Nat) (g : Generator) :
    setUp rnd stale R C g = setUp rne stale R C g := by
  have e := fun a b n => (calcDelta_tame hr a b n).1
  simp only [setUp, e]

/-- what `setUp` leaves in the rasteriser -/
theorem setUp_tame {stale : Res Nat} {R C : Nat} {g g' : Generator} (h : setUp rne stale R C g = .ok g') (hR : R < 2 ^ 64) (hC : C < 2 ^ 64)
    (he : TameF 252 200 g.zond.eps)
    (hw : inI32 g.ws.leftTop.x ∧ inI32 g.ws.leftTop.y ∧ inI32 g.ws.rightBot.x ∧ inI32 g.ws.rightBot.y) :
    TameZond g'.zond ∧ g'.ws = g.ws ∧ g'.data = g.data := by
  have hr : RoundsNormal rne := fun _ _ => rfl
  unfold setUp at h
  have key : ∀ (cols : Res Nat), (do
      let cols ← cols
      let dx ← calcDelta rne g.ws.leftTop.x g.ws.rightBot.x cols
      let dy ← calcDelta rne g.ws.leftTop.y g.ws.rightBot.y (V2.rowCount g.frags)
      let cdx ← calcDelta rne g.ws.leftTop.x g.ws.rightBot.x g.bitmap.jsize
      let cdy ← calcDelta rne g.ws.leftTop.y g.ws.rightBot.y g.bitmap.isize
      let z ← (Zond.setDeltas cdx cdy g.zond).toRes
      pure { g with dx := dx, dy := dy, zond := { z with bound := ⟨0, subSz R 1, 0, subSz C 1⟩, ws := g.ws } } : Res Generator) = .ok g' →
      TameZond g'.zond ∧ g'.ws = g.ws ∧ g'.data = g.data := by
    intro cols h
    cases cols with
    | ub => cases h
    | throw e => cases h
    | ok cols =>
    rw [Res.ok_bind] at h
    cases h1 : calcDelta rne g.ws.leftTop.x g.ws.rightBot.x cols with
    | ub => rw [h1] at h; cases h
    | throw e => rw [h1] at h; cases h
    | ok dx =>
    rw [h1, Res.ok_bind] at h
    cases h2 : calcDelta rne g.ws.leftTop.y g.ws.rightBot.y (V2.rowCount g.frags) with
    | ub => rw [h2] at h; cases h
    | throw e => rw [h2] at h; cases h
    | ok dy =>
    rw [h2, Res.ok_bind] at h
    cases h3 : calcDelta rne g.ws.leftTop.x g.ws.rightBot.x g.bitmap.jsize with
    | ub => rw [h3] at h; cases h
    | throw e => rw [h3] at h; cases h
    | ok cdx =>
    rw [h3, Res.ok_bind] at h
    cases h4 : calcDelta rne g.ws.leftTop.y g.ws.rightBot.y g.bitmap.isize with
    | ub => rw [h4] at h; cases h
    | throw e => rw [h4] at h; cases h
    | ok cdy =>
    rw [h4, Res.ok_bind] at h
    unfold Zond.setDeltas at h
    by_cases hneg : (cdy.lt (.fin 0) || cdx.lt (.fin 0)) = true
    · rw [if_pos hneg] at h; cases h
    · rw [if_neg hneg] at h
      simp only [Out.toRes, Res.ok_bind] at h
      injection h with h
      subst h
      refine ⟨⟨(calcDelta_tame hr _ _ _).2 _ h3, (calcDelta_tame hr _ _ _).2 _ h4, he, hw, ?_⟩, rfl, rfl⟩
      have hs : ∀ n, n < 2 ^ 64 → subSz n 1 < 2 ^ 64 := fun n hn => by unfold subSz sz64; split_ifs <;> omega
      exact ⟨by norm_num, hs R hR, by norm_num, hs C hC⟩
  exact key _ h

theorem zondMatrix_eq {rnd : ℚ → ℚ} (hr : RoundsNormal rnd) {g : Generator} (hz : TameZond g.zond) (h1 : ∀ x ∈ g.geoms, PtsFit x)
    (h2 : ∀ x ∈ g.legacy, PtsFit x) : zondMatrix rnd g = zondMatrix rne g := by
  have e := fun a b n => (calcDelta_tame hr a b n).1
  have ez : zondAll rnd g.zond ((g.geoms ++ g.legacy).map some) = zondAll rne g.zond ((g.geoms ++ g.legacy).map some) := by
    refine zondAll_eq hr hz _ fun x hx => ?_
    obtain ⟨y, hy, hyx⟩ := List.mem_map.1 hx
    injection hyx with hyx
    subst hyx
    rcases List.mem_append.1 hy with hy | hy
    · exact h1 _ hy
    · exact h2 _ hy
  unfold zondMatrix
  rw [e, e]
  cases calcDelta rne g.ws.leftTop.x g.ws.rightBot.x g.bitmap.isize with
  | ub => rfl
  | throw x => rfl
  | ok dx =>
    cases calcDelta rne g.ws.leftTop.y g.ws.rightBot.y g.bitmap.jsize with
    | ub => rfl
    | throw x => rfl
    | ok dy =>
      dsimp only
      rw [ez]

theorem process_eq {rnd : ℚ → ℚ} (hr : RoundsNormal rnd) (al : Alloc) (stale : Res Nat) (mem : Memory) (depth : Nat) {R C : Nat}
    {g : Generator} (hR : R < 2 ^ 64) (hC : C < 2 ^ 64) (he : TameF 252 200 g.zond.eps)
    (hw : inI32 g.ws.leftTop.x ∧ inI32 g.ws.leftTop.y ∧ inI32 g.ws.rightBot.x ∧ inI32 g.ws.rightBot.y)
    (hm : ∀ a l y g, some l ∈ (mem.layouts a).libraries → y ∈ l.layers → some g ∈ y.geometries → g.coords.length < 2 ^ 64 ∧ PtsFit g) :
    process rnd al stale mem depth R C g = process rne al stale mem depth R C g := by
  unfold process
  by_cases h0 : R = 0
  · rw [if_pos h0, if_pos h0]
  rw [if_neg h0, if_neg h0]
  by_cases h1 : C = 0
  · rw [if_pos h1, if_pos h1]
  rw [if_neg h1, if_neg h1]
  cases BitMatrix.resize al R C g.bitmap with
  | ub => rfl
  | throw e b => rfl
  | ok _ b =>
    dsimp only
    rw [setUp_eq hr]
    cases hs : setUp rne stale R C { g with bitmap := b, geoms := [], legacy := [], frags := fragsSetMatrix g.frags } with
    | ub => rfl
    | throw e => rfl
    | ok g1 =>
      dsimp only
      obtain ⟨hz, hws, hd⟩ := setUp_tame hs hR hC he hw
      cases hi : initGeometryItems mem depth g1 with
      | none => rfl
      | some x =>
        cases x with
        | ub => rfl
        | throw e => rfl
        | ok x =>
          obtain ⟨gs, ls⟩ := x
          dsimp only
          have hfit : (∀ g ∈ gs, PtsFit g) ∧ ∀ g ∈ ls, PtsFit g := by
            unfold initGeometryItems at hi
            cases hda : g1.data with
            | none => rw [hda] at hi; cases hi
            | some a =>
              rw [hda] at hi
              exact gatherLibs_fit _ _ (hm a) hi
          rw [zondMatrix_eq hr (g := { g1 with geoms := gs, legacy := ls }) hz hfit.1 hfit.2]

end Verif.Proofs.Range
