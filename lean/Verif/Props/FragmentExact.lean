import Verif.Props.FragmentPlan
import Verif.Spec.Zond

/-!
C67: which geometries `DistributeGeometries` gives away, position by position.
-/

namespace Verif.Props
open Verif Spec Generator

section
variable (small : Geometry → Prop) [DecidablePred small]

theorem givenAway_big (g : Geometry) (rest : List Geometry) (h : ¬ small g) (i : Nat) :
    givenAway small (g :: rest) (i + 1) = givenAway small rest i := by
  induction i with
  | zero => simp [givenAway, h]
  | succ i ih =>
    show (!givenAway small (g :: rest) (i + 1) && _) = _
    rw [ih]
    simp [givenAway]

theorem givenAway_small (g k : Geometry) (rest : List Geometry) (h : small g) (i : Nat) :
    givenAway small (g :: k :: rest) (i + 2) = givenAway small rest i := by
  induction i with
  | zero => simp [givenAway, h]
  | succ i ih =>
    show (!givenAway small (g :: k :: rest) (i + 2) && _) = _
    rw [ih]
    simp [givenAway]

end

theorem pick_cons {α : Type} (a : α) (l : List α) (p : Nat → Bool) :
    pick (a :: l) p = (if p 0 then [a] else []) ++ pick l (fun i => p (i + 1)) := by
  unfold pick
  rw [List.length_cons, List.range_succ_eq_map, List.filterMap_cons]
  by_cases h : p 0
  · simp [h, List.filterMap_map]
  · simp [h, List.filterMap_map]

theorem pick_congr {α : Type} (l : List α) (p q : Nat → Bool) (h : ∀ i, p i = q i) : pick l p = pick l q := by
  rw [show p = q from funext h]

theorem distribute_exact {push : Option Geometry → Fragment → Fragment} (hp : Pushes push) (ws : Workspace)
    (l : List Geometry) (fs : V2 Fragment) (hfs : fs.flatten.length < 2 ^ 32) :
    distribute push ws l fs =
      if givenAway (fun x => fragmentsMet fs x ≤ 2) l (l.length - 1) = true then .ub
      else .ok (pick l fun i => !givenAway (fun x => fragmentsMet fs x ≤ 2) l i,
        giveAll push ((pick l fun i => givenAway (fun x => fragmentsMet fs x ≤ 2) l i).filter fun x => decide (Meets ws x)) fs) := by
  induction hn : l.length using Nat.strong_induction_on generalizing l fs with
  | _ n ih =>
    cases l with
    | nil => subst hn; simp [distribute, givenAway, pick, giveAll]
    | cons g rest =>
      unfold distribute
      rw [cnt_eq fs g hfs]
      simp only [List.length_cons] at hn
      split_ifs with hbig h2 h2
      · have hns : ¬ fragmentsMet fs g ≤ 2 := by omega
        rw [ih rest.length (by omega) rest fs hfs rfl]
        subst hn
        cases hr : rest with
        | nil => rw [hr] at h2; simp [givenAway, hns] at h2
        | cons a r =>
          rw [hr] at h2
          simp only [List.length_cons, Nat.add_sub_cancel] at h2 ⊢
          rw [givenAway_big _ _ _ hns] at h2
          rw [if_pos h2]; rfl
      · have hns : ¬ fragmentsMet fs g ≤ 2 := by omega
        rw [ih rest.length (by omega) rest fs hfs rfl]
        subst hn
        have h0 : givenAway (fun x => fragmentsMet fs x ≤ 2) (g :: rest) 0 = false := by simp [givenAway, hns]
        rw [if_neg]
        · simp only [Res.ok_bind, Res.pure_eq]
          rw [pick_cons, pick_cons, h0]
          simp only [givenAway_big (fun x => fragmentsMet fs x ≤ 2) g rest hns]
          rfl
        · cases hr : rest with
          | nil => simp [givenAway]
          | cons a r =>
            rw [hr] at h2
            simp only [List.length_cons, Nat.add_sub_cancel] at h2 ⊢
            rwa [givenAway_big _ _ _ hns] at h2
      all_goals
        have hs : fragmentsMet fs g ≤ 2 := by omega
        have h0 : ∀ r, givenAway (fun x => fragmentsMet fs x ≤ 2) (g :: r) 0 = true := by intro r; simp [givenAway, hs]
      · cases hr : rest with
        | nil => rfl
        | cons k r =>
          dsimp only
          have hang := pushToFrags_angles hp ws g fs
          have hlen : (pushToFrags push ws g fs).flatten.length < 2 ^ 32 := by
            have := congrArg List.length hang
            simp only [List.length_map] at this
            rw [this]; exact hfs
          rw [hr] at hn h2
          simp only [List.length_cons] at hn
          rw [ih r.length (by omega) r _ hlen rfl]
          subst hn
          simp only [met_of_angles hang]
          cases hr' : r with
          | nil => rw [hr'] at h2; simp [givenAway, hs] at h2
          | cons a r' =>
            rw [hr'] at h2
            simp only [List.length_cons, Nat.add_sub_cancel] at h2 ⊢
            rw [givenAway_small _ _ _ _ hs] at h2
            rw [if_pos h2]; rfl
      · cases hr : rest with
        | nil => rw [hr] at hn h2; simp at hn; subst hn; exact absurd (h0 []) h2
        | cons k r =>
          dsimp only
          have hang := pushToFrags_angles hp ws g fs
          have hlen : (pushToFrags push ws g fs).flatten.length < 2 ^ 32 := by
            have := congrArg List.length hang
            simp only [List.length_map] at this
            rw [this]; exact hfs
          rw [hr] at hn h2
          simp only [List.length_cons] at hn
          rw [ih r.length (by omega) r _ hlen rfl]
          subst hn
          simp only [met_of_angles hang]
          have h1 : givenAway (fun x => fragmentsMet fs x ≤ 2) (g :: k :: r) 1 = false := by simp [givenAway, hs]
          rw [if_neg]
          · simp only [Res.ok_bind, Res.pure_eq]
            rw [pick_cons, pick_cons, pick_cons, pick_cons, h0, h1]
            simp only [Nat.add_assoc, Nat.reduceAdd, givenAway_small (fun x => fragmentsMet fs x ≤ 2) g k r hs]
            simp only [Bool.not_true, Bool.not_false, if_true, Bool.false_eq_true, if_false, List.nil_append, List.singleton_append]
            congr 2
            unfold giveAll pushToFrags
            rw [List.map_map]
            apply List.map_congr_left
            intro row _
            simp only [Function.comp]
            rw [List.map_map]
            apply List.map_congr_left
            intro f _
            simp only [Function.comp]
            rw [boxMeets_eq]
            by_cases hm : Meets ws g <;> simp [hm]
          · cases hr' : r with
            | nil => simp [givenAway]
            | cons a r' =>
              rw [hr'] at h2
              simp only [List.length_cons, Nat.add_sub_cancel] at h2 ⊢
              rwa [givenAway_small _ _ _ _ hs] at h2

/-- **C67** `DistributeGeometries` completely: a geometry is given away exactly if it meets at most two fragments and the
geometry before it in its list is not given away; the call is undefined exactly if the last geometry of one of the lists is
given away; what is given away goes to every fragment if it meets the workspace, and to none otherwise. -/
theorem C67_exact (g : Generator) (hfs : g.frags.flatten.length < 2 ^ 32) :
    let given := givenAway fun x => fragmentsMet g.frags x ≤ 2
    distributeGeometries g =
      if given g.geoms (g.geoms.length - 1) = true ∨ given g.legacy (g.legacy.length - 1) = true then .ub
      else .ok { g with
        geoms := pick g.geoms fun i => !given g.geoms i
        legacy := pick g.legacy fun i => !given g.legacy i
        frags := g.frags.map fun row => row.map fun f => { f with
          items := f.items ++ ((pick g.geoms (given g.geoms)).filter fun x => Meets g.ws x).map some
          legacy := f.legacy ++ ((pick g.legacy (given g.legacy)).filter fun x => Meets g.ws x).map some } } := by
  intro given
  unfold distributeGeometries
  rw [distribute_exact pushes_item g.ws g.geoms g.frags hfs]
  by_cases h1 : given g.geoms (g.geoms.length - 1) = true
  · rw [if_pos h1, if_pos (Or.inl h1)]; rfl
  · rw [if_neg h1]
    simp only [Res.ok_bind]
    rw [distribute_exact pushes_legacy g.ws g.legacy _ (by rw [giveAll_flatten_length]; exact hfs)]
    simp only [met_of_angles (giveAll_angles pushes_item _ g.frags)]
    by_cases h2 : given g.legacy (g.legacy.length - 1) = true
    · rw [if_pos h2, if_pos (Or.inr h2)]; rfl
    · rw [if_neg h2, if_neg (fun h => h.elim h1 h2)]
      simp only [Res.ok_bind, Res.pure_eq]
      congr 2
      unfold giveAll
      rw [List.map_map]
      apply List.map_congr_left
      intro row _
      simp only [Function.comp]
      rw [List.map_map]
      apply List.map_congr_left
      intro f _
      simp only [Function.comp]
      rw [giveAll_item, giveAll_legacy]

/-- **C67** `GetFragmentIntersectionCnt` counts the fragments whose rectangle the box meets, modulo 2^32; no geometry counts as 0. -/
theorem C67_count (fs : V2 Fragment) (p : Option Geometry) :
    getFragmentIntersectionCnt fs p = (match p with | none => 0 | some g => fragmentsMet fs g % 2 ^ 32) := by
  cases p with
  | none => rfl
  | some g =>
    unfold getFragmentIntersectionCnt fragmentsMet
    dsimp only
    rw [List.countP_eq_length_filter]
    congr 2
    apply List.filter_congr
    intro f _
    unfold Fragment.geometryWorkspaceIntersection
    dsimp only
    rw [boxMeets_eq]

/-- in `twoFrags` the first rectangle is given away, the second is not -/
example : (List.range 2).map (givenAway (fun x => fragmentsMet twoFrags.frags x ≤ 2) twoFrags.legacy) = [true, false] := by
  decide +kernel

/-- three fragments: a rectangle across all three stays, so the small one after it is given away, and the last one stays -/
example : (List.range 3).map (givenAway (fun x => fragmentsMet [[{ angle := ⟨⟨0, 10⟩, ⟨10, 0⟩⟩ },
    { angle := ⟨⟨10, 10⟩, ⟨20, 0⟩⟩ }, { angle := ⟨⟨20, 10⟩, ⟨30, 0⟩⟩ }]] x ≤ 2)
    [{ type := .rectangle, min := ⟨1, 1⟩, max := ⟨29, 2⟩ }, { type := .rectangle, min := ⟨3, 3⟩, max := ⟨4, 4⟩ },
     { type := .rectangle, min := ⟨5, 5⟩, max := ⟨6, 6⟩ }]) = [false, true, false] := by
  decide +kernel

/-! ### C68: rectangles that are not inside the window -/

/-- exact arithmetic, `FR × FC` fragments of equal size, a rectangle whose first and third corners are `lt` and `rb`, anywhere
within the range of coordinate differences -/
structure PushAny (g : Generator) (r : Geometry) (FR FC : Nat) (lt rb : Coord) : Prop where
  rows : 0 < FR
  cols : 0 < FC
  rows' : FR < 4294967296
  cols' : FC < 4294967296
  grid : FragGrid g.frags FR FC
  wide : g.ws.leftTop.x < g.ws.rightBot.x
  high : g.ws.rightBot.y < g.ws.leftTop.y
  width : inI32 (g.ws.rightBot.x - g.ws.leftTop.x)
  height : inI32 (g.ws.leftTop.y - g.ws.rightBot.y)
  dx : g.dx = .fin ((g.ws.rightBot.x - g.ws.leftTop.x : ℚ) / FC)
  dy : g.dy = .fin ((g.ws.leftTop.y - g.ws.rightBot.y : ℚ) / FR)
  corner0 : r.coords[0]? = some lt
  corner2 : r.coords[2]? = some rb
  fits : DiffsFit g.ws lt rb

/-- one axis: `W` units in `F` parts -/
structure AxisFit (W : Int) (F : Nat) : Prop where
  pos : 0 < W
  fits : W ≤ 2147483647
  parts : 0 < F
  parts' : F < 4294967296

theorem AxisFit.quot {W : Int} {F : Nat} (h : AxisFit W F) {t : Int} (ht : 0 ≤ t) (ht' : t ≤ 2147483647) :
    ∃ n, quotient id t (.fin ((W : ℚ) / F)) = .ok n ∧ ∀ k : Nat, (k * ((W : ℚ) / F) ≤ t ∧ (t : ℚ) < (k + 1) * ((W : ℚ) / F) ↔ k = n) := by
  have hF : (0 : ℚ) < F := by exact_mod_cast h.parts
  have hF' : (F : ℚ) < 4294967296 := by exact_mod_cast h.parts'
  have hW : (1 : ℚ) ≤ W := by have := h.pos; exact_mod_cast (by omega : (1 : Int) ≤ W)
  have htq : (0 : ℚ) ≤ t := by exact_mod_cast ht
  have htq' : (t : ℚ) ≤ 2147483647 := by exact_mod_cast ht'
  refine quotient_spec t _ ht (by positivity) ?_
  rw [div_div_eq_mul_div, div_lt_iff₀ (by linarith)]
  nlinarith

theorem AxisFit.total {W : Int} {F : Nat} (h : AxisFit W F) : (F : ℚ) * ((W : ℚ) / F) = W := by
  have hF : (F : ℚ) ≠ 0 := by exact_mod_cast h.parts.ne'
  field_simp

/-- the index a begin gets -/
theorem AxisFit.start {W : Int} {F : Nat} (h : AxisFit W F) {t : Int} (ht : t < W) :
    ∃ n, startIdx id t (.fin ((W : ℚ) / F)) = .ok n ∧ ∀ q, AxisPart F ((W : ℚ) / F) t q ↔ q = n := by
  have hF : (0 : ℚ) < F := by exact_mod_cast h.parts
  have hWq : (0 : ℚ) < W := by exact_mod_cast h.pos
  have hd : 0 < (W : ℚ) / F := by positivity
  have htot := h.total
  have htW : (t : ℚ) < W := by exact_mod_cast ht
  unfold startIdx
  split_ifs with h0
  · obtain ⟨n, h1, h2⟩ := h.quot (t := t) (by omega) (by have := h.fits; omega)
    refine ⟨n, h1, fun q => ?_⟩
    rw [← h2]
    unfold AxisPart
    have ht0 : (0 : ℚ) < t := by exact_mod_cast h0
    constructor
    · rintro ⟨a, b, c⟩
      refine ⟨?_, ?_⟩
      · rcases b with rfl | b
        · push_cast; linarith
        · exact b
      · rcases c with c | c
        · have : ((q : ℚ) + 1) = F := by exact_mod_cast c
          rw [this, htot]; exact htW
        · exact c
    · rintro ⟨a, b⟩
      refine ⟨?_, Or.inr a, Or.inr b⟩
      by_contra hq
      have : (F : ℚ) ≤ q := by exact_mod_cast (not_lt.1 hq)
      nlinarith
  · have ht0 : (t : ℚ) ≤ 0 := by exact_mod_cast (not_lt.1 h0)
    refine ⟨0, rfl, fun q => ?_⟩
    unfold AxisPart
    constructor
    · rintro ⟨a, b, c⟩
      rcases b with rfl | b
      · rfl
      · by_contra hq
        have : (1 : ℚ) ≤ q := by exact_mod_cast Nat.one_le_iff_ne_zero.2 hq
        nlinarith
    · rintro rfl
      exact ⟨h.parts, Or.inl rfl, Or.inr (by push_cast; linarith)⟩

/-- the index an end gets, from the border on -/
theorem AxisFit.stop {W : Int} {F : Nat} (h : AxisFit W F) {t : Int} (ht : 0 ≤ t) (ht' : t ≤ 2147483647) :
    ∃ n, (if t < W then quotient id t (.fin ((W : ℚ) / F)) else .ok (F - 1)) = .ok n ∧ ∀ q, AxisPart F ((W : ℚ) / F) t q ↔ q = n := by
  have hF : (0 : ℚ) < F := by exact_mod_cast h.parts
  have hWq : (0 : ℚ) < W := by exact_mod_cast h.pos
  have hd : 0 < (W : ℚ) / F := by positivity
  have htot := h.total
  have ht0 : (0 : ℚ) ≤ t := by exact_mod_cast ht
  split_ifs with h0
  · have htW : (t : ℚ) < W := by exact_mod_cast h0
    obtain ⟨n, h1, h2⟩ := h.quot ht ht'
    refine ⟨n, h1, fun q => ?_⟩
    rw [← h2]
    unfold AxisPart
    constructor
    · rintro ⟨a, b, c⟩
      refine ⟨?_, ?_⟩
      · rcases b with rfl | b
        · push_cast; linarith
        · exact b
      · rcases c with c | c
        · have : ((q : ℚ) + 1) = F := by exact_mod_cast c
          rw [this, htot]; exact htW
        · exact c
    · rintro ⟨a, b⟩
      refine ⟨?_, Or.inr a, Or.inr b⟩
      by_contra hq
      have : (F : ℚ) ≤ q := by exact_mod_cast (not_lt.1 hq)
      nlinarith
  · have htW : (W : ℚ) ≤ t := by exact_mod_cast (not_lt.1 h0)
    refine ⟨F - 1, rfl, fun q => ?_⟩
    unfold AxisPart
    have hp := h.parts
    constructor
    · rintro ⟨a, b, c⟩
      rcases c with c | c
      · omega
      · by_contra hq
        have : ((q : ℚ) + 1) ≤ F := by exact_mod_cast a
        nlinarith
    · rintro rfl
      refine ⟨by omega, Or.inr ?_, Or.inl (by omega)⟩
      have : (((F - 1 : Nat) : ℚ)) ≤ F := by exact_mod_cast Nat.sub_le F 1
      nlinarith

/-- the index an end `t` gets on an axis of `W` units in `F` parts, `before` = it lies before the border -/
def endAt (before : Prop) [Decidable before] (t W : Int) (F : Nat) (d : ℚ) : Res Nat :=
  if before then .ok (F - 1) else if t < W then quotient id t (.fin d) else .ok (F - 1)

theorem rectFragments_any {g : Generator} {r : Geometry} {FR FC : Nat} {lt rb : Coord} (s : PushAny g r FR FC lt rb) :
    rectFragments id g r = (do
      let jB ← startIdx id (lt.x - g.ws.leftTop.x) (.fin ((g.ws.rightBot.x - g.ws.leftTop.x : ℚ) / FC))
      let jE ← endAt (rb.x - g.ws.leftTop.x < 0) (rb.x - g.ws.leftTop.x) (g.ws.rightBot.x - g.ws.leftTop.x) FC
        ((g.ws.rightBot.x - g.ws.leftTop.x : ℚ) / FC)
      let iB ← startIdx id (g.ws.leftTop.y - lt.y) (.fin ((g.ws.leftTop.y - g.ws.rightBot.y : ℚ) / FR))
      let iE ← endAt (g.ws.leftTop.y - rb.y ≤ 0) (g.ws.leftTop.y - rb.y) (g.ws.leftTop.y - g.ws.rightBot.y) FR
        ((g.ws.leftTop.y - g.ws.rightBot.y : ℚ) / FR)
      pure (iB, iE, jB, jE)) := by
  obtain ⟨f1, f2, f3, f4⟩ := s.fits
  have sub_ok : ∀ a b : Int, inI32 (a - b) → sub32 a b = .ok (a - b) := by
    intro a b h
    unfold sub32 chk32
    rw [if_pos h]
  have hr := s.rows
  have hc := s.cols
  have hrow : subSz (V2.rowCount g.frags) 1 = FR - 1 := by
    unfold subSz V2.rowCount
    rw [s.grid.1, if_pos (by omega)]
  have hcol : subSz FC 1 = FC - 1 := by unfold subSz; rw [if_pos (by omega)]
  unfold rectFragments Res.idx
  rw [s.corner0, s.corner2, colCount_grid s.rows s.grid]
  simp only [Res.ok_bind]
  rw [sub_ok _ _ f1, sub_ok _ _ f2, sub_ok _ _ f3, sub_ok _ _ f4]
  simp only [Res.ok_bind]
  unfold endCol endRow
  rw [sub_ok _ _ s.width, sub_ok _ _ s.height, hrow, hcol, s.dx, s.dy]
  simp only [Res.ok_bind]
  have e1 : ∀ (α : Type) (a b : α), (if rb.x - g.ws.leftTop.x ≥ 0 then a else b) = if rb.x - g.ws.leftTop.x < 0 then b else a := by
    intro α a b
    by_cases h : rb.x - g.ws.leftTop.x < 0
    · rw [if_pos h, if_neg (by omega)]
    · rw [if_neg h, if_pos (by omega)]
  have e2 : ∀ (α : Type) (a b : α), (if g.ws.leftTop.y - rb.y > 0 then a else b) = if g.ws.leftTop.y - rb.y ≤ 0 then b else a := by
    intro α a b
    by_cases h : g.ws.leftTop.y - rb.y ≤ 0
    · rw [if_pos h, if_neg (by omega)]
    · rw [if_neg h, if_pos (by omega)]
  rw [e1, e2]
  rfl

theorem PushAny.axisX {g : Generator} {r : Geometry} {FR FC : Nat} {lt rb : Coord} (s : PushAny g r FR FC lt rb) :
    AxisFit (g.ws.rightBot.x - g.ws.leftTop.x) FC :=
  ⟨by have := s.wide; omega, s.width.2, s.cols, s.cols'⟩

theorem PushAny.axisY {g : Generator} {r : Geometry} {FR FC : Nat} {lt rb : Coord} (s : PushAny g r FR FC lt rb) :
    AxisFit (g.ws.leftTop.y - g.ws.rightBot.y) FR :=
  ⟨by have := s.high; omega, s.height.2, s.rows, s.rows'⟩

/-- **C68** For every rectangle that starts before the right and bottom borders and ends on or behind the left border and below
the top border — it may stick out of the window on all sides — `pushRectangle` on a shared pointer answers whether both corners
lie in, or are nearest to, the same part of the grid. -/
theorem C68_sticking_out {g : Generator} {r : Geometry} {FR FC : Nat} {lt rb : Coord} (s : PushAny g r FR FC lt rb)
    (h1 : lt.x < g.ws.rightBot.x) (h2 : g.ws.rightBot.y < lt.y) (h3 : g.ws.leftTop.x ≤ rb.x) (h4 : rb.y < g.ws.leftTop.y) :
    ∃ b, pushRectangleShared id g r = .ok b ∧
      (b = true ↔ ∃ p q : Nat, NearestPart g.ws FR FC p q lt ∧ NearestPart g.ws FR FC p q rb) := by
  obtain ⟨f1, f2, f3, f4⟩ := s.fits
  have ax := s.axisX
  have ay := s.axisY
  obtain ⟨jB, a1, b1⟩ := ax.start (t := lt.x - g.ws.leftTop.x) (by omega)
  obtain ⟨jE, a2, b2⟩ := ax.stop (t := rb.x - g.ws.leftTop.x) (by omega) f2.2
  obtain ⟨iB, a3, b3⟩ := ay.start (t := g.ws.leftTop.y - lt.y) (by omega)
  obtain ⟨iE, a4, b4⟩ := ay.stop (t := g.ws.leftTop.y - rb.y) (by omega) f4.2
  rw [Int.cast_sub] at a1 a2 a3 a4 b1 b2 b3 b4
  refine ⟨decide (iB = iE ∧ jB = jE), ?_, ?_⟩
  · unfold pushRectangleShared
    rw [rectFragments_any s, a1]
    simp only [Res.ok_bind]
    unfold endAt
    rw [if_neg (by omega), a2]
    simp only [Res.ok_bind]
    rw [a3]
    simp only [Res.ok_bind]
    rw [if_neg (by omega), a4]
    rfl
  · rw [decide_eq_true_iff]
    unfold NearestPart
    simp only [b1, b2, b3, b4]
    constructor
    · rintro ⟨rfl, rfl⟩
      exact ⟨iB, jB, ⟨rfl, rfl⟩, rfl, rfl⟩
    · rintro ⟨p, q, ⟨rfl, rfl⟩, rfl, rfl⟩
      exact ⟨rfl, rfl⟩

/-- **C68** A rectangle that starts on or behind the right border is never reported to fit, whatever its rows. -/
theorem C68_right_of_window {g : Generator} {r : Geometry} {FR FC : Nat} {lt rb : Coord} (s : PushAny g r FR FC lt rb)
    (h1 : g.ws.rightBot.x ≤ lt.x) (h2 : lt.x ≤ rb.x) : pushRectangleShared id g r = .ok false := by
  obtain ⟨f1, f2, f3, f4⟩ := s.fits
  have ax := s.axisX
  have ay := s.axisY
  have hw := s.wide
  have hh := s.high
  obtain ⟨jB, a1, b1⟩ := ax.quot (t := lt.x - g.ws.leftTop.x) (by omega) f1.2
  have hjB : FC ≤ jB := by
    by_contra hlt
    have h5 := ((b1 jB).2 rfl).2
    have hF : (0 : ℚ) < FC := by exact_mod_cast s.cols
    have hWq : (0 : ℚ) < ((g.ws.rightBot.x - g.ws.leftTop.x : Int) : ℚ) := by exact_mod_cast ax.pos
    have hd : 0 < ((g.ws.rightBot.x - g.ws.leftTop.x : Int) : ℚ) / FC := by positivity
    have htot := ax.total
    have h6 : ((jB : ℚ) + 1) ≤ FC := by exact_mod_cast (not_le.1 hlt)
    have h7 : ((g.ws.rightBot.x - g.ws.leftTop.x : Int) : ℚ) ≤ ((lt.x - g.ws.leftTop.x : Int) : ℚ) := by
      exact_mod_cast (by omega : g.ws.rightBot.x - g.ws.leftTop.x ≤ lt.x - g.ws.leftTop.x)
    nlinarith
  have hy : ∃ iB iE : Nat, startIdx id (g.ws.leftTop.y - lt.y) (.fin ((g.ws.leftTop.y - g.ws.rightBot.y : ℚ) / FR)) = .ok iB ∧
      endAt (g.ws.leftTop.y - rb.y ≤ 0) (g.ws.leftTop.y - rb.y) (g.ws.leftTop.y - g.ws.rightBot.y) FR
        ((g.ws.leftTop.y - g.ws.rightBot.y : ℚ) / FR) = .ok iE := by
    have e : ((g.ws.leftTop.y - g.ws.rightBot.y : Int) : ℚ) = (g.ws.leftTop.y - g.ws.rightBot.y : ℚ) := by push_cast; rfl
    have x1 : ∃ iB : Nat, startIdx id (g.ws.leftTop.y - lt.y) (.fin ((g.ws.leftTop.y - g.ws.rightBot.y : ℚ) / FR)) = .ok iB := by
      unfold startIdx
      split_ifs with h
      · obtain ⟨n, hn, _⟩ := ay.quot (t := g.ws.leftTop.y - lt.y) (by omega) f3.2
        exact ⟨n, by rw [← e]; exact hn⟩
      · exact ⟨0, rfl⟩
    obtain ⟨iB, x1⟩ := x1
    refine ⟨iB, ?_⟩
    unfold endAt
    split_ifs with h h'
    · exact ⟨_, x1, rfl⟩
    · obtain ⟨n, hn, _⟩ := ay.quot (t := g.ws.leftTop.y - rb.y) (by omega) f4.2
      exact ⟨n, x1, by rw [← e]; exact hn⟩
    · exact ⟨_, x1, rfl⟩
  obtain ⟨iB, iE, a3, a4⟩ := hy
  rw [Int.cast_sub] at a1
  unfold pushRectangleShared
  rw [rectFragments_any s]
  have b0 : startIdx id (lt.x - g.ws.leftTop.x) (.fin ((g.ws.rightBot.x - g.ws.leftTop.x : ℚ) / FC)) = .ok jB := by
    unfold startIdx
    rw [if_pos (by omega), a1]
  have b2 : endAt (rb.x - g.ws.leftTop.x < 0) (rb.x - g.ws.leftTop.x) (g.ws.rightBot.x - g.ws.leftTop.x) FC
      ((g.ws.rightBot.x - g.ws.leftTop.x : ℚ) / FC) = .ok (FC - 1) := by
    unfold endAt
    rw [if_neg (by omega), if_neg (by omega)]
  rw [b0, b2, a3, a4]
  simp only [Res.ok_bind, Res.pure_eq]
  congr 1
  rw [decide_eq_false_iff_not]
  have := s.cols
  omega

/-- **C68** A rectangle that ends before the left border is treated as if it reached the last column: with more than one column
of fragments it is never reported to fit. -/
theorem C68_left_of_window {g : Generator} {r : Geometry} {FR FC : Nat} {lt rb : Coord} (s : PushAny g r FR FC lt rb)
    (h1 : rb.x < g.ws.leftTop.x) (h2 : lt.x ≤ rb.x) (hF : 1 < FC) : pushRectangleShared id g r ≠ .ok true := by
  unfold pushRectangleShared
  rw [rectFragments_any s]
  intro h
  have b0 : startIdx id (lt.x - g.ws.leftTop.x) (.fin ((g.ws.rightBot.x - g.ws.leftTop.x : ℚ) / FC)) = .ok 0 := by
    unfold startIdx
    rw [if_neg (by omega)]
  have b2 : endAt (rb.x - g.ws.leftTop.x < 0) (rb.x - g.ws.leftTop.x) (g.ws.rightBot.x - g.ws.leftTop.x) FC
      ((g.ws.rightBot.x - g.ws.leftTop.x : ℚ) / FC) = .ok (FC - 1) := by
    unfold endAt
    rw [if_pos (by omega)]
  rw [b0, b2] at h
  simp only [Res.ok_bind] at h
  revert h
  generalize startIdx _ _ _ = A
  generalize endAt (g.ws.leftTop.y - rb.y ≤ 0) (g.ws.leftTop.y - rb.y) (g.ws.leftTop.y - g.ws.rightBot.y) FR
      ((g.ws.leftTop.y - g.ws.rightBot.y : ℚ) / FR) = B
  intro h
  cases A with
  | ok a =>
    cases B with
    | ok b =>
      simp only [Res.ok_bind, Res.pure_eq] at h
      have h := Res.ok.inj h
      rw [decide_eq_true_iff] at h
      omega
    | throw e => cases h
    | ub => cases h
  | throw e => cases h
  | ub => cases h

/-- the four-fragment generator: a rectangle over the right top corner of the window fits the right top part; one to the right of
the window and one to the left do not fit -/
example : pushRectangleShared id fourFrags { type := .rectangle, coords := [⟨12, 19⟩, ⟨30, 19⟩, ⟨30, 8⟩] } = .ok true ∧
    pushRectangleShared id fourFrags { type := .rectangle, coords := [⟨20, 9⟩, ⟨30, 9⟩, ⟨30, 8⟩] } = .ok false ∧
    pushRectangleShared id fourFrags { type := .rectangle, coords := [⟨-9, 9⟩, ⟨-3, 9⟩, ⟨-3, 8⟩] } = .ok false ∧
    PushAny fourFrags { type := .rectangle, coords := [⟨12, 19⟩, ⟨30, 19⟩, ⟨30, 8⟩] } 2 2 ⟨12, 19⟩ ⟨30, 8⟩ := by
  refine ⟨by decide +kernel, by decide +kernel, by decide +kernel, ?_⟩
  constructor <;> first | decide | rfl | exact ⟨rfl, by simp [fourFrags]⟩ | (unfold DiffsFit inI32; decide)

/-- **C68** Before a cell size has been computed (`Init` leaves it 0), the placement is undefined — a division by zero whose result is converted
to an index — exactly if the first corner lies right of the left or below the top border, or the second corner within the window's columns or rows.  Otherwise the whole grid is taken, so that the rectangle
fits exactly if there is only one fragment. -/
theorem C68_no_cell_size (rnd : ℚ → ℚ) (g : Generator) (r : Geometry) (FR FC : Nat) (lt rb : Coord) (hr : 0 < FR) (hc : 0 < FC)
    (hr' : FR < 2 ^ 64) (hc' : FC < 2 ^ 64) (hg : FragGrid g.frags FR FC) (hw : inI32 (g.ws.rightBot.x - g.ws.leftTop.x))
    (hh : inI32 (g.ws.leftTop.y - g.ws.rightBot.y)) (h0 : r.coords[0]? = some lt) (h2 : r.coords[2]? = some rb)
    (hf : DiffsFit g.ws lt rb) (hx : g.dx = .fin 0) (hy : g.dy = .fin 0) :
    (pushRectangleShared rnd g r = .ub ↔
      g.ws.leftTop.x < lt.x ∨ (g.ws.leftTop.x ≤ rb.x ∧ rb.x < g.ws.rightBot.x) ∨
      lt.y < g.ws.leftTop.y ∨ (rb.y < g.ws.leftTop.y ∧ g.ws.rightBot.y < rb.y)) ∧
    (pushRectangleShared rnd g r ≠ .ub → pushRectangleShared rnd g r = .ok (decide (FR = 1 ∧ FC = 1))) := by
  obtain ⟨f1, f2, f3, f4⟩ := hf
  have sub_ok : ∀ a b : Int, inI32 (a - b) → sub32 a b = .ok (a - b) := by
    intro a b h
    unfold sub32 chk32
    rw [if_pos h]
  have q0 : ∀ t : Int, quotient rnd t (.fin 0) = .ub := by
    intro t
    unfold quotient Fl.ofInt Fl.div Fl.infOf
    dsimp only
    rw [if_pos rfl]
    split
    · rfl
    · split <;> rfl
  have hrow : subSz (V2.rowCount g.frags) 1 = FR - 1 := by
    unfold subSz V2.rowCount
    rw [hg.1, if_pos (by omega)]
  have hcol : subSz FC 1 = FC - 1 := by unfold subSz; rw [if_pos (by omega)]
  have st : ∀ t : Int, startIdx rnd t (.fin 0) = if 0 < t then .ub else .ok 0 := by
    intro t
    unfold startIdx
    rw [q0]
  have ec : endCol rnd g FC (rb.x - g.ws.leftTop.x) =
      if g.ws.leftTop.x ≤ rb.x ∧ rb.x < g.ws.rightBot.x then .ub else .ok (FC - 1) := by
    unfold endCol
    rw [sub_ok _ _ hw, hx, hcol, q0]
    simp only [Res.ok_bind]
    split_ifs <;> first | rfl | (exfalso; omega)
  have er : endRow rnd g (V2.rowCount g.frags) (g.ws.leftTop.y - rb.y) =
      if rb.y < g.ws.leftTop.y ∧ g.ws.rightBot.y < rb.y then .ub else .ok (FR - 1) := by
    unfold endRow
    rw [sub_ok _ _ hh, hy, hrow, q0]
    simp only [Res.ok_bind]
    split_ifs <;> first | rfl | (exfalso; omega)
  have e : rectFragments rnd g r = (do
      let jB ← (if 0 < lt.x - g.ws.leftTop.x then Res.ub else .ok 0)
      let jE ← (if g.ws.leftTop.x ≤ rb.x ∧ rb.x < g.ws.rightBot.x then Res.ub else .ok (FC - 1))
      let iB ← (if 0 < g.ws.leftTop.y - lt.y then Res.ub else .ok 0)
      let iE ← (if rb.y < g.ws.leftTop.y ∧ g.ws.rightBot.y < rb.y then Res.ub else .ok (FR - 1))
      pure (iB, iE, jB, jE)) := by
    unfold rectFragments Res.idx
    rw [h0, h2, colCount_grid hr hg]
    simp only [Res.ok_bind]
    rw [sub_ok _ _ f1, sub_ok _ _ f2, sub_ok _ _ f3, sub_ok _ _ f4]
    simp only [Res.ok_bind]
    rw [hx, hy, st, st, ec, er]
  unfold pushRectangleShared
  rw [e]
  by_cases c1 : 0 < lt.x - g.ws.leftTop.x
  · rw [if_pos c1]
    exact ⟨⟨fun _ => .inl (by omega), fun _ => rfl⟩, fun h => absurd rfl h⟩
  rw [if_neg c1]
  simp only [Res.ok_bind]
  by_cases c2 : g.ws.leftTop.x ≤ rb.x ∧ rb.x < g.ws.rightBot.x
  · rw [if_pos c2]
    exact ⟨⟨fun _ => .inr (.inl c2), fun _ => rfl⟩, fun h => absurd rfl h⟩
  rw [if_neg c2]
  simp only [Res.ok_bind]
  by_cases c3 : 0 < g.ws.leftTop.y - lt.y
  · rw [if_pos c3]
    exact ⟨⟨fun _ => .inr (.inr (.inl (by omega))), fun _ => rfl⟩, fun h => absurd rfl h⟩
  rw [if_neg c3]
  simp only [Res.ok_bind]
  by_cases c4 : rb.y < g.ws.leftTop.y ∧ g.ws.rightBot.y < rb.y
  · rw [if_pos c4]
    exact ⟨⟨fun _ => .inr (.inr (.inr c4)), fun _ => rfl⟩, fun h => absurd rfl h⟩
  rw [if_neg c4]
  simp only [Res.ok_bind, Res.pure_eq]
  refine ⟨⟨fun h => (by cases h), fun h => ?_⟩, fun _ => ?_⟩
  · exfalso
    rcases h with h | h | h | h
    · omega
    · exact c2 h
    · omega
    · exact c4 h
  · congr 1
    apply decide_eq_decide.2
    omega

/-- the four-fragment generator with no cell size: undefined for a rectangle inside, defined for one that covers the window -/
example : pushRectangleShared id { fourFrags with dx := .fin 0, dy := .fin 0 } { type := .rectangle, coords := [⟨2, 9⟩, ⟨5, 9⟩, ⟨5, 3⟩] } = .ub ∧
    pushRectangleShared id { fourFrags with dx := .fin 0, dy := .fin 0 } { type := .rectangle, coords := [⟨-1, 99⟩, ⟨99, 99⟩, ⟨99, -1⟩] } = .ok false := by
  refine ⟨by decide +kernel, by decide +kernel⟩

end Verif.Props
