import Verif.Model.LayoutConverter
import Verif.Spec.Converter
import Verif.Proofs.BitMatrix

namespace Verif.Converter
open Verif.Spec

theorem chk32_ok {v : Int} (h : inI32 v) : chk32 v = .ok v := by simp [chk32, h]

theorem chk32_cases (v : Int) : chk32 v = .ok v ∧ inI32 v ∨ chk32 v = .ub := by
  unfold chk32; split <;> simp_all

theorem chk32_eq_ok {v w : Int} (h : chk32 v = .ok w) : w = v ∧ inI32 v := by
  rcases chk32_cases v with ⟨h1, h2⟩ | h1
  · rw [h1] at h; injection h with h; exact ⟨h.symm, h2⟩
  · rw [h1] at h; cases h

/-- the angle computations never throw -/
theorem add32_noThrow (a b : Int) : ∀ e, add32 a b ≠ .throw e := by
  intro e; unfold add32 chk32; split <;> simp
theorem sub32_noThrow (a b : Int) : ∀ e, sub32 a b ≠ .throw e := by
  intro e; unfold sub32 chk32; split <;> simp

theorem bind_noThrow {α β : Type} {x : Res α} {f : α → Res β} (hx : ∀ e, x ≠ .throw e)
    (hf : ∀ a e, f a ≠ .throw e) : ∀ e, (x >>= f) ≠ .throw e := by
  intro e; cases x with
  | ok a => exact hf a e
  | throw e' => exact absurd rfl (hx e')
  | ub => simp

theorem mkAngles_noThrow {a b c d : Res Int} (ha : ∀ e, a ≠ .throw e) (hb : ∀ e, b ≠ .throw e)
    (hc : ∀ e, c ≠ .throw e) (hd : ∀ e, d ≠ .throw e) : ∀ e, mkAngles a b c d ≠ .throw e := by
  unfold mkAngles
  refine bind_noThrow ha fun _ => bind_noThrow hb fun _ => bind_noThrow hc fun _ => bind_noThrow hd fun _ => ?_
  intro e; simp

theorem map_noThrow {α β : Type} {x : Res α} {f : α → β} (hx : ∀ e, x ≠ .throw e) :
    ∀ e, (f <$> x) ≠ .throw e := by
  intro e; cases x with
  | ok a => intro h; cases h
  | throw e' => exact absurd rfl (hx e')
  | ub => intro h; cases h

theorem pure_noThrow {α : Type} (a : α) : ∀ e, (pure a : Res α) ≠ .throw e := by intro e; simp

theorem anglesVertical_noThrow (b e : Coord) (hw : Int) (pos : PathElemPos) :
    ∀ x, anglesVertical b e hw pos ≠ .throw x := by
  unfold anglesVertical
  cases pos <;> dsimp only <;> (try split) <;>
    first
      | exact pure_noThrow _
      | (apply map_noThrow; apply mkAngles_noThrow <;>
          first | exact add32_noThrow _ _ | exact sub32_noThrow _ _ | exact pure_noThrow _)

theorem anglesHorizontal_noThrow (b e : Coord) (hw : Int) (pos : PathElemPos) :
    ∀ x, anglesHorizontal b e hw pos ≠ .throw x := by
  unfold anglesHorizontal
  cases pos <;> dsimp only <;> (try split) <;>
    first
      | exact pure_noThrow _
      | (apply map_noThrow; apply mkAngles_noThrow <;>
          first | exact add32_noThrow _ _ | exact sub32_noThrow _ _ | exact pure_noThrow _)

theorem calcRectAngles_cases (b e : Coord) (hw : Int) (pos : PathElemPos) :
    calcRectAngles b e hw pos = .ok zeroAngles ∨ calcRectAngles b e hw pos = .ub := by
  unfold calcRectAngles
  split
  · left; rfl
  · split
    · left; rfl
    · cases h : anglesVertical b e hw pos with
      | ok v => left; rfl
      | throw x => exact absurd h (anglesVertical_noThrow b e hw pos x)
      | ub => right; rfl
    · cases h : anglesHorizontal b e hw pos with
      | ok v =>
        rw [Res.ok_bind]
        cases v with
        | none => left; rfl
        | some w =>
          dsimp only
          cases h : anglesVertical b e hw pos with
          | ok v => left; rfl
          | throw x => exact absurd h (anglesVertical_noThrow b e hw pos x)
          | ub => right; rfl
      | throw x => exact absurd h (anglesHorizontal_noThrow b e hw pos x)
      | ub => right; rfl

theorem fillBox_origin (l : Int) :
    fillBox (some { type := .rectangle }) ⟨0, 0⟩ ⟨0, 0⟩ l = .ok (originRect l) := by
  simp [fillBox, sub32, chk32, inI32, originRect, bboxStep]

theorem pathStep_cases (p : Geometry) (i : Nat) (hi : i + 1 < p.coords.length) (bs : List Geometry) :
    pathStep p i bs = .ok () (bs ++ [originRect p.layer]) ∨ pathStep p i bs = .ub := by
  unfold pathStep
  dsimp only
  rw [Res.idx_of_lt _ _ (by omega), Res.idx_of_lt _ _ hi, Res.ok_bind, Res.ok_bind]
  rcases calcRectAngles_cases p.coords[i] p.coords[i + 1] (p.width.tdiv 2)
    (if subSz p.coords.length 2 = i then .end' else .mid) with h | h
  · left
    rw [h, Res.ok_bind]
    simp only [zeroAngles, fillBox_origin]
  · right
    rw [h, Res.ub_bind]

/-- loop rule for bodies that either work or are UB -/
theorem loop_ok_or_ub {σ : Type} {body : Nat → M σ Unit} (F : Nat → σ) :
    ∀ (n start : Nat),
      (∀ i, start ≤ i → i < start + n → body i (F i) = .ok () (F (i + 1)) ∨ body i (F i) = .ub) →
      M.loop start n body (F start) = .ok () (F (start + n)) ∨ M.loop start n body (F start) = .ub := by
  intro n
  induction n with
  | zero => intro start _; left; rfl
  | succ n ih =>
    intro start h
    rcases h start (Nat.le_refl _) (by omega) with h0 | h0
    · have := ih (start + 1) (fun i h1 h2 => h i (by omega) (by omega))
      simp only [M.loop]
      rw [M.run_bind_ok h0, show start + (n + 1) = start + 1 + n by omega]
      exact this
    · right; simp only [M.loop]; rw [M.run_bind_ub h0]

theorem pathToRectList_cases (p : Geometry) (ht : p.type = .path) (hc : p.coords ≠ [])
    (hl : p.coords.length < 2 ^ 64) :
    pathToRectList (some p) = .ok (List.replicate (p.coords.length - 1) (originRect p.layer)) ∨
      pathToRectList (some p) = .ub := by
  have hpos : 1 ≤ p.coords.length := by
    cases hh : p.coords with
    | nil => exact absurd hh hc
    | cons a l => simp
  unfold pathToRectList
  dsimp only
  rw [if_neg (by simp [ht]), subSz_eq _ _ hpos hl]
  have := loop_ok_or_ub (body := pathStep p) (fun n => List.replicate n (originRect p.layer))
    (p.coords.length - 1) 0 (by
      intro i _ hi
      rcases pathStep_cases p i (by omega) (List.replicate i (originRect p.layer)) with h | h
      · left; rw [h, List.replicate_succ']
      · right; exact h)
  simp only [List.replicate_zero, Nat.zero_add] at this
  rcases this with h | h
  · left; rw [h]; rfl
  · right; rw [h]; rfl

theorem pathToRectList_empty (p : Geometry) (ht : p.type = .path) (hc : p.coords = []) :
    pathToRectList (some p) = .ub := by
  unfold pathToRectList
  dsimp only
  rw [if_neg (by simp [ht]), hc]
  have : M.loop 0 (subSz ([] : List Coord).length 1) (pathStep p) [] = .ub := by
    apply BitMatrix.loop_ub (fun t => True) 0
    · intro t _
      simp [pathStep, hc, Res.idx]
    · exact Nat.le_refl _
    · rw [Nat.zero_add]; exact subSz_zero_one_pos
    · trivial
    · intro i t _ h; omega
  rw [this]; rfl

theorem mkAngles_ok {a b c d : Res Int} (ha : ∃ v, a = .ok v) (hb : ∃ v, b = .ok v) (hc : ∃ v, c = .ok v)
    (hd : ∃ v, d = .ok v) : ∃ v, some <$> mkAngles a b c d = .ok (some v) := by
  obtain ⟨_, rfl⟩ := ha; obtain ⟨_, rfl⟩ := hb; obtain ⟨_, rfl⟩ := hc; obtain ⟨_, rfl⟩ := hd
  exact ⟨_, rfl⟩

theorem add32_ok {a b : Int} (h : inI32 (a + b)) : ∃ v, add32 a b = .ok v := ⟨_, chk32_ok h⟩
theorem sub32_ok {a b : Int} (h : inI32 (a - b)) : ∃ v, sub32 a b = .ok v := ⟨_, chk32_ok h⟩

/-- a coordinate of moderate size -/
def CSmall (c : Coord) : Prop :=
  -1073741824 ≤ c.x ∧ c.x ≤ 1073741824 ∧ -1073741824 ≤ c.y ∧ c.y ≤ 1073741824

theorem calcRectAngles_ok {b e : Coord} {hw : Int} (pos : PathElemPos) (hb : CSmall b) (he : CSmall e)
    (h1 : -536870912 ≤ hw) (h2 : hw ≤ 536870912) : calcRectAngles b e hw pos = .ok zeroAngles := by
  obtain ⟨b1, b2, b3, b4⟩ := hb
  obtain ⟨e1, e2, e3, e4⟩ := he
  have hv : ∃ v, anglesVertical b e hw pos = .ok v := by
    unfold anglesVertical
    cases pos <;> dsimp only <;> (try split) <;>
      first
        | exact ⟨_, rfl⟩
        | (refine ((mkAngles_ok ?_ ?_ ?_ ?_).imp' _ fun v h => h) <;>
            first
              | exact ⟨_, rfl⟩
              | (apply add32_ok; unfold inI32; omega))
  have hh : ∃ v, anglesHorizontal b e hw pos = .ok v := by
    unfold anglesHorizontal
    cases pos <;> dsimp only <;> (try split) <;>
      first
        | exact ⟨_, rfl⟩
        | (refine ((mkAngles_ok ?_ ?_ ?_ ?_).imp' _ fun v h => h) <;>
            first
              | exact ⟨_, rfl⟩
              | (apply add32_ok; unfold inI32; omega))
  obtain ⟨v, hv⟩ := hv
  obtain ⟨w, hh⟩ := hh
  unfold calcRectAngles
  split
  · rfl
  · split
    · rfl
    · rw [hv]; rfl
    · rw [hh, Res.ok_bind]
      cases w with
      | none => rfl
      | some w => rw [hv]; rfl

theorem pathToRectList_ok (p : Geometry) (ht : p.type = .path) (hc : p.coords ≠ [])
    (hl : p.coords.length < 2 ^ 64) (hs : PathSmall p) :
    pathToRectList (some p) = .ok (List.replicate (p.coords.length - 1) (originRect p.layer)) := by
  have hpos : 1 ≤ p.coords.length := by
    cases hh : p.coords with
    | nil => exact absurd hh hc
    | cons a l => simp
  obtain ⟨hw1, hw2, hs⟩ := hs
  unfold pathToRectList
  dsimp only
  rw [if_neg (by simp [ht]), subSz_eq _ _ hpos hl]
  obtain ⟨s', h1, h2⟩ := M.loop_inv (body := pathStep p) (fun n s => s = List.replicate n (originRect p.layer))
    (p.coords.length - 1) 0 [] rfl (by
      intro i t _ hi ht
      subst ht
      refine ⟨_, ?_, rfl⟩
      unfold pathStep
      dsimp only
      rw [Res.idx_of_lt _ _ (by omega), Res.idx_of_lt _ _ (by omega), Res.ok_bind, Res.ok_bind,
        calcRectAngles_ok _ (hs _ (List.getElem_mem _)) (hs _ (List.getElem_mem _))
          (by rw [Int.tdiv_eq_ediv, show Int.sign 2 = 1 from rfl]; split <;> omega) (by rw [Int.tdiv_eq_ediv, show Int.sign 2 = 1 from rfl]; split <;> omega), Res.ok_bind]
      simp only [zeroAngles, fillBox_origin, List.replicate_succ'])
  rw [h1, h2]
  simp

theorem mkAngles_iff {a b c d : Res Int} (h : ∀ r ∈ [a, b, c, d], ∀ x, r ≠ .throw x) :
    (some <$> mkAngles a b c d = .ub ∨ ∃ v, some <$> mkAngles a b c d = .ok (some v)) ∧
      ((∃ v, some <$> mkAngles a b c d = .ok v) ↔ (∃ v, a = .ok v) ∧ (∃ v, b = .ok v) ∧ (∃ v, c = .ok v) ∧ ∃ v, d = .ok v) := by
  cases a with
  | throw x => exact absurd rfl (h _ (by simp) x)
  | ub => exact ⟨.inl rfl, by constructor <;> [rintro ⟨v, h⟩; rintro ⟨⟨v, h⟩, _⟩] <;> cases h⟩
  | ok a =>
    cases b with
    | throw x => exact absurd rfl (h (.throw x) (by simp) x)
    | ub => exact ⟨.inl rfl, by constructor <;> [rintro ⟨v, h⟩; rintro ⟨_, ⟨v, h⟩, _⟩] <;> cases h⟩
    | ok b =>
      cases c with
      | throw x => exact absurd rfl (h (.throw x) (by simp) x)
      | ub => exact ⟨.inl rfl, by constructor <;> [rintro ⟨v, h⟩; rintro ⟨_, _, ⟨v, h⟩, _⟩] <;> cases h⟩
      | ok c =>
        cases d with
        | throw x => exact absurd rfl (h (.throw x) (by simp) x)
        | ub => exact ⟨.inl rfl, by constructor <;> [rintro ⟨v, h⟩; rintro ⟨_, _, _, ⟨v, h⟩⟩] <;> cases h⟩
        | ok d => exact ⟨.inr ⟨_, rfl⟩, fun _ => ⟨⟨_, rfl⟩, ⟨_, rfl⟩, ⟨_, rfl⟩, ⟨_, rfl⟩⟩, fun _ => ⟨_, rfl⟩⟩

theorem add32_iff {a b : Int} : (∃ v, add32 a b = .ok v) ↔ inI32 (a + b) := by
  unfold add32 chk32
  by_cases h : inI32 (a + b)
  · simp [h]
  · simp [h]

theorem sub32_iff {a b : Int} : (∃ v, sub32 a b = .ok v) ↔ inI32 (a - b) := by
  unfold sub32 chk32
  by_cases h : inI32 (a - b)
  · simp [h]
  · simp [h]

theorem pure_iff {a : Int} : (∃ v, (pure a : Res Int) = .ok v) ↔ True := ⟨fun _ => trivial, fun _ => ⟨_, rfl⟩⟩

theorem add32_nt (a b : Int) : ∀ x, add32 a b ≠ .throw x := by
  intro x h; unfold add32 chk32 at h; split at h <;> cases h

theorem sub32_nt (a b : Int) : ∀ x, sub32 a b ≠ .throw x := by
  intro x h; unfold sub32 chk32 at h; split at h <;> cases h

theorem pure_nt (a : Int) : ∀ x, (pure a : Res Int) ≠ .throw x := by
  intro x h; cases h

theorem nt4 {a b c d : Res Int} (ha : ∀ x, a ≠ .throw x) (hb : ∀ x, b ≠ .throw x) (hc : ∀ x, c ≠ .throw x) (hd : ∀ x, d ≠ .throw x) :
    ∀ r ∈ [a, b, c, d], ∀ x, r ≠ .throw x := by
  intro r hr
  simp only [List.mem_cons, List.not_mem_nil, or_false] at hr
  rcases hr with rfl | rfl | rfl | rfl <;> assumption

theorem vertical_iff (b e : Coord) (hw : Int) (last : Bool) :
    (∃ v, anglesVertical b e hw (if last then .end' else .mid) = .ok v) ↔
      inI32 (b.x - hw) ∧ inI32 (b.x + hw) ∧ (if e.y < b.y then inI32 (b.y + hw) else inI32 (b.y - hw)) ∧
        (last = false → if e.y < b.y then inI32 (e.y - hw) else inI32 (e.y + hw)) := by
  cases last <;> unfold anglesVertical <;> simp only [Bool.false_eq_true, if_false, if_true, gt_iff_lt] <;> split <;>
    rw [(mkAngles_iff (nt4 (by first | exact add32_nt _ _ | exact sub32_nt _ _ | exact pure_nt _)
      (by first | exact add32_nt _ _ | exact sub32_nt _ _ | exact pure_nt _)
      (by first | exact add32_nt _ _ | exact sub32_nt _ _ | exact pure_nt _)
      (by first | exact add32_nt _ _ | exact sub32_nt _ _ | exact pure_nt _))).2] <;>
    simp only [add32_iff, sub32_iff, pure_iff, true_and, and_true] <;> tauto

theorem horizontal_iff (b e : Coord) (hw : Int) (last : Bool) :
    (∃ v, anglesHorizontal b e hw (if last then .end' else .mid) = .ok v) ↔
      inI32 (b.y - hw) ∧ inI32 (b.y + hw) ∧ (if b.x < e.x then inI32 (b.x - hw) else inI32 (b.x + hw)) ∧
        (last = false → if b.x < e.x then inI32 (e.x + hw) else inI32 (e.x - hw)) := by
  cases last <;> unfold anglesHorizontal <;> simp only [Bool.false_eq_true, if_false, if_true, gt_iff_lt] <;> split <;>
    rw [(mkAngles_iff (nt4 (by first | exact add32_nt _ _ | exact sub32_nt _ _ | exact pure_nt _)
      (by first | exact add32_nt _ _ | exact sub32_nt _ _ | exact pure_nt _)
      (by first | exact add32_nt _ _ | exact sub32_nt _ _ | exact pure_nt _)
      (by first | exact add32_nt _ _ | exact sub32_nt _ _ | exact pure_nt _))).2] <;>
    simp only [add32_iff, sub32_iff, pure_iff, true_and, and_true] <;> tauto

theorem horizontal_some (b e : Coord) (hw : Int) (last : Bool) (v : Option (Coord × Coord))
    (h : anglesHorizontal b e hw (if last then .end' else .mid) = .ok v) : ∃ w, v = some w := by
  have key : ∀ (x : Res (Coord × Coord)), some <$> x = .ok v → ∃ w, v = some w := by
    intro x hx
    cases x with
    | ok w => exact ⟨w, by injection hx with hx; exact hx.symm⟩
    | throw e => cases hx
    | ub => cases hx
  cases last <;> unfold anglesHorizontal at h <;> simp only [Bool.false_eq_true, if_false, if_true] at h <;> split at h <;> exact key _ h

/-- exactly when the corners of a segment can be computed -/
theorem calcRectAngles_iff (b e : Coord) (hw : Int) (last : Bool) :
    calcRectAngles b e hw (if last then .end' else .mid) = .ok zeroAngles ↔ SegmentFits last b e hw := by
  have hpos : (if last = true then PathElemPos.end' else PathElemPos.mid) ≠ .undefined := by cases last <;> decide
  unfold calcRectAngles
  rw [if_neg hpos]
  unfold getOrientation
  by_cases hx : b.x = e.x
  · by_cases hy : b.y = e.y
    · have : b = e := by cases b; cases e; simp_all
      rw [if_pos ⟨hx, hy⟩]
      exact ⟨fun _ => .inl this, fun _ => rfl⟩
    · rw [if_neg (by tauto), if_pos hx]
      dsimp only
      have hv := vertical_iff b e hw last
      have hne : b ≠ e := fun h => hy (by rw [h])
      unfold SegmentFits
      rw [if_pos hx]
      constructor
      · intro h
        have : ∃ v, anglesVertical b e hw (if last then .end' else .mid) = .ok v := by
          cases hc : anglesVertical b e hw (if last then .end' else .mid) with
          | ok v => exact ⟨v, rfl⟩
          | throw x => rw [hc] at h; cases h
          | ub => rw [hc] at h; cases h
        obtain ⟨v1, v2, v3, v4⟩ := hv.mp this
        exact .inr ⟨v1, v2, v3, fun hl => ⟨v4 hl, fun hn => absurd hx hn⟩⟩
      · rintro (h | ⟨v1, v2, v3, v4⟩)
        · exact absurd h hne
        · obtain ⟨v, h⟩ := hv.mpr ⟨v1, v2, v3, fun hl => (v4 hl).1⟩
          rw [h]
          rfl
  · rw [if_neg (by tauto), if_neg hx]
    dsimp only
    have hv := vertical_iff b e hw last
    have hh := horizontal_iff b e hw last
    have hne : b ≠ e := fun h => hx (by rw [h])
    unfold SegmentFits
    rw [if_neg hx]
    constructor
    · intro h
      cases hc : anglesHorizontal b e hw (if last then .end' else .mid) with
      | throw x => rw [hc] at h; cases h
      | ub => rw [hc] at h; cases h
      | ok v =>
        obtain ⟨w, rfl⟩ := horizontal_some _ _ _ _ _ hc
        rw [hc, Res.ok_bind] at h
        dsimp only at h
        have : ∃ v, anglesVertical b e hw (if last then .end' else .mid) = .ok v := by
          cases hd : anglesVertical b e hw (if last then .end' else .mid) with
          | ok v => exact ⟨v, rfl⟩
          | throw x => rw [hd] at h; cases h
          | ub => rw [hd] at h; cases h
        obtain ⟨v1, v2, v3, v4⟩ := hv.mp this
        obtain ⟨h1, h2, h3, h4⟩ := hh.mp ⟨_, hc⟩
        exact .inr ⟨v1, v2, ⟨h1, h2⟩, fun hl => ⟨v4 hl, fun _ => h4 hl⟩⟩
    · rintro (h | ⟨v1, v2, ⟨v3, v3'⟩, v4⟩)
      · exact absurd h hne
      · obtain ⟨w, h⟩ := hh.mpr ⟨v3, v3', by split <;> assumption, fun hl => (v4 hl).2 hx⟩
        obtain ⟨w, rfl⟩ := horizontal_some _ _ _ _ _ h
        obtain ⟨v, h'⟩ := hv.mpr ⟨v1, v2, by split <;> assumption, fun hl => (v4 hl).1⟩
        rw [h, Res.ok_bind]
        dsimp only
        rw [h']
        rfl

theorem pathStep_iff (p : Geometry) (i : Nat) (hi : i + 1 < p.coords.length) (hl : p.coords.length < 2 ^ 64) (bs : List Geometry) :
    pathStep p i bs = .ok () (bs ++ [originRect p.layer]) ↔
      SegmentFits (i + 2 = p.coords.length) p.coords[i] p.coords[i + 1] (p.width.tdiv 2) := by
  have hpos : (if subSz p.coords.length 2 = i then PathElemPos.end' else .mid) = (if decide (i + 2 = p.coords.length) then .end' else .mid) := by
    rw [subSz_eq _ _ (by omega) hl]
    by_cases h : i + 2 = p.coords.length
    · rw [if_pos (by omega)]; simp [h]
    · rw [if_neg (by omega)]; simp [h]
  unfold pathStep
  dsimp only
  rw [Res.idx_of_lt _ _ (by omega), Res.idx_of_lt _ _ hi, Res.ok_bind, Res.ok_bind, hpos]
  have hiff := calcRectAngles_iff p.coords[i] p.coords[i + 1] (p.width.tdiv 2) (decide (i + 2 = p.coords.length))
  rcases calcRectAngles_cases p.coords[i] p.coords[i + 1] (p.width.tdiv 2)
    (if decide (i + 2 = p.coords.length) then .end' else .mid) with h | h
  · rw [h, Res.ok_bind]
    simp only [zeroAngles, fillBox_origin, true_iff]
    exact hiff.mp h
  · rw [h, Res.ub_bind]
    constructor
    · intro h; cases h
    · intro hf
      rw [hiff.mpr hf] at h
      cases h

theorem loop_all {σ : Type} {body : Nat → M σ Unit} (F : Nat → σ) :
    ∀ (n start : Nat),
      (∀ i, start ≤ i → i < start + n → body i (F i) = .ok () (F (i + 1)) ∨ body i (F i) = .ub) →
      (∃ s, M.loop start n body (F start) = .ok () s) → ∀ i, start ≤ i → i < start + n → body i (F i) = .ok () (F (i + 1)) := by
  intro n
  induction n with
  | zero => intro start _ _ i h1 h2; omega
  | succ n ih =>
    intro start h ⟨s, hs⟩ i h1 h2
    simp only [M.loop] at hs
    rcases h start (Nat.le_refl _) (by omega) with h0 | h0
    · by_cases he : i = start
      · rw [he]; exact h0
      · rw [M.run_bind_ok h0] at hs
        exact ih (start + 1) (fun i h1 h2 => h i (by omega) (by omega)) ⟨s, hs⟩ i (by omega) (by omega)
    · rw [M.run_bind_ub h0] at hs; cases hs

/-- exactly when a path can be converted -/
theorem pathToRectList_iff (p : Geometry) (ht : p.type = .path) (hc : p.coords ≠ []) (hl : p.coords.length < 2 ^ 64) :
    (∃ rs, pathToRectList (some p) = .ok rs) ↔
      ∀ i, (h : i + 1 < p.coords.length) → SegmentFits (i + 2 = p.coords.length) p.coords[i] p.coords[i + 1] (p.width.tdiv 2) := by
  have hpos : 1 ≤ p.coords.length := List.length_pos_of_ne_nil hc
  unfold pathToRectList
  dsimp only
  rw [if_neg (by simp [ht]), subSz_eq _ _ hpos hl]
  have hstep : ∀ i, 0 ≤ i → i < 0 + (p.coords.length - 1) →
      pathStep p i (List.replicate i (originRect p.layer)) = .ok () (List.replicate (i + 1) (originRect p.layer)) ∨
      pathStep p i (List.replicate i (originRect p.layer)) = .ub := by
    intro i _ hi
    rcases pathStep_cases p i (by omega) (List.replicate i (originRect p.layer)) with h | h
    · left; rw [h, List.replicate_succ']
    · right; exact h
  constructor
  · rintro ⟨rs, h⟩ i hi
    have hs : ∃ s, M.loop 0 (p.coords.length - 1) (pathStep p) (List.replicate 0 (originRect p.layer)) = .ok () s := by
      rw [List.replicate_zero]
      cases hm : M.loop 0 (p.coords.length - 1) (pathStep p) [] with
      | ok u s => exact ⟨s, rfl⟩
      | throw x s => rw [hm] at h; cases h
      | ub => rw [hm] at h; cases h
    have := loop_all (fun n => List.replicate n (originRect p.layer)) (p.coords.length - 1) 0 hstep hs i (Nat.zero_le _) (by omega)
    rw [List.replicate_succ'] at this
    exact (pathStep_iff p i hi hl _).mp this
  · intro h
    obtain ⟨s', h1, h2⟩ := M.loop_inv (body := pathStep p) (fun n s => s = List.replicate n (originRect p.layer))
      (p.coords.length - 1) 0 [] rfl (by
        intro i t _ hi ht
        subst ht
        refine ⟨_, (pathStep_iff p i (by omega) hl _).mpr (h i (by omega)), ?_⟩
        rw [List.replicate_succ'])
    exact ⟨_, by rw [h1]; rfl⟩

/-! ### SplitSref -/

theorem addCoordValue_ok {g g' : Geometry} {d : Coord} (h : addCoordValue g d = .ok g') :
    g' = translate d g ∧ GeomInRange (translate d g) := by
  have hm : ∀ (cs cs' : List Coord),
      (cs.mapM fun c => do
        let x ← add32 c.x d.x
        let y ← add32 c.y d.y
        pure (⟨x, y⟩ : Coord)) = Res.ok cs' →
      cs' = cs.map (shiftC · d) ∧ ∀ c ∈ cs.map (shiftC · d), inI32 c.x ∧ inI32 c.y := by
    intro cs
    induction cs with
    | nil => intro cs' h; simp at h; subst h; simp
    | cons c cs ih =>
      intro cs' h
      rw [List.mapM_cons] at h
      rcases chk32_cases (c.x + d.x) with ⟨hx, rx⟩ | hx
      · rcases chk32_cases (c.y + d.y) with ⟨hy, ry⟩ | hy
        · simp only [add32, hx, hy, Res.ok_bind, Res.pure_eq] at h
          cases hr : (cs.mapM fun c => do
            let x ← chk32 (c.x + d.x)
            let y ← chk32 (c.y + d.y)
            Res.ok (⟨x, y⟩ : Coord)) with
          | ok l =>
            rw [hr, Res.ok_bind] at h
            injection h with h
            obtain ⟨e1, e2⟩ := ih l hr
            subst h
            refine ⟨by rw [e1]; rfl, ?_⟩
            intro c' hc'
            rw [List.map_cons, List.mem_cons] at hc'
            rcases hc' with hc' | hc'
            · subst hc'; exact ⟨rx, ry⟩
            · exact e2 c' hc'
          | throw e => rw [hr] at h; cases h
          | ub => rw [hr] at h; cases h
        · simp only [add32, hx, hy, Res.ok_bind, Res.ub_bind] at h; cases h
      · simp only [add32, hx, Res.ub_bind] at h; cases h
  unfold addCoordValue at h
  rcases chk32_cases (g.min.x + d.x) with ⟨h1, r1⟩ | h1
  swap; · simp only [add32, h1, Res.ub_bind] at h; cases h
  rcases chk32_cases (g.min.y + d.y) with ⟨h2, r2⟩ | h2
  swap; · simp only [add32, h1, h2, Res.ok_bind, Res.ub_bind] at h; cases h
  rcases chk32_cases (g.max.x + d.x) with ⟨h3, r3⟩ | h3
  swap; · simp only [add32, h1, h2, h3, Res.ok_bind, Res.ub_bind] at h; cases h
  rcases chk32_cases (g.max.y + d.y) with ⟨h4, r4⟩ | h4
  swap; · simp only [add32, h1, h2, h3, h4, Res.ok_bind, Res.ub_bind] at h; cases h
  simp only [add32, h1, h2, h3, h4, Res.ok_bind] at h
  cases hr : (g.coords.mapM fun c => do
      let x ← chk32 (c.x + d.x)
      let y ← chk32 (c.y + d.y)
      pure (⟨x, y⟩ : Coord)) with
  | ok l =>
    obtain ⟨e1, e2⟩ := hm _ _ hr
    rw [hr, Res.ok_bind] at h
    simp only [Res.pure_eq, Res.ok.injEq] at h
    subst h
    subst e1
    exact ⟨rfl, r1, r2, r3, r4, e2⟩
  | throw e => rw [hr] at h; cases h
  | ub => rw [hr] at h; cases h

theorem addCoordValue_inRange {g : Geometry} {d : Coord} (h : GeomInRange (translate d g)) :
    addCoordValue g d = .ok (translate d g) := by
  obtain ⟨h1, h2, h3, h4, h5⟩ := h
  simp only [translate, shiftC] at h1 h2 h3 h4 h5
  have hm : ∀ (cs : List Coord), (∀ c ∈ cs.map (shiftC · d), inI32 c.x ∧ inI32 c.y) →
      (cs.mapM fun c => do
        let x ← add32 c.x d.x
        let y ← add32 c.y d.y
        pure (⟨x, y⟩ : Coord)) = Res.ok (cs.map (shiftC · d)) := by
    intro cs
    induction cs with
    | nil => intro _; rfl
    | cons c cs ih =>
      intro h
      have hc := h (shiftC c d) (by simp)
      rw [List.mapM_cons, ih (fun c' hc' => h c' (by rw [List.map_cons]; exact List.mem_cons_of_mem _ hc'))]
      simp only [add32, chk32_ok (show inI32 (c.x + d.x) from hc.1), chk32_ok (show inI32 (c.y + d.y) from hc.2)]
      rfl
  unfold addCoordValue
  rw [hm g.coords h5]
  simp only [add32, chk32_ok h1, chk32_ok h2, chk32_ok h3, chk32_ok h4]
  rfl

theorem mapM_replicate_ok {α β : Type} {f : α → Res β} {a : α} :
    ∀ (n : Nat) {l : List β}, (List.replicate n a).mapM f = .ok l →
      (n = 0 ∧ l = []) ∨ ∃ b, f a = .ok b ∧ l = List.replicate n b := by
  intro n
  induction n with
  | zero => intro l h; left; simp at h; exact ⟨rfl, h⟩
  | succ n ih =>
    intro l h
    right
    rw [List.replicate_succ, List.mapM_cons] at h
    cases hf : f a with
    | ok b =>
      rw [hf, Res.ok_bind] at h
      cases hr : (List.replicate n a).mapM f with
      | ok l' =>
        rw [hr, Res.ok_bind] at h
        injection h with h
        refine ⟨b, rfl, ?_⟩
        rcases ih hr with ⟨h0, h1⟩ | ⟨b', hb, hl⟩
        · subst h0; subst h1; rw [← h]; rfl
        · rw [hf] at hb; injection hb with hb; subst hb
          rw [← h, hl, List.replicate_succ]
      | throw e => rw [hr] at h; cases h
      | ub => rw [hr] at h; cases h
    | throw e => rw [hf] at h; cases h
    | ub => rw [hf] at h; cases h

theorem mapM_replicate_of_ok {α β : Type} {f : α → Res β} {a : α} {b : β} (h : f a = .ok b) :
    ∀ (n : Nat), (List.replicate n a).mapM f = .ok (List.replicate n b) := by
  intro n
  induction n with
  | zero => rfl
  | succ n ih => rw [List.replicate_succ, List.mapM_cons, h, Res.ok_bind, ih, Res.ok_bind]; rfl

theorem Run.bind_ok {α β : Type} {x : Run α} {f : α → Run β} {b : β} (h : x.bind f = some (.ok b)) :
    ∃ a, x = some (.ok a) ∧ f a = some (.ok b) := by
  cases x with
  | none => cases h
  | some r =>
    cases r with
    | ok a => exact ⟨a, rfl, h⟩
    | throw e => cases h
    | ub => cases h

/-- what one geometry of an element contributes -/
theorem splitOne_ok {rec : Option Geometry → Coord → Run (List Geometry)} {mn : Coord} {g : Geometry}
    {l : List Geometry} (hlen : g.coords.length < 2 ^ 64) (h : splitOne rec mn (some g) = some (.ok l)) :
    ((g.type = .polygon ∨ g.type = .rectangle) ∧ l = [translate mn g]) ∨
    (g.type = .path ∧ l = List.replicate (g.coords.length - 1) (translate mn (originRect g.layer))) ∨
    (g.type = .reference ∧ rec (some g) mn = some (.ok l)) ∨
    ((g.type = .text ∨ g.type = .undefined) ∧ l = []) := by
  unfold splitOne at h
  cases ht : g.type <;> simp only [ht] at h
  · right; right; right; injection h with h; injection h with h; exact ⟨.inr rfl, h.symm⟩
  · left
    refine ⟨.inl rfl, ?_⟩
    injection h with h
    cases ha : addCoordValue g mn with
    | ok g' => rw [ha] at h; simp at h; rw [← h, (addCoordValue_ok ha).1]
    | throw e => rw [ha] at h; cases h
    | ub => rw [ha] at h; cases h
  · right; left
    refine ⟨rfl, ?_⟩
    injection h with h
    by_cases hc : g.coords = []
    · rw [pathToRectList_empty g ht hc] at h; cases h
    · rcases pathToRectList_cases g ht hc hlen with hp | hp
      · rw [hp, Res.ok_bind] at h
        rcases mapM_replicate_ok _ h with ⟨h0, h1⟩ | ⟨b, hb, hl⟩
        · rw [h0, h1]; rfl
        · rw [hl, (addCoordValue_ok hb).1]
      · rw [hp] at h; cases h
  · right; right; right; injection h with h; injection h with h; exact ⟨.inl rfl, h.symm⟩
  · left
    refine ⟨.inr rfl, ?_⟩
    injection h with h
    cases ha : addCoordValue g mn with
    | ok g' => rw [ha] at h; simp at h; rw [← h, (addCoordValue_ok ha).1]
    | throw e => rw [ha] at h; cases h
    | ub => rw [ha] at h; cases h
  · right; right; left
    exact ⟨rfl, h⟩

/-- the results of the loop are the concatenation of the results per geometry -/
theorem splitAll_mem {rec : Option Geometry → Coord → Run (List Geometry)} {mn : Coord} :
    ∀ {gs : List (Option Geometry)} {l : List Geometry}, splitAll rec mn gs = some (.ok l) →
      (∀ x, x ∈ l ↔ ∃ it ∈ gs, ∃ a, splitOne rec mn it = some (.ok a) ∧ x ∈ a) ∧
      ∀ it ∈ gs, ∃ a, splitOne rec mn it = some (.ok a) := by
  intro gs
  induction gs with
  | nil => intro l h; simp only [splitAll, Option.some.injEq, Res.ok.injEq] at h; subst h; simp
  | cons it rest ih =>
    intro l h
    unfold splitAll at h
    obtain ⟨a, h1, h⟩ := Run.bind_ok h
    obtain ⟨b, h2, h⟩ := Run.bind_ok h
    simp only [Option.some.injEq, Res.ok.injEq] at h
    subst h
    obtain ⟨i1, i2⟩ := ih h2
    constructor
    · intro x
      rw [List.mem_append, i1]
      constructor
      · rintro (hx | ⟨it', hm, hx⟩)
        · exact ⟨it, by simp, a, h1, hx⟩
        · exact ⟨it', by simp [hm], hx⟩
      · rintro ⟨it', hm, a', ha', hx⟩
        rcases List.mem_cons.mp hm with rfl | hm
        · left; rw [h1] at ha'; simp only [Option.some.injEq, Res.ok.injEq] at ha'; exact ha' ▸ hx
        · right; exact ⟨it', hm, a', ha', hx⟩
    · intro it' hm
      rcases List.mem_cons.mp hm with rfl | hm
      · exact ⟨a, h1⟩
      · exact i2 it' hm

theorem splitSref_ok_inv {H : Elements} {n : Nat} {r : Geometry} {mn : Coord} {l : List Geometry}
    (h : splitSref H n (some r) mn = some (.ok l)) :
    ∃ k e, n = k + 1 ∧ r.type = .reference ∧ r.element = some e ∧
      splitAll (splitSref H k) (shiftC mn (H e).min) (H e).geometries = some (.ok l) := by
  cases n with
  | zero => cases h
  | succ k =>
    unfold splitSref at h
    dsimp only at h
    by_cases ht : r.type = .reference
    · rw [if_neg (by simp [ht])] at h
      cases he : r.element with
      | none => rw [he] at h; cases h
      | some e =>
        rw [he] at h
        dsimp only at h
        obtain ⟨mn', h1, h2⟩ := Run.bind_ok h
        refine ⟨k, e, rfl, ht, rfl, ?_⟩
        have : mn' = shiftC mn (H e).min := by
          rcases chk32_cases (mn.x + (H e).min.x) with ⟨hx, _⟩ | hx
          · rcases chk32_cases (mn.y + (H e).min.y) with ⟨hy, _⟩ | hy
            · simp only [add32, hx, hy, Res.ok_bind, Res.pure_eq, Option.some.injEq, Res.ok.injEq] at h1
              exact h1.symm
            · simp only [add32, hx, hy, Res.ok_bind, Res.ub_bind] at h1; cases h1
          · simp only [add32, hx, Res.ub_bind] at h1; cases h1
        rw [← this]; exact h2
    · rw [if_pos ht] at h; cases h

theorem Placed.trans {H : Elements} {e0 : Nat} {base : Coord} {e : Nat} {d : Coord} {e' : Nat}
    (h1 : Placed H e0 base e d) (hr : RefersTo H e e') {e2 : Nat} {d2 : Coord}
    (h2 : Placed H e' d e2 d2) : Placed H e0 base e2 d2 := by
  induction h2 with
  | root => exact .step h1 hr
  | step _ hr' ih => exact .step ih hr'

theorem Placed.cases_first {H : Elements} {e0 : Nat} {base : Coord} {e : Nat} {d : Coord}
    (h : Placed H e0 base e d) :
    (e = e0 ∧ d = shiftC base (H e0).min) ∨
      ∃ e1, RefersTo H e0 e1 ∧ Placed H e1 (shiftC base (H e0).min) e d := by
  induction h with
  | root => exact .inl ⟨rfl, rfl⟩
  | step _ hr ih =>
    rcases ih with ⟨rfl, rfl⟩ | ⟨e1, h1, h2⟩
    · exact .inr ⟨_, hr, .root⟩
    · exact .inr ⟨e1, h1, .step h2 hr⟩

/-- **Main refinement**: a finished flattening contains exactly the drawn geometries. -/
theorem splitSref_mem {H : Elements} (hlen : ∀ e g, some g ∈ (H e).geometries → g.coords.length < 2 ^ 64) :
    ∀ (n : Nat) (r : Geometry) (mn : Coord) (l : List Geometry) (e : Nat),
      splitSref H n (some r) mn = some (.ok l) → r.element = some e → ∀ g, g ∈ l ↔ Drawn H e mn g := by
  intro n
  induction n with
  | zero => intro r mn l e h; cases h
  | succ n ih =>
    intro r mn l e h he g
    obtain ⟨k, e', hk, ht, he', hall⟩ := splitSref_ok_inv h
    rw [he] at he'
    injection he' with he'
    subst he'
    have hk : k = n := by omega
    subst hk
    obtain ⟨h1, h2⟩ := splitAll_mem hall
    rw [h1]
    constructor
    · rintro ⟨it, hm, a, ha, hx⟩
      cases it with
      | none => simp only [splitOne, Option.some.injEq, Res.ok.injEq] at ha; subst ha; simp at hx
      | some g0 =>
        rcases splitOne_ok (hlen _ _ hm) ha with ⟨ht0, hl⟩ | ⟨ht0, hl⟩ | ⟨ht0, hl⟩ | ⟨_, hl⟩
        · rw [hl, List.mem_singleton] at hx
          subst hx
          exact .shape .root hm ht0
        · rw [hl, List.mem_replicate] at hx
          rw [hx.2]
          exact .segment .root hm ht0 (by omega)
        · obtain ⟨_, e2, _, _, he2, _⟩ := splitSref_ok_inv hl
          have hd := (ih g0 _ a e2 hl he2 g).mp hx
          have hrt : RefersTo H e e2 := ⟨g0, hm, ht0, he2⟩
          cases hd with
          | shape hp hm' ht' => exact .shape (Placed.trans .root hrt hp) hm' ht'
          | segment hp hm' ht' hc' => exact .segment (Placed.trans .root hrt hp) hm' ht' hc'
        · subst hl; simp at hx
    · have aux : ∀ {e1 : Nat}, RefersTo H e e1 → Drawn H e1 (shiftC mn (H e).min) g →
          ∃ it ∈ (H e).geometries, ∃ a, splitOne (splitSref H k) (shiftC mn (H e).min) it = some (.ok a) ∧ g ∈ a := by
        rintro e1 ⟨g0, hm, ht0, he1⟩ hd
        obtain ⟨a, ha⟩ := h2 _ hm
        have ha' := ha
        unfold splitOne at ha'
        simp only [ht0] at ha'
        exact ⟨_, hm, a, ha, (ih g0 _ a e1 ha' he1 g).mpr hd⟩
      intro hd
      cases hd with
      | @shape e1 d g0 hp hm ht0 =>
        rcases Placed.cases_first hp with ⟨rfl, rfl⟩ | ⟨e2, hr, hp⟩
        · obtain ⟨a, ha⟩ := h2 _ hm
          refine ⟨_, hm, a, ha, ?_⟩
          rcases splitOne_ok (hlen _ _ hm) ha with ⟨_, hl⟩ | ⟨ht1, _⟩ | ⟨ht1, _⟩ | ⟨ht1, _⟩
          · rw [hl]; simp
          · rw [ht1] at ht0; simp at ht0
          · rw [ht1] at ht0; simp at ht0
          · rcases ht0 with ht0 | ht0 <;> rw [ht0] at ht1 <;> simp at ht1
        · exact aux hr (.shape hp hm ht0)
      | @segment e1 d g0 hp hm ht0 hc0 =>
        rcases Placed.cases_first hp with ⟨rfl, rfl⟩ | ⟨e2, hr, hp⟩
        · obtain ⟨a, ha⟩ := h2 _ hm
          refine ⟨_, hm, a, ha, ?_⟩
          rcases splitOne_ok (hlen _ _ hm) ha with ⟨ht1, _⟩ | ⟨_, hl⟩ | ⟨ht1, _⟩ | ⟨ht1, _⟩
          · rcases ht1 with ht1 | ht1 <;> rw [ht1] at ht0 <;> simp at ht0
          · rw [hl, List.mem_replicate]; exact ⟨by omega, rfl⟩
          · rw [ht1] at ht0; simp at ht0
          · rcases ht1 with ht1 | ht1 <;> rw [ht1] at ht0 <;> simp at ht0
        · exact aux hr (.segment hp hm ht0 hc0)

/-- every element reached from `e` by references is entered with one level less -/
theorem splitSref_descend {H : Elements} {n : Nat} {r : Geometry} {mn : Coord} {l : List Geometry} {e e' : Nat}
    (h : splitSref H n (some r) mn = some (.ok l)) (he : r.element = some e) (hr : RefersTo H e e') :
    ∃ k r' mn' l', n = k + 1 ∧ r'.element = some e' ∧ splitSref H k (some r') mn' = some (.ok l') := by
  obtain ⟨k, e1, hk, ht, he1, h⟩ := splitSref_ok_inv h
  rw [he] at he1; injection he1 with he1; subst he1
  obtain ⟨r', hm, ht', he'⟩ := hr
  obtain ⟨a, ha⟩ := (splitAll_mem h).2 _ hm
  unfold splitOne at ha
  simp only [ht'] at ha
  exact ⟨k, r', _, a, hk, he', ha⟩

theorem splitAll_done {rec : Option Geometry → Coord → Run (List Geometry)} {mn : Coord} :
    ∀ {gs : List (Option Geometry)}, (∀ it ∈ gs, splitOne rec mn it ≠ none) → splitAll rec mn gs ≠ none := by
  intro gs
  induction gs with
  | nil => intro _; simp [splitAll]
  | cons it rest ih =>
    intro h
    unfold splitAll
    cases h1 : splitOne rec mn it with
    | none => exact absurd h1 (h it (by simp))
    | some r1 =>
      cases r1 with
      | ok a =>
        cases h2 : splitAll rec mn rest with
        | none => exact absurd h2 (ih fun it' hm => h it' (by simp [hm]))
        | some r2 => cases r2 <;> simp [Run.bind]
      | throw e => simp [Run.bind]
      | ub => simp [Run.bind]

/-- with a rank that decreases along references, depth `rank + 1` suffices -/
theorem splitSref_terminates {H : Elements} {rank : Nat → Nat}
    (hr : ∀ e e', RefersTo H e e' → rank e' < rank e) :
    ∀ (n : Nat) (r : Geometry) (mn : Coord), (∀ e, r.element = some e → rank e < n) →
      splitSref H (n + 1) (some r) mn ≠ none := by
  intro n
  induction n with
  | zero =>
    intro r mn h
    unfold splitSref
    dsimp only
    split
    · simp
    · cases he : r.element with
      | none => simp
      | some e => exact absurd (h e he) (by omega)
  | succ n ih =>
    intro r mn h
    rw [splitSref]
    split
    · simp
    · cases he : r.element with
      | none => simp
      | some e =>
        dsimp only
        generalize (do
            let x ← add32 mn.x (H e).min.x
            let y ← add32 mn.y (H e).min.y
            pure (⟨x, y⟩ : Coord) : Res Coord) = x
        cases x with
        | ok mn' =>
          show splitAll (splitSref H (n + 1)) mn' (H e).geometries ≠ none
          apply splitAll_done
          intro it hm
          cases it with
          | none => simp [splitOne]
          | some g =>
            unfold splitOne
            cases ht : g.type <;> simp only [ht, ne_eq, reduceCtorEq, not_false_eq_true]
            apply ih
            intro e' he'
            have := hr e e' ⟨g, hm, ht, he'⟩
            have := h e he
            omega
        | throw e => simp [Run.bind]
        | ub => simp [Run.bind]

theorem splitOne_mono {r1 r2 : Option Geometry → Coord → Run (List Geometry)}
    (hr : ∀ s mn v, r1 s mn = some v → r2 s mn = some v) (mn : Coord) (it : Option Geometry) {v}
    (h : splitOne r1 mn it = some v) : splitOne r2 mn it = some v := by
  cases it with
  | none => exact h
  | some g =>
    unfold splitOne at h ⊢
    cases ht : g.type <;> simp only [ht] at h ⊢ <;> first | exact h | exact hr _ _ _ h

theorem Run.bind_mono {α β : Type} {x y : Run α} {f g : α → Run β} (hx : ∀ v, x = some v → y = some v)
    (hf : ∀ a v, f a = some v → g a = some v) {v} (h : x.bind f = some v) : y.bind g = some v := by
  cases x with
  | none => cases h
  | some r =>
    rw [hx r rfl]
    cases r with
    | ok a => exact hf a v h
    | throw e => exact h
    | ub => exact h

theorem splitAll_mono {r1 r2 : Option Geometry → Coord → Run (List Geometry)}
    (hr : ∀ s mn v, r1 s mn = some v → r2 s mn = some v) (mn : Coord) :
    ∀ (gs : List (Option Geometry)) {v}, splitAll r1 mn gs = some v → splitAll r2 mn gs = some v := by
  intro gs
  induction gs with
  | nil => intro v h; exact h
  | cons it rest ih =>
    intro v h
    unfold splitAll at h ⊢
    refine Run.bind_mono (fun v hv => splitOne_mono hr mn it hv) (fun a v hv => ?_) h
    exact Run.bind_mono (fun v hv => ih hv) (fun b v hv => hv) hv

theorem splitSref_mono {H : Elements} : ∀ (n : Nat) (s : Option Geometry) (mn : Coord) {v},
    splitSref H n s mn = some v → splitSref H (n + 1) s mn = some v := by
  intro n
  induction n with
  | zero => intro s mn v h; cases h
  | succ n ih =>
    intro s mn v h
    cases s with
    | none => exact h
    | some r =>
      rw [splitSref] at h ⊢
      by_cases ht : r.type ≠ .reference
      · rw [if_pos ht] at h ⊢; exact h
      · rw [if_neg ht] at h ⊢
        cases he : r.element with
        | none => rw [he] at h; exact h
        | some e =>
          rw [he] at h
          dsimp only at h ⊢
          exact Run.bind_mono (fun v hv => hv) (fun a v hv => splitAll_mono ih a _ hv) h

theorem splitAll_okOf {rec : Option Geometry → Coord → Run (List Geometry)} {mn : Coord} :
    ∀ {gs : List (Option Geometry)}, (∀ it ∈ gs, ∃ a, splitOne rec mn it = some (.ok a)) →
      ∃ l, splitAll rec mn gs = some (.ok l) := by
  intro gs
  induction gs with
  | nil => intro _; exact ⟨[], rfl⟩
  | cons it rest ih =>
    intro h
    obtain ⟨a, ha⟩ := h it (by simp)
    obtain ⟨b, hb⟩ := ih fun it' hm => h it' (by simp [hm])
    exact ⟨a ++ b, by unfold splitAll; rw [ha, hb]; rfl⟩

/-- no undefined behaviour: all pointers set, all offsets and results in range, all paths small -/
theorem splitSref_succeeds {H : Elements} {rank : Nat → Nat}
    (hr : ∀ e e', RefersTo H e e' → rank e' < rank e)
    (e0 : Nat) (base : Coord)
    (hptr : ∀ e d r, Placed H e0 base e d → some r ∈ (H e).geometries → r.type = .reference → r.element ≠ none)
    (hoff : ∀ e d, Placed H e0 base e d → inI32 d.x ∧ inI32 d.y)
    (hdr : ∀ g, Drawn H e0 base g → GeomInRange g)
    (hp : ∀ e d g, Placed H e0 base e d → some g ∈ (H e).geometries → g.type = .path →
      g.coords ≠ [] ∧ g.coords.length < 2 ^ 64 ∧ PathSmall g) :
    ∀ (n : Nat) (r : Geometry) (mn : Coord) (e : Nat), r.type = .reference → r.element = some e →
      Placed H e0 base e (shiftC mn (H e).min) → rank e < n →
      ∃ l, splitSref H n (some r) mn = some (.ok l) := by
  intro n
  induction n with
  | zero => intro r mn e _ _ _ h; omega
  | succ n ih =>
    intro r mn e ht he hpl hrk
    rw [splitSref]
    rw [if_neg (by simp [ht]), he]
    dsimp only
    obtain ⟨ox, oy⟩ := hoff _ _ hpl
    have : (do
            let x ← add32 mn.x (H e).min.x
            let y ← add32 mn.y (H e).min.y
            pure (⟨x, y⟩ : Coord) : Res Coord) = .ok (shiftC mn (H e).min) := by
      simp only [add32, chk32_ok (show inI32 (mn.x + (H e).min.x) from ox),
        chk32_ok (show inI32 (mn.y + (H e).min.y) from oy)]
      rfl
    rw [this]
    show ∃ l, splitAll (splitSref H n) (shiftC mn (H e).min) (H e).geometries = some (.ok l)
    apply splitAll_okOf
    intro it hm
    cases it with
    | none => exact ⟨[], rfl⟩
    | some g =>
      unfold splitOne
      cases htg : g.type <;> simp only [htg]
      · exact ⟨_, rfl⟩
      · rw [addCoordValue_inRange (hdr _ (.shape hpl hm (.inl htg)))]; exact ⟨_, rfl⟩
      · obtain ⟨p1, p2, p3⟩ := hp _ _ _ hpl hm htg
        rw [pathToRectList_ok g htg p1 p2 p3, Res.ok_bind]
        by_cases h2 : 2 ≤ g.coords.length
        · rw [mapM_replicate_of_ok (f := fun r => addCoordValue r (shiftC mn (H e).min)) (addCoordValue_inRange (hdr _ (.segment hpl hm htg h2)))]
          exact ⟨_, rfl⟩
        · rw [show g.coords.length - 1 = 0 by omega]; exact ⟨[], rfl⟩
      · exact ⟨_, rfl⟩
      · rw [addCoordValue_inRange (hdr _ (.shape hpl hm (.inr htg)))]; exact ⟨_, rfl⟩
      · cases he' : g.element with
        | none => exact absurd he' (hptr _ _ _ hpl hm htg)
        | some e' =>
          have hrt : RefersTo H e e' := ⟨g, hm, htg, he'⟩
          exact ih g _ e' htg he' (.step hpl hrt) (by have := hr _ _ hrt; omega)

end Verif.Converter
