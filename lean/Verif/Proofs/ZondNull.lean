import Verif.Model.ZondNull
import Verif.Proofs.Zond

/-! Drawing onto a null matrix pointer against drawing onto a matrix. -/

namespace Verif.Zond
open Verif BitMatrix

/-- a counting loop that does nothing ends alike on every object -/
theorem forUp_idle {σ τ : Type} (cond : Int → Bool) (f : Int → M σ Unit) (g : Int → M τ Unit)
    (hf : ∀ i s, f i s = .ok () s) (hg : ∀ i s, g i s = .ok () s) (n : Nat) :
    ∀ i : Int, (2147483647 - i).toNat ≤ n →
      ((∀ s, forUp cond f i s = .ok () s) ∧ ∀ s, forUp cond g i s = .ok () s) ∨
      ((∀ s, forUp cond f i s = .ub) ∧ ∀ s, forUp cond g i s = .ub) := by
  induction n with
  | zero =>
    intro i hi
    by_cases hc : cond i = true
    · right
      have : ¬ i < 2147483647 := by omega
      constructor <;> intro s <;> unfold forUp <;> simp [hc, hf, hg, this]
    · left
      constructor <;> intro s <;> unfold forUp <;> simp [hc]
  | succ n ih =>
    intro i hi
    by_cases hc : cond i = true
    · by_cases hl : i < 2147483647
      · rcases ih (i + 1) (by omega) with ⟨h1, h2⟩ | ⟨h1, h2⟩
        · left
          constructor <;> intro s <;> unfold forUp <;> simp [hc, hf, hg, hl, h1, h2]
        · right
          constructor <;> intro s <;> unfold forUp <;> simp [hc, hf, hg, hl, h1, h2]
      · right
        constructor <;> intro s <;> unfold forUp <;> simp [hc, hf, hg, hl]
    · left
      constructor <;> intro s <;> unfold forUp <;> simp [hc]

theorem forUp_skip {σ : Type} {cond : Int → Bool} {body : Int → M σ Unit} {i : Int} (h : cond i = false) (s : σ) :
    forUp cond body i s = .ok () s := by
  unfold forUp; simp [h]

/-- the two nested loops: idle or undefined on both, or at least one cell is visited -/
theorem loops_null (ci cj : Int → Bool) (i0 j0 : Int) :
    ((forUp ci (fun i => forUp cj (fun j => trySetNull i j) j0) i0 () = .ok () ()) ∧
      ∀ m, forUp ci (fun i => forUp cj (fun j => trySet i j) j0) i0 m = .ok () m) ∨
    ((forUp ci (fun i => forUp cj (fun j => trySetNull i j) j0) i0 () = .ub) ∧
      ((∀ m, forUp ci (fun i => forUp cj (fun j => trySet i j) j0) i0 m = .ub) ∨ (ci i0 = true ∧ cj j0 = true))) := by
  by_cases hj : cj j0 = true
  · by_cases hi : ci i0 = true
    · right
      refine ⟨?_, .inr ⟨hi, hj⟩⟩
      unfold forUp
      simp only [hi, if_true]
      have : forUp cj (fun j => trySetNull i0 j) j0 () = .ub := by
        unfold forUp
        simp [hj, trySetNull, M.tryCatch, M.undef]
      rw [this]
    · left
      exact ⟨forUp_skip (by simpa using hi) (), fun m => forUp_skip (by simpa using hi) m⟩
  · have hj' : cj j0 = false := by simpa using hj
    rcases forUp_idle ci (fun i => forUp cj (fun j => trySetNull i j) j0) (fun i => forUp cj (fun j => trySet i j) j0)
      (fun i s => forUp_skip hj' s) (fun i s => forUp_skip hj' s) _ i0 (le_refl _) with ⟨h1, h2⟩ | ⟨h1, h2⟩
    · exact .inl ⟨h1 (), h2⟩
    · exact .inr ⟨h1 (), .inl h2⟩

theorem forUp_grows {R C : Nat} {cond : Int → Bool} {body : Int → M BitMatrix Unit} {i : Int} (hi : i ≤ 2147483647)
    (hb : ∀ k, Uni R C (fun _ _ => True) (body k)) {m m' : BitMatrix} (hm : Shape R C m)
    (h : forUp cond body i m = .ok () m') : Shape R C m' ∧ ∀ a b, cell m a b = true → cell m' a b = true := by
  rcases forUp_uni (In := fun _ _ => True) (cond := cond) (body := body) i hi (fun k _ => hb k) with ⟨P, hP, -⟩ | hu
  · obtain ⟨m1, h1, h2⟩ := hP m hm
    rw [h] at h1
    injection h1 with _ h1
    subst h1
    exact ⟨h2.shape hm, fun a b hc => (h2.bits a b).mpr (.inl hc)⟩
  · rw [hu m hm] at h; cases h

/-- the first cell visited is lit at the end -/
theorem loops_lit {R C : Nat} {ci cj : Int → Bool} {i0 j0 : Int} (hJ : j0 ≤ 2147483647)
    (hi : ci i0 = true) (hj : cj j0 = true) (hr : toSz i0 < R) (hc : toSz j0 < C) {m m' : BitMatrix} (hm : Shape R C m)
    (h : forUp ci (fun i => forUp cj (fun j => trySet i j) j0) i0 m = .ok () m') :
    Shape R C m' ∧ cell m' (toSz i0) (toSz j0) = true := by
  have set_uni : ∀ i j, Uni R C (fun _ _ => True) (trySet i j) := fun i j =>
    .inl ⟨_, trySet_paints R C i j, fun _ _ _ => trivial⟩
  have row_uni : ∀ i j, j ≤ 2147483647 → Uni R C (fun _ _ => True) (forUp cj (fun j => trySet i j) j) := fun i j h =>
    forUp_uni j h fun k _ => set_uni i k
  unfold forUp at h
  simp only [hi, if_true] at h
  cases hrow : forUp cj (fun j => trySet i0 j) j0 m with
  | ub => rw [hrow] at h; cases h
  | throw e s => rw [hrow] at h; cases h
  | ok u m1 =>
    rw [hrow] at h
    simp only at h
    have row : Shape R C m1 ∧ cell m1 (toSz i0) (toSz j0) = true := by
      unfold forUp at hrow
      obtain ⟨m0, e0, o0⟩ := trySet_paints R C i0 j0 m hm
      simp only [hj, if_true, e0] at hrow
      split at hrow
      · obtain ⟨s, g⟩ := forUp_grows (by omega) (fun k => set_uni i0 k) (o0.shape hm) hrow
        exact ⟨s, g _ _ ((o0.bits _ _).mpr (.inr ⟨rfl, rfl, hr, hc⟩))⟩
      · cases hrow
    split at h
    · obtain ⟨s, g⟩ := forUp_grows (by omega) (fun k => row_uni k j0 hJ) row.1 h
      exact ⟨s, g _ _ row.2⟩
    · cases h

/-- what drawing onto a null pointer says about drawing onto matrices: `f` draws, `r` is the outcome on null -/
def NullLike (R C : Nat) (r : Out Unit Unit) (f : M BitMatrix Unit) : Prop :=
  match r with
  | .ok _ _ => ∀ m, f m = .ok () m
  | .throw e _ => ∀ m, f m = .throw e m
  | .ub => (∀ m, f m = .ub) ∨ ∃ i j, i < R ∧ j < C ∧ (∀ m m', Shape R C m → f m = .ok () m' → Shape R C m' ∧ cell m' i j = true) ∧
      ∀ m e s, Shape R C m → f m ≠ .throw e s

theorem loops_nullLike {R C : Nat} {ci cj : Int → Bool} {i0 j0 : Int} (hI : i0 ≤ 2147483647) (hJ : j0 ≤ 2147483647)
    (hr : ci i0 = true → toSz i0 < R) (hc : cj j0 = true → toSz j0 < C) :
    NullLike R C (forUp ci (fun i => forUp cj (fun j => trySetNull i j) j0) i0 ())
      (forUp ci (fun i => forUp cj (fun j => trySet i j) j0) i0) := by
  rcases loops_null ci cj i0 j0 with ⟨h1, h2⟩ | ⟨h1, h2⟩
  · rw [h1]; exact h2
  · rw [h1]
    rcases h2 with h2 | ⟨h2, h3⟩
    · exact .inl h2
    · refine .inr ⟨_, _, hr h2, hc h3, fun m m' hm h => loops_lit hJ h2 h3 (hr h2) (hc h3) hm h, fun m e s hm ht => ?_⟩
      have set_uni : ∀ i j, Uni R C (fun _ _ => True) (trySet i j) := fun i j =>
        .inl ⟨_, trySet_paints R C i j, fun _ _ _ => trivial⟩
      rcases forUp_uni (In := fun _ _ => True) (cond := ci) (body := fun i => forUp cj (fun j => trySet i j) j0) i0 hI
        (fun k _ => forUp_uni j0 hJ fun l _ => set_uni k l) with ⟨P, hP, -⟩ | hu
      · obtain ⟨m1, e1, -⟩ := hP m hm
        rw [e1] at ht; cases ht
      · rw [hu m hm] at ht; cases ht

theorem zondRectangle_nullLike (rnd : ℚ → ℚ) (z : Zond) (r : Geometry) :
    NullLike (z.bound.iEnd + 1) (z.bound.jEnd + 1) (zondRectangleNull rnd z r ()) (zondRectangle rnd z r) := by
  have key : zondRectangle rnd z r = (do
    let lt ← M.lift (Res.idx r.coords 0)
    let rb ← M.lift (Res.idx r.coords 2)
    if coversAll rnd z lt rb then fillAll z.bound
    else
      let q ← M.lift (rawIndicies rnd z lt rb)
      let n ← M.lift (normIndicies rnd z q.1 q.2.1 q.2.2.1 q.2.2.2)
      fillRange z.bound n) := rfl
  have keyN : zondRectangleNull rnd z r = (do
    let lt ← M.lift (Res.idx r.coords 0)
    let rb ← M.lift (Res.idx r.coords 2)
    if coversAll rnd z lt rb then fillAllNull z.bound
    else
      let q ← M.lift (rawIndicies rnd z lt rb)
      let n ← M.lift (normIndicies rnd z q.1 q.2.1 q.2.2.1 q.2.2.2)
      fillRangeNull z.bound n) := rfl
  have run : ∀ {σ α β : Type} (a : α) (f : α → M σ β) (s : σ), (M.lift (Res.ok a) >>= f) s = f a s := by
    intro σ α β a f s
    exact M.run_bind_ok (M.run_lift_ok _ _)
  have fin : ∀ (y : Out Unit Unit) (g : M BitMatrix Unit), NullLike (z.bound.iEnd + 1) (z.bound.jEnd + 1) y g →
      (∀ m, zondRectangle rnd z r m = g m) → zondRectangleNull rnd z r () = y →
      NullLike (z.bound.iEnd + 1) (z.bound.jEnd + 1) (zondRectangleNull rnd z r ()) (zondRectangle rnd z r) := by
    intro y g h e1 e2; rw [funext e1, e2]; exact h
  cases h1 : Res.idx r.coords 0 with
  | throw e => unfold Res.idx at h1; split at h1 <;> simp at h1
  | ub =>
            exact fin (.ub) (M.undef) (.inl fun m => rfl)
              (by intro m; rw [key, h1]; rfl)
              (by rw [keyN, h1]; rfl)
  | ok lt =>
    cases h2 : Res.idx r.coords 2 with
    | throw e => unfold Res.idx at h2; split at h2 <;> simp at h2
    | ub =>
            exact fin (.ub) (M.undef) (.inl fun m => rfl)
              (by intro m; rw [key, h1, run, h2]; rfl)
              (by rw [keyN, h1, run, h2]; rfl)
    | ok rb =>
      by_cases hc : coversAll rnd z lt rb = true
      · refine fin (fillAllNull z.bound ()) (fillAll z.bound) ?_ (by intro m; rw [key, h1, h2, run, run, if_pos hc])
          (by rw [keyN, h1, h2, run, run, if_pos hc])
        exact loops_nullLike (toI32_range _).2 (toI32_range _).2 (fun h => by simp at h; omega) (fun h => by simp at h; omega)
      · cases h3 : rawIndicies rnd z lt rb with
        | throw _ => exact absurd h3 rawIndicies_throw
        | ub =>
            exact fin (.ub) (M.undef) (.inl fun m => rfl)
              (by intro m; rw [key, h1, h2, run, run, if_neg hc, h3]; rfl)
              (by rw [keyN, h1, h2, run, run, if_neg hc, h3]; rfl)
        | ok q =>
          cases h4 : normIndicies rnd z q.1 q.2.1 q.2.2.1 q.2.2.2 with
          | throw e =>
            exact fin (.throw e ()) (M.raise e) (fun m => rfl)
              (by intro m; rw [key, h1, h2, run, run, if_neg hc, h3, run, h4]; rfl)
              (by rw [keyN, h1, h2, run, run, if_neg hc, h3, run, h4]; rfl)
          | ub =>
            exact fin (.ub) (M.undef) (.inl fun m => rfl)
              (by intro m; rw [key, h1, h2, run, run, if_neg hc, h3, run, h4]; rfl)
              (by rw [keyN, h1, h2, run, run, if_neg hc, h3, run, h4]; rfl)
          | ok n =>
            refine fin (fillRangeNull z.bound n ()) (fillRange z.bound n) ?_
              (by intro m; rw [key, h1, h2, run, run, if_neg hc, h3, run, h4, run])
              (by rw [keyN, h1, h2, run, run, if_neg hc, h3, run, h4, run])
            exact loops_nullLike (toI32_range _).2 (toI32_range _).2
              (fun h => by simp only [Bool.and_eq_true, decide_eq_true_eq] at h; omega)
              (fun h => by simp only [Bool.and_eq_true, decide_eq_true_eq] at h; omega)

theorem zondGeometry_nullLike (rnd : ℚ → ℚ) (z : Zond) (g : Option Geometry) :
    NullLike (z.bound.iEnd + 1) (z.bound.jEnd + 1) (zondGeometryNull rnd z g ()) (zondGeometry rnd z g) := by
  cases g with
  | none => exact .inl fun m => rfl
  | some g =>
    simp only [zondGeometryNull, zondGeometry]
    cases g.type with
    | polygon => exact fun m => rfl
    | rectangle => exact zondRectangle_nullLike rnd z g
    | path => exact fun m => rfl
    | reference => exact fun m => rfl
    | text => exact fun m => rfl
    | undefined => exact fun m => rfl

theorem zondRectanglePtr_nullLike (rnd : ℚ → ℚ) (z : Zond) (g : Option Geometry) :
    NullLike (z.bound.iEnd + 1) (z.bound.jEnd + 1) (zondRectanglePtrNull rnd z g ()) (zondRectanglePtr rnd z g) := by
  cases g with
  | none => exact .inl fun m => rfl
  | some g => exact zondRectangle_nullLike rnd z g

end Verif.Zond
