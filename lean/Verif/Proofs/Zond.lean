import Verif.Model.Zond
import Verif.Proofs.BitMatrix
import Verif.Proofs.BitMatrix2

/-! Rasterisation paints a set of cells that does not depend on the bitmap's contents. -/

namespace Verif.Zond
open Verif BitMatrix

/-- a valid bitmap with `R` rows and `C` columns -/
def Shape (R C : Nat) (m : BitMatrix) : Prop := WF m ∧ m.isize = R ∧ m.jsize = C

/-- `m'` is `m` with the cells of `P` set -/
structure Ones (m m' : BitMatrix) (P : Nat → Nat → Prop) : Prop where
  wf : WF m'
  rows : m'.isize = m.isize
  cols : m'.jsize = m.jsize
  bits : ∀ i j, (cell m' i j = true ↔ cell m i j = true ∨ P i j)

theorem Ones.shape {m m' : BitMatrix} {P} (h : Ones m m' P) {R C} (hs : Shape R C m) : Shape R C m' :=
  ⟨h.wf, h.rows.trans hs.2.1, h.cols.trans hs.2.2⟩

theorem Ones.refl {m : BitMatrix} (h : WF m) : Ones m m (fun _ _ => False) :=
  ⟨h, rfl, rfl, fun _ _ => by simp⟩

theorem Ones.trans {a b c : BitMatrix} {P Q} (h : Ones a b P) (k : Ones b c Q) :
    Ones a c (fun i j => P i j ∨ Q i j) :=
  ⟨k.wf, k.rows.trans h.rows, k.cols.trans h.cols, fun i j => by rw [k.bits, h.bits]; tauto⟩

theorem Ones.congr {m m' : BitMatrix} {P Q : Nat → Nat → Prop} (h : Ones m m' P)
    (e : ∀ i j, P i j ↔ Q i j) : Ones m m' Q :=
  ⟨h.wf, h.rows, h.cols, fun i j => by rw [h.bits, e]⟩

/-- `f` paints the cells of `P` on every `R`×`C` bitmap. -/
def Paints (R C : Nat) (f : M BitMatrix Unit) (P : Nat → Nat → Prop) : Prop :=
  ∀ m, Shape R C m → ∃ m', f m = .ok () m' ∧ Ones m m' P

/-- `f` has undefined behaviour on every `R`×`C` bitmap. -/
def Ubs (R C : Nat) (f : M BitMatrix Unit) : Prop := ∀ m, Shape R C m → f m = .ub

/-- `f` throws `e` on every `R`×`C` bitmap and leaves it unchanged. -/
def Throws (R C : Nat) (f : M BitMatrix Unit) (e : Exc) : Prop := ∀ m, Shape R C m → f m = .throw e m

theorem Paints.congr {R C f} {P Q : Nat → Nat → Prop} (h : Paints R C f P) (e : ∀ i j, P i j ↔ Q i j) :
    Paints R C f Q := fun m hm => by
  obtain ⟨m', h1, h2⟩ := h m hm
  exact ⟨m', h1, h2.congr e⟩

theorem trySet_paints (R C : Nat) (i j : Int) :
    Paints R C (trySet i j) (fun a b => a = toSz i ∧ b = toSz j ∧ a < R ∧ b < C) := by
  intro m hm
  obtain ⟨hwf, rfl, rfl⟩ := hm
  by_cases h : toSz i < m.isize ∧ toSz j < m.jsize
  · obtain ⟨m', h1, h2, h3, h4, h5⟩ := set_ok hwf true h.1 h.2
    refine ⟨m', by simp [trySet, M.tryCatch, h1], h2, h3, h4, fun a b => ?_⟩
    rw [h5]
    by_cases e : a = toSz i ∧ b = toSz j
    · simp [e, h]
    · simp only [e, if_false]
      constructor
      · exact Or.inl
      · rintro (hh | hh)
        · exact hh
        · exact absurd ⟨hh.1, hh.2.1⟩ e
  · refine ⟨m, ?_, hwf, rfl, rfl, fun a b => ?_⟩
    · have : m.isize ≤ toSz i ∨ m.jsize ≤ toSz j := by omega
      simp [trySet, M.tryCatch, BitMatrix.set, this]
    · constructor
      · exact Or.inl
      · rintro (hh | ⟨rfl, rfl, h1, h2⟩)
        · exact hh
        · exact absurd ⟨h1, h2⟩ h

/-- A counting loop that reaches an index where its condition fails paints what its iterations paint. -/
theorem forUp_paints {R C : Nat} {cond : Int → Bool} {body : Int → M BitMatrix Unit}
    {P : Int → Nat → Nat → Prop} (e : Int) (he : e ≤ 2147483647) (hstop : cond e = false)
    (n : Nat) : ∀ i : Int, i + n = e → (∀ k, i ≤ k → k < e → cond k = true) →
    (∀ k, i ≤ k → k < e → Paints R C (body k) (P k)) →
    Paints R C (forUp cond body i) (fun a b => ∃ k, i ≤ k ∧ k < e ∧ P k a b) := by
  induction n with
  | zero =>
    intro i hi _ _ m hm
    have : i = e := by omega
    subst this
    refine ⟨m, ?_, (Ones.refl hm.1).congr fun a b => ?_⟩
    · unfold forUp; simp [hstop]
    · constructor
      · exact False.elim
      · rintro ⟨k, h1, h2, _⟩; omega
  | succ n ih =>
    intro i hi hc hb m hm
    obtain ⟨m1, h1, h2⟩ := hb i (le_refl _) (by omega) m hm
    obtain ⟨m2, h3, h4⟩ := ih (i + 1) (by omega) (fun k a b => hc k (by omega) b)
      (fun k a b => hb k (by omega) b) m1 (h2.shape hm)
    refine ⟨m2, ?_, (h2.trans h4).congr fun a b => ?_⟩
    · unfold forUp
      have : i < 2147483647 := by omega
      simp [hc i (le_refl _) (by omega), h1, this, h3]
    · constructor
      · rintro (hp | ⟨k, h1, h2, h3⟩)
        · exact ⟨i, le_refl _, by omega, hp⟩
        · exact ⟨k, by omega, h2, h3⟩
      · rintro ⟨k, g1, g2, g3⟩
        by_cases e : k = i
        · subst e; exact Or.inl g3
        · exact Or.inr ⟨k, by omega, g2, g3⟩

/-- A counting loop whose condition never fails up to `INT32_MAX` overflows. -/
theorem forUp_ub {R C : Nat} {cond : Int → Bool} {body : Int → M BitMatrix Unit}
    {P : Int → Nat → Nat → Prop} (n : Nat) : ∀ i : Int, i + n = 2147483647 →
    (∀ k, i ≤ k → k ≤ 2147483647 → cond k = true) →
    (∀ k, i ≤ k → k ≤ 2147483647 → Paints R C (body k) (P k)) →
    Ubs R C (forUp cond body i) := by
  induction n with
  | zero =>
    intro i hi hc hb m hm
    obtain ⟨m1, h1, h2⟩ := hb i (le_refl _) (by omega) m hm
    unfold forUp
    have : ¬ i < 2147483647 := by omega
    simp [hc i (le_refl _) (by omega), h1, this]
  | succ n ih =>
    intro i hi hc hb m hm
    obtain ⟨m1, h1, h2⟩ := hb i (le_refl _) (by omega) m hm
    have := ih (i + 1) (by omega) (fun k a b => hc k (by omega) b)
      (fun k a b => hb k (by omega) b) m1 (h2.shape hm)
    unfold forUp
    have h' : i < 2147483647 := by omega
    simp [hc i (le_refl _) (by omega), h1, h', this]

/-- A loop one of whose iterations is undefined, and before which every iteration runs, is undefined. -/
theorem forUp_body_ub {R C : Nat} {cond : Int → Bool} {body : Int → M BitMatrix Unit}
    {P : Int → Nat → Nat → Prop} (n : Nat) : ∀ i e : Int, i + n = e → e ≤ 2147483647 →
    (∀ k, i ≤ k → k ≤ e → cond k = true) →
    (∀ k, i ≤ k → k < e → Paints R C (body k) (P k)) → Ubs R C (body e) →
    Ubs R C (forUp cond body i) := by
  induction n with
  | zero =>
    intro i e hi _ hc _ hu m hm
    have : i = e := by omega
    subst this
    unfold forUp
    simp [hc i (le_refl _) (le_refl _), hu m hm]
  | succ n ih =>
    intro i e hi hle hc hb hu m hm
    obtain ⟨m1, h1, h2⟩ := hb i (le_refl _) (by omega) m hm
    have := ih (i + 1) e (by omega) hle (fun k a b => hc k (by omega) b)
      (fun k a b => hb k (by omega) b) hu m1 (h2.shape hm)
    unfold forUp
    have h' : i < 2147483647 := by omega
    simp [hc i (le_refl _) (by omega), h1, h', this]

/-- first index at or after `i` where `cond` fails, or none up to `INT32_MAX` -/
theorem stop_cases (cond : Int → Bool) (i : Int) (_ : i ≤ 2147483647) :
    (∃ e, i ≤ e ∧ e ≤ 2147483647 ∧ cond e = false ∧ ∀ k, i ≤ k → k < e → cond k = true) ∨
    (∀ k, i ≤ k → k ≤ 2147483647 → cond k = true) := by
  by_cases h : ∃ n : Nat, i + n ≤ 2147483647 ∧ cond (i + n) = false
  · left
    have hf := Nat.find_spec h
    refine ⟨i + Nat.find h, by omega, hf.1, hf.2, fun k h1 h2 => ?_⟩
    by_contra hc
    have := Nat.find_min h (m := (k - i).toNat) (by omega)
    apply this
    have e : i + ((k - i).toNat : Int) = k := by omega
    rw [e]
    exact ⟨by omega, by simpa using hc⟩
  · right
    intro k h1 h2
    by_contra hc
    apply h
    refine ⟨(k - i).toNat, ?_⟩
    have e : i + ((k - i).toNat : Int) = k := by omega
    rw [e]
    exact ⟨h2, by simpa using hc⟩

theorem toI32_range (n : Nat) : -2147483648 ≤ toI32 n ∧ toI32 n ≤ 2147483647 := by
  unfold toI32; split <;> omega

/-- paints a fixed set of cells satisfying `In`, or is undefined: independently of the contents -/
def Uni (R C : Nat) (In : Nat → Nat → Prop) (f : M BitMatrix Unit) : Prop :=
  (∃ P, Paints R C f P ∧ ∀ i j, P i j → In i j) ∨ Ubs R C f

theorem forUp_uni {R C : Nat} {In : Nat → Nat → Prop} {cond : Int → Bool} {body : Int → M BitMatrix Unit} (i : Int)
    (hi : i ≤ 2147483647) (hb : ∀ k, cond k = true → Uni R C In (body k)) :
    Uni R C In (forUp cond body i) := by
  classical
  have hP : ∀ k, ∃ P : Nat → Nat → Prop, (cond k = true → ¬ Ubs R C (body k) →
      (Paints R C (body k) P ∧ ∀ i j, P i j → In i j)) := by
    intro k
    by_cases hk : cond k = true
    · rcases hb k hk with ⟨P, hP⟩ | hu
      · exact ⟨P, fun _ _ => hP⟩
      · exact ⟨fun _ _ => False, fun _ h => absurd hu h⟩
    · exact ⟨fun _ _ => False, fun h => absurd h hk⟩
  choose P hP using hP
  -- stop at the first index whose condition fails or whose body is undefined
  rcases stop_cases (fun k => cond k && decide (¬ Ubs R C (body k))) i hi with ⟨e, h1, h2, h3, h4⟩ | h
  · have h4' : ∀ k, i ≤ k → k < e → cond k = true ∧ ¬ Ubs R C (body k) := by
      intro k a b
      have := h4 k a b
      rw [Bool.and_eq_true, decide_eq_true_eq] at this
      exact this
    have hp : ∀ k, i ≤ k → k < e → Paints R C (body k) (P k) := fun k a b =>
      (hP k (h4' k a b).1 (h4' k a b).2).1
    by_cases hc : cond e = true
    · right
      have hu : Ubs R C (body e) := by
        by_contra hn
        rw [Bool.and_eq_false_iff] at h3
        rcases h3 with h3 | h3
        · rw [hc] at h3; cases h3
        · rw [decide_eq_false_iff_not] at h3; exact h3 hn
      refine forUp_body_ub (e - i).toNat i e (by omega) h2 (fun k a b => ?_) hp hu
      by_cases hk : k = e
      · rw [hk]; exact hc
      · exact (h4' k a (by omega)).1
    · left
      refine ⟨_, forUp_paints e h2 (by simpa using hc) (e - i).toNat i (by omega)
        (fun k a b => (h4' k a b).1) hp, ?_⟩
      rintro a b ⟨k, hk1, hk2, hk3⟩
      exact (hP k (h4' k hk1 hk2).1 (h4' k hk1 hk2).2).2 a b hk3
  · right
    have h' : ∀ k, i ≤ k → k ≤ 2147483647 → cond k = true ∧ ¬ Ubs R C (body k) := by
      intro k a b
      have := h k a b
      rw [Bool.and_eq_true, decide_eq_true_eq] at this
      exact this
    exact forUp_ub (2147483647 - i).toNat i (by omega) (fun k a b => (h' k a b).1)
      (P := P) (fun k a b => (hP k (h' k a b).1 (h' k a b).2).1)

/-- the cells of the bitmap between the bound indices -/
def Within (bd : Indicies) (R C : Nat) (i j : Nat) : Prop :=
  i < R ∧ j < C ∧ i ≤ bd.iEnd ∧ j ≤ bd.jEnd

theorem fillAll_uni (R C : Nat) (bd : Indicies) : Uni R C (Within bd R C) (fillAll bd) := by
  refine forUp_uni _ (toI32_range _).2 fun i hi => forUp_uni _ (toI32_range _).2 fun j hj => ?_
  refine Or.inl ⟨_, trySet_paints R C i j, ?_⟩
  rintro a b ⟨rfl, rfl, h1, h2⟩
  exact ⟨h1, h2, by simpa using hi, by simpa using hj⟩

theorem fillRange_uni (R C : Nat) (bd n : Indicies) :
    Uni R C (fun i j => Within bd R C i j ∧ bd.iBegin ≤ i ∧ bd.jBegin ≤ j) (fillRange bd n) := by
  refine forUp_uni _ (toI32_range _).2 fun i hi => forUp_uni _ (toI32_range _).2 fun j hj => ?_
  refine Or.inl ⟨_, trySet_paints R C i j, ?_⟩
  rintro a b ⟨rfl, rfl, h1, h2⟩
  simp only [Bool.and_eq_true, decide_eq_true_eq] at hi hj
  exact ⟨⟨h1, h2, hi.2, hj.2⟩, hi.1.2, hj.1.2⟩

/-- outcome of rasterising one geometry, for all `R`×`C` bitmaps at once -/
def Outcome (R C : Nat) (In : Nat → Nat → Prop) (f : M BitMatrix Unit) : Prop :=
  Uni R C In f ∨ Throws R C f .invalidArgument

theorem sub32_throw {a b : Int} {e : Exc} : sub32 a b ≠ .throw e := by
  unfold sub32 chk32; split <;> simp

theorem toI32_throw {x : Fl} {e : Exc} : x.toI32 ≠ .throw e := by
  unfold Fl.toI32
  split
  · split <;> simp
  · simp

theorem toSize_throw {x : Fl} {e : Exc} : x.toSize ≠ .throw e := by
  unfold Fl.toSize
  split
  · split <;> simp
  · simp

theorem rawIndicies_throw {rnd z lt rb} {e : Exc} : rawIndicies rnd z lt rb ≠ .throw e := by
  unfold rawIndicies
  cases h1 : sub32 lt.x z.ws.leftTop.x <;> simp
  · cases h2 : sub32 rb.x z.ws.leftTop.x <;> simp
    · cases h3 : sub32 z.ws.leftTop.y lt.y <;> simp
      · cases h4 : sub32 z.ws.leftTop.y rb.y <;> simp
        exact absurd h4 sub32_throw
      · exact absurd h3 sub32_throw
    · exact absurd h2 sub32_throw
  · exact absurd h1 sub32_throw

theorem normPair_throw {rnd b e dl eps b1 b2} {x : Exc} (h : normPair rnd b e dl eps b1 b2 = .throw x) :
    x = .invalidArgument := by
  unfold normPair at h
  split at h
  · cases h; rfl
  split at h
  · cases h; rfl
  split at h
  · cases h; rfl
  exfalso
  dsimp only at h
  cases h1 : e.toI32 with
  | throw _ => exact toI32_throw h1
  | ub => simp [h1] at h
  | ok ei =>
    cases h2 : b.toI32 with
    | throw _ => exact toI32_throw h2
    | ub => simp [h1, h2] at h
    | ok bi =>
      cases h3 : sub32 ei bi with
      | throw _ => exact sub32_throw h3
      | ub => simp [h1, h2, h3] at h
      | ok d =>
        rw [h1, Res.ok_bind, h2, Res.ok_bind, h3, Res.ok_bind] at h
        cases h4 : b.toSize with
        | throw _ => exact toSize_throw h4
        | ub =>
          rw [h4] at h
          split at h
          · split at h <;> simp at h
          · split at h
            · split at h
              · simp at h
              · split at h
                · cases h5 : e.round.toSize with
                  | throw _ => exact toSize_throw h5
                  | ub => simp [h5] at h
                  | ok _ => simp [h5] at h
                · cases h5 : e.toSize with
                  | throw _ => exact toSize_throw h5
                  | ub => simp [h5] at h
                  | ok _ => simp [h5] at h
            · split at h <;> simp at h
        | ok t =>
          rw [h4] at h
          split at h
          · split at h <;> simp at h
          · cases h5 : e.round.toSize with
            | throw _ => exact toSize_throw h5
            | ub =>
              cases h6 : e.toSize with
              | throw _ => exact toSize_throw h6
              | ub => rw [h5, h6] at h; repeat' split at h
                      all_goals simp at h
              | ok _ => rw [h5, h6] at h; repeat' split at h
                        all_goals simp at h
            | ok _ =>
              cases h6 : e.toSize with
              | throw _ => exact toSize_throw h6
              | ub => rw [h5, h6] at h; repeat' split at h
                      all_goals simp at h
              | ok _ => rw [h5, h6] at h; repeat' split at h
                        all_goals simp at h

theorem normIndicies_throw {rnd z a b c d} {x : Exc} (h : normIndicies rnd z a b c d = .throw x) :
    x = .invalidArgument := by
  unfold normIndicies at h
  cases h1 : normPair rnd a b z.dy z.eps z.bound.iBegin z.bound.iEnd with
  | throw _ => rw [h1] at h; simp at h; subst h; exact normPair_throw h1
  | ub => rw [h1] at h; simp at h
  | ok p =>
    rw [h1, Res.ok_bind] at h
    cases h2 : normPair rnd c d z.dx z.eps z.bound.jBegin z.bound.jEnd with
    | throw _ => rw [h2] at h; simp at h; subst h; exact normPair_throw h2
    | ub => rw [h2] at h; simp at h
    | ok q => rw [h2] at h; simp at h

theorem Uni.mono {R C : Nat} {In In' : Nat → Nat → Prop} {f} (h : Uni R C In f)
    (hi : ∀ i j, In i j → In' i j) : Uni R C In' f := by
  rcases h with ⟨P, h1, h2⟩ | h
  · exact Or.inl ⟨P, h1, fun i j hp => hi i j (h2 i j hp)⟩
  · exact Or.inr h

theorem zondRectangle_outcome (R C : Nat) (rnd : ℚ → ℚ) (z : Zond) (r : Geometry) :
    Outcome R C (Within z.bound R C) (zondRectangle rnd z r) := by
  have key : zondRectangle rnd z r = (do
    let lt ← M.lift (Res.idx r.coords 0)
    let rb ← M.lift (Res.idx r.coords 2)
    if coversAll rnd z lt rb then fillAll z.bound
    else
      let q ← M.lift (rawIndicies rnd z lt rb)
      let n ← M.lift (normIndicies rnd z q.1 q.2.1 q.2.2.1 q.2.2.2)
      fillRange z.bound n) := rfl
  cases h1 : Res.idx r.coords 0 with
  | throw e => unfold Res.idx at h1; split at h1 <;> simp at h1
  | ub => left; right; intro m _; rw [key, h1]; rfl
  | ok lt =>
    cases h2 : Res.idx r.coords 2 with
    | throw e => unfold Res.idx at h2; split at h2 <;> simp at h2
    | ub => left; right; intro m _; rw [key, h1, h2]; rfl
    | ok rb =>
      by_cases hc : coversAll rnd z lt rb = true
      · have e : zondRectangle rnd z r = fillAll z.bound := by
          funext m; rw [key, h1, h2, M.run_bind_ok (M.run_lift_ok _ _), M.run_bind_ok (M.run_lift_ok _ _), if_pos hc]
        rw [e]
        exact Or.inl (fillAll_uni R C z.bound)
      · have e : zondRectangle rnd z r = (do
            let q ← M.lift (rawIndicies rnd z lt rb)
            let n ← M.lift (normIndicies rnd z q.1 q.2.1 q.2.2.1 q.2.2.2)
            fillRange z.bound n) := by
          funext m; rw [key, h1, h2, M.run_bind_ok (M.run_lift_ok _ _), M.run_bind_ok (M.run_lift_ok _ _), if_neg hc]
        rw [e]
        cases h3 : rawIndicies rnd z lt rb with
        | throw _ => exact absurd h3 rawIndicies_throw
        | ub => left; right; intro m _; rfl
        | ok q =>
          cases h4 : normIndicies rnd z q.1 q.2.1 q.2.2.1 q.2.2.2 with
          | throw x =>
            right; intro m _
            have hx := normIndicies_throw h4
            subst hx
            rw [M.run_bind_ok (M.run_lift_ok _ _), h4]; rfl
          | ub =>
            left; right; intro m _
            rw [M.run_bind_ok (M.run_lift_ok _ _), h4]; rfl
          | ok n =>
            have e2 : (do
                let q ← M.lift (Res.ok q)
                let n ← M.lift (normIndicies rnd z q.1 q.2.1 q.2.2.1 q.2.2.2)
                fillRange z.bound n) = fillRange z.bound n := by
              funext m; rw [M.run_bind_ok (M.run_lift_ok _ _), h4, M.run_bind_ok (M.run_lift_ok _ _)]
            rw [e2]
            exact Or.inl ((fillRange_uni R C z.bound n).mono fun i j h => h.1)

/-- Every geometry: a fixed set of cells is painted, or `invalid_argument` is thrown with the bitmap
untouched, or the behaviour is undefined — the same for all bitmaps of one size. -/
theorem zondGeometry_outcome (R C : Nat) (rnd : ℚ → ℚ) (z : Zond) (g : Option Geometry) :
    Outcome R C (Within z.bound R C) (zondGeometry rnd z g) := by
  cases g with
  | none => exact Or.inl (Or.inr fun m _ => rfl)
  | some g =>
    cases ht : g.type <;> simp only [zondGeometry, ht]
    case polygon =>
      exact Or.inl (Or.inl ⟨fun _ _ => False, fun m hm => ⟨m, rfl, Ones.refl hm.1⟩, fun _ _ h => h.elim⟩)
    case rectangle => exact zondRectangle_outcome R C rnd z g
    all_goals exact Or.inr fun m _ => rfl

/-- valid matrices with the same dimensions and the same bits (padding included) are equal -/
theorem eq_of_cells {a b : BitMatrix} (ha : WF a) (hb : WF b) (h1 : a.isize = b.isize) (h2 : a.jsize = b.jsize)
    (h : ∀ i j, cell a i j = cell b i j) : a = b := by
  have hbytes : ∀ i jb, byteAt a i jb = byteAt b i jb := by
    intro i jb
    apply UInt8.toNat_inj.mp
    apply Nat.eq_of_testBit_eq
    intro k
    by_cases hk : k < 8
    · have := h i (8 * jb + (7 - k))
      unfold cell at this
      have e1 : (8 * jb + (7 - k)) / 8 = jb := by omega
      have e2 : 7 - (8 * jb + (7 - k)) % 8 = k := by omega
      rwa [e1, e2] at this
    · have t : ∀ x : UInt8, x.toNat.testBit k = false := by
        intro x
        apply Nat.testBit_lt_two_pow
        calc x.toNat < 2 ^ 8 := x.toNat_lt
          _ ≤ 2 ^ k := Nat.pow_le_pow_right (by norm_num) (by omega)
      rw [t, t]
  obtain ⟨la, ra⟩ := ha
  obtain ⟨lb, rb⟩ := hb
  cases a with
  | mk A I J =>
  cases b with
  | mk B I' J' =>
  simp only at h1 h2 la ra lb rb
  subst h1; subst h2
  congr 1
  apply List.ext_getElem (by omega)
  intro i hi hi'
  have r1 := ra A[i] (List.getElem_mem hi)
  have r2 := rb B[i] (List.getElem_mem hi')
  apply List.ext_getElem (by omega)
  intro jb hj hj'
  have := hbytes i jb
  simpa [byteAt, List.getD_eq_getElem?_getD, hi, hi', hj, hj'] using this

/-! ### The painted set, explicitly -/

theorem toSz_nat (k : Nat) : toSz (k : Int) = k := by simp [toSz]

theorem toSz_neg (i : Int) (h : i < 0) (h2 : -2147483648 ≤ i) : 18446744071562067968 ≤ toSz i := by
  have : ¬ 0 ≤ i := by omega
  simp only [toSz, this, if_false]; omega

theorem toI32_small (n : Nat) (h : n < 2147483648) : toI32 n = n := by
  have h2 : n % 4294967296 < 2147483648 := by omega
  simp only [toI32, if_pos h2]; omega

theorem toI32_big (n : Nat) (h : 2147483648 ≤ n) (h2 : n < 4294967296) : toI32 n < 0 := by
  have h3 : ¬ n % 4294967296 < 2147483648 := by omega
  simp only [toI32, if_neg h3]; omega

theorem range_loop {R C : Nat} {cond : Int → Bool} {body : Int → M BitMatrix Unit}
    {P : Nat → Nat → Nat → Prop} (jB jE b0 b1 : Nat) (hB : jB < 4294967296) (h0 : b0 ≤ jB)
    (h1 : b1 < 2147483647)
    (hcond : ∀ k, cond k = true ↔ toSz k ≤ jE ∧ b0 ≤ toSz k ∧ toSz k ≤ b1)
    (hb : ∀ k : Nat, jB ≤ k → k ≤ jE → k ≤ b1 → Paints R C (body k) (P k)) :
    Paints R C (forUp cond body (toI32 jB)) (fun a b => ∃ k, jB ≤ k ∧ k ≤ jE ∧ k ≤ b1 ∧ P k a b) := by
  by_cases hbig : 2147483648 ≤ jB
  · have hn := toI32_big jB hbig hB
    have hs := toSz_neg _ hn (toI32_range jB).1
    have hc : cond (toI32 jB) = false := by
      rw [← Bool.not_eq_true, hcond]; omega
    refine (forUp_paints (P := fun _ _ _ => False) (toI32 jB) (by omega) hc 0 _ (by simp)
      (fun k a b => by omega) (fun k a b => by omega)).congr fun a b => ?_
    constructor
    · rintro ⟨_, _, _, h⟩; exact h.elim
    · rintro ⟨k, g1, g2, g3, _⟩; omega
  · rw [toI32_small jB (by omega)]
    -- the loop stops at `e`
    obtain ⟨e, he⟩ : ∃ e : Nat, e = max jB (min jE b1 + 1) := ⟨_, rfl⟩
    have hstop : cond (e : Int) = false := by
      rw [← Bool.not_eq_true, hcond, toSz_nat]; omega
    refine (forUp_paints (P := fun k => P k.toNat) (e : Int) (by omega) hstop (e - jB) _ (by omega)
      (fun k a b => ?_) (fun k a b => ?_)).congr fun a b => ?_
    · obtain ⟨n, rfl⟩ := Int.eq_ofNat_of_zero_le (show 0 ≤ k by omega)
      rw [hcond, toSz_nat]; omega
    · obtain ⟨n, rfl⟩ := Int.eq_ofNat_of_zero_le (show 0 ≤ k by omega)
      exact hb n (by omega) (by omega) (by omega)
    · constructor
      · rintro ⟨k, g1, g2, g3⟩
        exact ⟨k.toNat, by omega, by omega, by omega, g3⟩
      · rintro ⟨k, g1, g2, g3, g4⟩
        exact ⟨k, by omega, by omega, by simpa using g4⟩

/-- cells of rows `iB..iE` and columns `jB..jE` inside an `R`×`C` bitmap -/
def Box (R C iB iE jB jE i j : Nat) : Prop := i < R ∧ j < C ∧ iB ≤ i ∧ i ≤ iE ∧ jB ≤ j ∧ j ≤ jE

theorem fillAll_paints (R C : Nat) (bd : Indicies) (h1 : bd.iEnd < 2147483647) (h2 : bd.jEnd < 2147483647)
    (h3 : bd.iBegin < 4294967296) (h4 : bd.jBegin < 4294967296) :
    Paints R C (fillAll bd) (Box R C bd.iBegin bd.iEnd bd.jBegin bd.jEnd) := by
  refine (range_loop bd.iBegin bd.iEnd 0 bd.iEnd h3 (by omega) h1 (fun k => by simp)
    fun i _ _ _ => range_loop bd.jBegin bd.jEnd 0 bd.jEnd h4 (by omega) h2 (fun k => by simp)
    fun j _ _ _ => trySet_paints R C i j).congr fun a b => ?_
  simp only [toSz_nat, Box]
  constructor
  · rintro ⟨k, _, _, _, l, _, _, _, rfl, rfl, _, _⟩; omega
  · rintro ⟨_, _, _, _, _, _⟩; exact ⟨a, by omega, by omega, by omega, b, by omega, by omega, by omega, rfl, rfl, by omega, by omega⟩

theorem fillRange_paints (R C : Nat) (bd n : Indicies) (h1 : bd.iEnd < 2147483647) (h2 : bd.jEnd < 2147483647)
    (h3 : n.iBegin + bd.iBegin < 4294967296) (h4 : n.jBegin + bd.jBegin < 4294967296)
    (h5 : n.iEnd + bd.iBegin < 18446744073709551616) (h6 : n.jEnd + bd.jBegin < 18446744073709551616) :
    Paints R C (fillRange bd n)
      (Box R C (n.iBegin + bd.iBegin) (min (n.iEnd + bd.iBegin) bd.iEnd)
        (n.jBegin + bd.jBegin) (min (n.jEnd + bd.jBegin) bd.jEnd)) := by
  have e1 : addSz n.iBegin bd.iBegin = n.iBegin + bd.iBegin := Nat.mod_eq_of_lt (by omega)
  have e2 : addSz n.jBegin bd.jBegin = n.jBegin + bd.jBegin := Nat.mod_eq_of_lt (by omega)
  have e3 : addSz n.iEnd bd.iBegin = n.iEnd + bd.iBegin := Nat.mod_eq_of_lt h5
  have e4 : addSz n.jEnd bd.jBegin = n.jEnd + bd.jBegin := Nat.mod_eq_of_lt h6
  unfold fillRange
  rw [e1, e2, e3, e4]
  refine (range_loop _ (n.iEnd + bd.iBegin) bd.iBegin bd.iEnd h3 (by omega) h1
    (fun k => by simp [and_assoc])
    fun i _ _ _ => range_loop _ (n.jEnd + bd.jBegin) bd.jBegin bd.jEnd h4 (by omega) h2
    (fun k => by simp [and_assoc])
    fun j _ _ _ => trySet_paints R C i j).congr fun a b => ?_
  simp only [toSz_nat, Box]
  constructor
  · rintro ⟨k, _, _, _, l, _, _, _, rfl, rfl, _, _⟩; omega
  · rintro ⟨_, _, _, _, _, _⟩; exact ⟨a, by omega, by omega, by omega, b, by omega, by omega, by omega, rfl, rfl, by omega, by omega⟩

end Verif.Zond
