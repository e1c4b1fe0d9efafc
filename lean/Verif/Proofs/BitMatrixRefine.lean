import Verif.Proofs.BitMatrix2
import Verif.Model.BitMatrixHistory

/-! Refinement proof: `BitMatrix` variables behave like `Spec.Grid` variables. -/

namespace Verif.BitMatrix
open Verif.ByteHandler
open Verif.Spec (Op Obs upd Grid Store)

/-- simulation relation -/
structure Rel (m : BitMatrix) (g : Grid) : Prop where
  rows : m.isize = g.rows
  cols : m.jsize = g.cols
  fitR : g.rows < 2 ^ 64
  fitC : g.cols < 2 ^ 64
  hollow : g.hollow = true → m.bitmap = []
  wf : g.hollow = false → WF m
  bits : g.hollow = false → ∀ i j, i < g.rows → j < g.cols → cell m i j = g.bit i j

theorem rel_zero {al : Alloc} {r c : Nat} (hal : al r (bytesPerRow c) = none)
    (hr : r < 2 ^ 64) (hc : c < 2 ^ 64) : Rel (new al r c) (Grid.zero r c) := by
  rw [new_eq hal]
  refine ⟨rfl, rfl, hr, hc, ?_, fun _ => zeroMat_wf r c, fun _ i j _ _ => zeroMat_cell r c i j⟩
  intro h; cases h

theorem read_hollow {m : BitMatrix} (h : m.bitmap = []) (i j : Nat) : V2.read m.bitmap i j = .ub := by
  simp [V2.read, Res.idx, h]

theorem upd_rel {s : CStore} {g : Store} (h : ∀ k, Rel (s k) (g k)) (x : Nat) {m : BitMatrix}
    {gr : Grid} (hm : Rel m gr) : ∀ k, Rel (upd s x m k) (upd g x gr k) := by
  intro k
  simp only [upd]
  split
  · exact hm
  · exact h k

theorem upd_same {s : CStore} {g : Store} (h : ∀ k, Rel (s k) (g k)) (x : Nat) :
    ∀ k, Rel (upd s x (s x) k) (g k) := by
  intro k
  simp only [upd]
  split
  · rename_i e; rw [e]; exact h x
  · exact h k

theorem cell_of_byte {m m' : BitMatrix} {i j : Nat} (h : byteAt m i (j / 8) = byteAt m' i (j / 8)) :
    cell m i j = cell m' i j := by simp [cell, h]

/-- the two stores produce the same observation for `op` and stay related -/
def StepOk (al : Alloc) (s : CStore) (g : Store) (op : Op) : Prop :=
  (cstep al s op).1 = (Spec.step g op).1 ∧
    ((Spec.step g op).1 ≠ .undefined → ∀ k, Rel ((cstep al s op).2 k) ((Spec.step g op).2 k))

variable {al : Alloc} {s : CStore} {g : Store}

theorem stepOk_of {op : Op} {o : Obs} {s' : CStore} {g' : Store} (hc : cstep al s op = (o, s'))
    (hg : Spec.step g op = (o, g')) (hr : o ≠ .undefined → ∀ k, Rel (s' k) (g' k)) :
    StepOk al s g op := by
  unfold StepOk; rw [hc, hg]; exact ⟨rfl, hr⟩

theorem stepOk_ub {op : Op} {s' : CStore} {g' : Store} (hc : cstep al s op = (.undefined, s'))
    (hg : Spec.step g op = (.undefined, g')) : StepOk al s g op :=
  stepOk_of hc hg (fun e => absurd rfl e)

theorem step_new (hal : ∀ r c, al r c = none) (h : ∀ k, Rel (s k) (g k)) (x r c : Nat)
    (hf : (Op.new x r c).fits) : StepOk al s g (.new x r c) :=
  stepOk_of rfl rfl fun _ => upd_rel h x (rel_zero (hal _ _) hf.1 hf.2)

theorem step_copy (h : ∀ k, Rel (s k) (g k)) (x y : Nat) : StepOk al s g (.copy x y) :=
  stepOk_of rfl rfl fun _ => upd_rel h x (h y)

theorem step_move (h : ∀ k, Rel (s k) (g k)) (x y : Nat) : StepOk al s g (.move x y) := by
  have r := h y
  exact stepOk_of rfl rfl fun _ => upd_rel (upd_rel h x r) y
    ⟨r.rows, r.cols, r.fitR, r.fitC, fun _ => rfl, fun e => by simp at e, fun e => by simp at e⟩

theorem step_xor (hal : ∀ r c, al r c = none) (h : ∀ k, Rel (s k) (g k)) (x y z : Nat) :
    StepOk al s g (.xor x y z) := by
  have ry := h y
  have rz := h z
  by_cases hd : (g y).rows ≠ (g z).rows ∨ (g y).cols ≠ (g z).cols
  · have hd' : (s y).jsize ≠ (s z).jsize ∨ (s y).isize ≠ (s z).isize := by
      rw [ry.rows, rz.rows, ry.cols, rz.cols]; omega
    exact stepOk_of (o := .exn .invalidArgument) (by simp only [cstep, xor, hd', if_true])
      (by simp only [Spec.step, hd, if_true]) fun _ => h
  · have hd' : ¬ ((s y).jsize ≠ (s z).jsize ∨ (s y).isize ≠ (s z).isize) := by
      rw [ry.rows, rz.rows, ry.cols, rz.cols]; omega
    have hnew := new_eq (hal (s y).isize (bytesPerRow (s y).jsize))
    have hn := opNot_eq (zeroMat_wf (s y).isize (s y).jsize)
    by_cases h0 : (g y).rows = 0 ∨ (g y).cols = 0
    · have hb : opNot (new al (s y).isize (s y).jsize) = true := by
        rw [hnew, hn]; simp [ry.rows, ry.cols]; omega
      have : xor al (s y) (s z) = .throw .runtimeError := by simp only [xor, hd', hb, if_true, if_false]
      exact stepOk_of (o := .exn .runtimeError) (by simp only [cstep, this])
        (by simp only [Spec.step, hd, h0, if_true, if_false]) fun _ => h
    · have hb : opNot (new al (s y).isize (s y).jsize) = false := by
        rw [hnew, hn]; simp [ry.rows, ry.cols]; omega
      by_cases hy : (g y).hollow = true
      · have : xor al (s y) (s z) = .ok (new al (s y).isize (s y).jsize) := by
          simp only [xor, hd', if_false, hb, Bool.false_eq_true, V2.rowCount, ry.hollow hy]
          rfl
        refine stepOk_of (o := .done) (by simp only [cstep, this]; exact rfl)
          (by simp only [Spec.step, hd, h0, hy, if_true, if_false]; exact rfl) fun _ => upd_rel h x ?_
        rw [ry.rows, ry.cols]
        exact rel_zero (hal _ _) ry.fitR ry.fitC
      · have hy' : (g y).hollow = false := by simpa using hy
        have hwy := ry.wf hy'
        by_cases hz : (g z).hollow = true
        · have hrow : 0 < (s y).isize := by rw [ry.rows]; omega
          have hcol := bytesPerRow_pos (show 0 < (s y).jsize by rw [ry.cols]; omega)
          have : xor al (s y) (s z) = .ub := by
            simp only [xor, hd', if_false, hb, Bool.false_eq_true, V2.rowCount, hwy.1,
              colCount_eq hwy hrow]
            refine congrArg Out.toRes (loop_ub (fun _ => True) 0 ?_ _ _ _ (Nat.le_refl _) (by omega) trivial ?_)
            · intro t _
              refine loop_ub (fun _ => True) 0 ?_ _ _ _ (Nat.le_refl _) (by omega) trivial ?_
              · intro u _; simp [read_hollow (rz.hollow hz)]
              · intro i t a b; omega
            · intro i t a b; omega
          exact stepOk_ub (by simp only [cstep, this]; rfl)
            (by simp only [Spec.step, hd, h0, hy, hz, if_true, if_false]; rfl)
        · have hz' : (g z).hollow = false := by simpa using hz
          obtain ⟨m, hm, w, d1, d2, hc⟩ := xor_ok (al := al) hwy (rz.wf hz') (by omega) (by omega)
            (by rw [ry.rows]; omega) (by rw [ry.cols]; omega) (hal _ _)
          refine stepOk_of (o := .done) (by simp only [cstep, hm]; exact rfl)
            (by simp only [Spec.step, hd, h0, hy, hz, if_false]; exact rfl) fun _ => upd_rel h x ?_
          refine ⟨by rw [d1, ry.rows], by rw [d2, ry.cols], ry.fitR, ry.fitC, ?_, fun _ => w, ?_⟩
          · intro e; simp at e
          · intro _ i j hi hj
            have hi' : i < (g y).rows := hi
            have hj' : j < (g y).cols := hj
            show cell m i j = ((g y).bit i j != (g z).bit i j)
            rw [← ry.bits hy' i j hi' hj', ← rz.bits hz' i j (by omega) (by omega)]
            simp only [cell]
            rw [hc i (j / 8) (by rw [ry.rows]; exact hi') (by rw [ry.cols]; exact div8_lt _ _ hj')]
            simp [UInt8.toNat_xor, Nat.testBit_xor]

theorem step_set (h : ∀ k, Rel (s k) (g k)) (x i j : Nat) (v : Bool) :
    StepOk al s g (.set x i j v) := by
  have r := h x
  by_cases hb : i < (g x).rows ∧ j < (g x).cols
  · by_cases hh : (g x).hollow = true
    · have : set i j v (s x) = .ub := by
        have hn : ¬ ((s x).isize ≤ i ∨ (s x).jsize ≤ j) := by rw [r.rows, r.cols]; omega
        simp [set, hn, writeByte, read_hollow (r.hollow hh)]
      exact stepOk_ub (by simp only [cstep, this, observe]; rfl)
        (by simp only [Spec.step, hb, hh, if_true]; rfl)
    · have hh' : (g x).hollow = false := by simpa using hh
      obtain ⟨m', h1, w, d1, d2, hc⟩ := set_ok (r.wf hh') (i := i) (j := j) v (by rw [r.rows]; exact hb.1)
        (by rw [r.cols]; exact hb.2)
      refine stepOk_of (o := .done) (by simp only [cstep, h1, observe]; exact rfl)
        (by simp only [Spec.step]; rewrite [if_pos hb, if_neg hh]; exact rfl) fun _ => upd_rel h x ?_
      refine ⟨by rw [d1, r.rows], by rw [d2, r.cols], r.fitR, r.fitC, ?_, fun _ => w, ?_⟩
      · intro e; exact absurd e hh
      · intro _ i' j' hi hj
        rw [hc, r.bits hh' i' j' hi hj]
  · have : set i j v (s x) = .throw .runtimeError (s x) := by
      have hn : (s x).isize ≤ i ∨ (s x).jsize ≤ j := by rw [r.rows, r.cols]; omega
      simp [set, hn]
    exact stepOk_of (o := .exn .runtimeError) (by simp only [cstep, this, observe])
      (by simp only [Spec.step, hb, if_false]) fun _ => upd_same h x

theorem step_setByte (h : ∀ k, Rel (s k) (g k)) (x i jb : Nat) (b : UInt8) :
    StepOk al s g (.setByte x i jb b) := by
  have r := h x
  have hbpr : bytesPerRow (s x).jsize = ((g x).cols + 7) / 8 := by rw [bytesPerRow_eq, r.cols]
  by_cases hg : (g x).hollow = true ∨ (g x).rows ≤ i
  · have : setByte i jb b (s x) = .throw .invalidArgument (s x) := by
      have hn : V2.rowCount (s x).bitmap ≤ i := by
        by_cases hh : (g x).hollow = true
        · simp [V2.rowCount, r.hollow hh]
        · have hh' : (g x).hollow = false := by simpa using hh
          rw [V2.rowCount, (r.wf hh').1, r.rows]
          rcases hg with e | e
          · exact absurd e hh
          · exact e
      simp [setByte, hn]
    exact stepOk_of (o := .exn .invalidArgument) (by simp only [cstep, this, observe])
      (by simp only [Spec.step, hg, if_true]) fun _ => upd_same h x
  · have hh' : (g x).hollow = false := by
      cases hh : (g x).hollow
      · rfl
      · exact absurd (Or.inl hh) hg
    have hi : i < (s x).isize := by rw [r.rows]; omega
    have w := r.wf hh'
    have hn : ¬ V2.rowCount (s x).bitmap ≤ i := by rw [V2.rowCount, w.1]; omega
    by_cases h2 : ((g x).cols + 7) / 8 < jb
    · have : setByte i jb b (s x) = .throw .invalidArgument (s x) := by
        simp [setByte, hn, colCount_eq w (by omega), hbpr, h2]
      exact stepOk_of (o := .exn .invalidArgument) (by simp only [cstep, this, observe])
        (by simp only [Spec.step, hg, h2, if_true, if_false]) fun _ => upd_same h x
    · by_cases h3 : jb = ((g x).cols + 7) / 8
      · have : setByte i jb b (s x) = .ub := by
          simp [setByte, hn, colCount_eq w (by omega), hbpr, h2]
          exact writeByte_ub (read_ub_col w _ (by omega))
        exact stepOk_ub (by simp only [cstep, this, observe]; rfl)
          (by simp only [Spec.step]; rw [if_neg hg, if_neg h2, if_pos h3])
      · obtain ⟨m', e1, w', d1, d2, hc⟩ := writeByte_ok w hi (jb := jb) (by omega)
          (f := fun _ => .ok b) (b' := b) rfl
        have : setByte i jb b (s x) = .ok () m' := by
          simp [setByte, hn, colCount_eq w (by omega), hbpr, h2, e1]
        refine stepOk_of (o := .done) (by simp only [cstep, this, observe]; exact rfl)
          (by simp only [Spec.step]; rewrite [if_neg hg, if_neg h2, if_neg h3]; exact rfl) fun _ => upd_rel h x ?_
        refine ⟨by rw [d1, r.rows], by rw [d2, r.cols], r.fitR, r.fitC, ?_, fun _ => w', ?_⟩
        · intro e; exact absurd (Or.inl e) hg
        · intro _ i' j' hi' hj'
          simp only [cell, hc]
          by_cases e : i' = i ∧ j' / 8 = jb
          · rw [if_pos e, if_pos e]
          · rw [if_neg e, if_neg e]
            exact r.bits hh' i' j' hi' hj'

theorem setRange_hollow {m : BitMatrix} (hm : m.bitmap = []) {i0 j0 i1 j1 : Nat} (v : Bool)
    (hi : i0 ≤ i1) (hj : j0 ≤ j1) (hi1 : i1 ≤ m.isize) (hj1 : j1 ≤ m.jsize) :
    setRange i0 j0 i1 j1 v m = .ub := by
  have e1 : ¬ (i1 < i0 ∨ m.isize < i1) := by omega
  have e2 : ¬ (j1 < j0 ∨ m.jsize < j1) := by omega
  simp only [setRange, e1, e2, if_false]
  refine loop_ub (fun t => t.bitmap = []) i0 ?_ _ _ _ (Nat.le_refl _) (by omega) hm ?_
  · intro t ht
    refine loop_ub (fun t => t.bitmap = []) j0 ?_ _ _ _ (Nat.le_refl _) (by omega) ht ?_
    · intro u hu; exact writeByte_ub (read_hollow hu _ _)
    · intro i t a b; omega
  · intro i t a b; omega

theorem step_setRange (h : ∀ k, Rel (s k) (g k)) (x i0 j0 i1 j1 : Nat) (v : Bool) :
    StepOk al s g (.setRange x i0 j0 i1 j1 v) := by
  have r := h x
  have rr := r.rows
  have rc := r.cols
  by_cases hg : i1 < i0 ∨ (g x).rows < i1 ∨ j1 < j0 ∨ (g x).cols < j1
  · have : setRange i0 j0 i1 j1 v (s x) = .throw .runtimeError (s x) := by
      by_cases e1 : i1 < i0 ∨ (s x).isize < i1
      · simp [setRange, e1]
      · have e2 : j1 < j0 ∨ (s x).jsize < j1 := by omega
        simp [setRange, e1, e2]
    exact stepOk_of (o := .exn .runtimeError) (by simp only [cstep, this, observe])
      (by simp only [Spec.step, hg, if_true]) fun _ => upd_same h x
  · by_cases hu : (g x).hollow = true ∨ i1 = (g x).rows ∨ (j1 = (g x).cols ∧ (g x).cols % 8 = 0)
    · have : setRange i0 j0 i1 j1 v (s x) = .ub := by
        by_cases hh : (g x).hollow = true
        · exact setRange_hollow (r.hollow hh) v (by omega) (by omega) (by omega) (by omega)
        · have hh' : (g x).hollow = false := by simpa using hh
          have hu' : i1 = (g x).rows ∨ (j1 = (g x).cols ∧ (g x).cols % 8 = 0) := by
            rcases hu with e | e
            · exact absurd e hh
            · exact e
          apply setRange_ub (r.wf hh') v (by omega) (by omega) (by omega) (by omega)
          rw [bytesPerRow_eq]; omega
      exact stepOk_ub (by simp only [cstep, this, observe]; rfl)
        (by simp only [Spec.step]; rw [if_neg hg, if_pos hu])
    · have hh : ¬ (g x).hollow = true := fun e => hu (Or.inl e)
      have hh' : (g x).hollow = false := by simpa using hh
      have hu' : ¬ (i1 = (g x).rows ∨ (j1 = (g x).cols ∧ (g x).cols % 8 = 0)) := fun e => hu (Or.inr e)
      obtain ⟨m', e1, w', d1, d2, hc⟩ := setRange_ok (r.wf hh') (i0 := i0) (j0 := j0) (i1 := i1) (j1 := j1) v
        (by omega) (by omega) (by omega) (by omega) (by rw [bytesPerRow_eq]; omega)
      refine stepOk_of (o := .done) (by simp only [cstep, e1, observe]; exact rfl)
        (by simp only [Spec.step]; rewrite [if_neg hg, if_neg hu]; exact rfl) fun _ => upd_rel h x ?_
      refine ⟨by rw [d1, r.rows], by rw [d2, r.cols], r.fitR, r.fitC, ?_, fun _ => w', ?_⟩
      · intro e; exact absurd e hh
      · intro _ i' j' hi' hj'
        rw [hc, r.bits hh' i' j' hi' hj']

theorem step_zeros (h : ∀ k, Rel (s k) (g k)) (x : Nat) :
    StepOk al s g (.zeros x) := by
  have r := h x
  by_cases hh : (g x).hollow = true
  · refine stepOk_of (o := .done) (by simp only [cstep, zeros_hollow (r.hollow hh), observe]; exact rfl) rfl
      fun _ => upd_rel h x ?_
    exact ⟨r.rows, r.cols, r.fitR, r.fitC, fun _ => r.hollow hh, fun e => by simp [hh] at e,
      fun e => by simp [hh] at e⟩
  · have hh' : (g x).hollow = false := by simpa using hh
    obtain ⟨m', e1, w', d1, d2, hc⟩ := zeros_ok (r.wf hh')
    refine stepOk_of (o := .done) (by simp only [cstep, e1, observe]; exact rfl) rfl fun _ => upd_rel h x ?_
    refine ⟨by rw [d1, r.rows], by rw [d2, r.cols], r.fitR, r.fitC, ?_, fun _ => w', ?_⟩
    · intro e; exact absurd e hh
    · intro _ i' j' hi' hj'
      simp only [cell]
      rw [hc i' (j' / 8) (by rw [r.rows]; exact hi') (by rw [r.cols]; exact div8_lt _ _ hj')]
      simp

theorem setRange_throw {m : BitMatrix} {i0 j0 i1 j1 : Nat} {v : Bool}
    (h : m.isize < i1 ∨ m.jsize < j1) : setRange i0 j0 i1 j1 v m = .throw .runtimeError m := by
  unfold setRange
  by_cases e : i1 < i0 ∨ m.isize < i1
  · rw [if_pos e]
  · rw [if_neg e, if_pos (by omega)]

theorem step_ones (h : ∀ k, Rel (s k) (g k)) (x : Nat) :
    StepOk al s g (.ones x) := by
  have r := h x
  by_cases hz : (g x).rows = 0 ∨ (g x).cols = 0
  · have : ones (s x) = .throw .runtimeError (s x) := by
      have w0 : 0 < subSz 0 1 := subSz_zero_one_pos
      apply setRange_throw
      by_cases e : (s x).isize = 0
      · left; rw [e]; exact w0
      · right; rw [show (s x).jsize = 0 by rw [r.cols]; rw [r.rows] at e; omega]; exact w0
    exact stepOk_of (o := .exn .runtimeError) (by show observe s x (ones (s x)) = _; rewrite [this]; exact rfl)
      (by simp only [Spec.step, hz, if_true]) fun _ => upd_same h x
  · have f1 : subSz (s x).isize 1 = (g x).rows - 1 := by
      rw [r.rows]; exact subSz_eq _ _ (by omega) r.fitR
    have f2 : subSz (s x).jsize 1 = (g x).cols - 1 := by
      rw [r.cols]; exact subSz_eq _ _ (by omega) r.fitC
    have rr := r.rows
    have rc := r.cols
    by_cases hh : (g x).hollow = true
    · have : ones (s x) = .ub := by
        unfold ones; rewrite [f1, f2]
        exact setRange_hollow (r.hollow hh) true (by omega) (by omega) (by omega) (by omega)
      exact stepOk_ub (by show observe s x (ones (s x)) = _; rewrite [this]; exact rfl)
        (by simp only [Spec.step]; rw [if_neg hz, if_pos hh])
    · have hh' : (g x).hollow = false := by simpa using hh
      obtain ⟨m', e1, w', d1, d2, hc⟩ := setRange_ok (r.wf hh') (i0 := 0) (j0 := 0) (i1 := (g x).rows - 1)
        (j1 := (g x).cols - 1) true (by omega) (by omega) (by omega) (by omega)
        (by apply div8_lt; omega)
      have : ones (s x) = .ok () m' := by unfold ones; rewrite [f1, f2]; exact e1
      refine stepOk_of (o := .done) (by show observe s x (ones (s x)) = _; rewrite [this]; exact rfl)
        (by simp only [Spec.step]; rewrite [if_neg hz, if_neg hh]; exact rfl) fun _ => upd_rel h x ?_
      refine ⟨by rw [d1, r.rows], by rw [d2, r.cols], r.fitR, r.fitC, ?_, fun _ => w', ?_⟩
      · intro e; exact absurd e hh
      · intro _ i' j' hi' hj'
        have hi2 : i' < (g x).rows := hi'
        have hj2 : j' < (g x).cols := hj'
        rw [hc, if_pos (by omega)]

theorem randm_hollow {m : BitMatrix} (hm : m.bitmap = []) (engine : Nat → Nat → Nat) (now : Nat) :
    randm engine now m = if 0 < m.isize ∧ 0 < m.jsize then .ub else .ok () m := by
  by_cases h : 0 < m.isize ∧ 0 < m.jsize
  · rw [if_pos h]
    have : (M.loop 0 m.isize fun i => M.loop 0 m.jsize fun j => randStep (engine now) i j) ⟨m, 0⟩ = .ub := by
      refine loop_ub (fun t => t.m.bitmap = []) 0 ?_ _ _ _ (Nat.le_refl _) (by omega) hm ?_
      · intro t ht
        refine loop_ub (fun t => t.m.bitmap = []) 0 ?_ _ _ _ (Nat.le_refl _) (by omega) ht ?_
        · intro u hu
          simp only [randStep, unsafeSet, writeByte_ub (read_hollow hu _ _)]
        · intro i t a b; omega
      · intro i t a b; omega
    simp only [randm, this]
  · rw [if_neg h]
    have : (M.loop 0 m.isize fun i => M.loop 0 m.jsize fun j => randStep (engine now) i j) ⟨m, 0⟩
        = .ok () ⟨m, 0⟩ := by
      obtain ⟨t, e, ht⟩ := M.loop_inv
        (body := fun i => M.loop 0 m.jsize fun j => randStep (engine now) i j)
        (fun _ t => t = (⟨m, 0⟩ : RandSt)) m.isize 0 ⟨m, 0⟩ rfl (by
          intro i t _ hi ht
          have hj : m.jsize = 0 := by omega
          exact ⟨t, by rw [hj]; rfl, ht⟩)
      rw [e, ht]
    simp only [randm, this]

theorem step_randm (h : ∀ k, Rel (s k) (g k)) (x : Nat) (engine : Nat → Nat → Nat) (now : Nat) :
    StepOk al s g (.randm x engine now) := by
  have r := h x
  have rr := r.rows
  have rc := r.cols
  by_cases hh : (g x).hollow = true
  · have e := randm_hollow (r.hollow hh) engine now
    by_cases hp : 0 < (g x).rows ∧ 0 < (g x).cols
    · rw [if_pos (by rw [rr, rc]; exact hp)] at e
      exact stepOk_ub (by simp only [cstep, e, observe]; rfl)
        (by simp only [Spec.step]; rw [if_pos ⟨hh, hp⟩])
    · rw [if_neg (by rw [rr, rc]; exact hp)] at e
      refine stepOk_of (o := .done) (by simp only [cstep, e, observe]; exact rfl)
        (by simp only [Spec.step]; rewrite [if_neg (fun q => hp q.2)]; exact rfl) fun _ => upd_rel h x ?_
      exact ⟨rr, rc, r.fitR, r.fitC, fun _ => r.hollow hh, fun e => by simp [hh] at e,
        fun e => by simp [hh] at e⟩
  · have hh' : (g x).hollow = false := by simpa using hh
    obtain ⟨m', e1, w', d1, d2, hc⟩ := randm_ok (r.wf hh') engine now
    refine stepOk_of (o := .done) (by simp only [cstep, e1, observe]; exact rfl)
      (by simp only [Spec.step]; rewrite [if_neg (fun q => hh q.1)]; exact rfl) fun _ => upd_rel h x ?_
    refine ⟨by rw [d1, rr], by rw [d2, rc], r.fitR, r.fitC, ?_, fun _ => w', ?_⟩
    · intro e; exact absurd e hh
    · intro _ i' j' hi' hj'
      have hi2 : i' < (g x).rows := hi'
      have hj2 : j' < (g x).cols := hj'
      rw [hc, if_pos (by omega), rc]

theorem step_resize (hal : ∀ r c, al r c = none) (h : ∀ k, Rel (s k) (g k)) (x r c : Nat)
    (hf : (Op.resize x r c).fits) : StepOk al s g (.resize x r c) := by
  by_cases hz : r = 0 ∨ c = 0
  · have : resize al r c (s x) = .throw .runtimeError (s x) := by simp only [resize, hz, if_true]
    exact stepOk_of (o := .exn .runtimeError) (by simp only [cstep, this, observe])
      (by simp only [Spec.step, hz, if_true]) fun _ => upd_same h x
  · have : resize al r c (s x) = .ok () (new al r c) := by
      simp only [resize, hz, if_false, V2.resize, hal, new]
    exact stepOk_of (o := .done) (by simp only [cstep, this, observe])
      (by simp only [Spec.step, hz, if_false]) fun _ => upd_rel h x (rel_zero (hal _ _) hf.1 hf.2)

theorem step_get (h : ∀ k, Rel (s k) (g k)) (x i j : Nat) :
    StepOk al s g (.get x i j) := by
  have r := h x
  by_cases hb : i < (g x).rows ∧ j < (g x).cols
  · by_cases hh : (g x).hollow = true
    · have : get (s x) i j = .ub := by
        have hn : ¬ ((s x).isize ≤ i ∨ (s x).jsize ≤ j) := by rw [r.rows, r.cols]; omega
        simp [get, hn, read_hollow (r.hollow hh)]
      exact stepOk_ub (by simp only [cstep, this]; rfl)
        (by simp only [Spec.step]; rw [if_pos hb, if_pos hh])
    · have hh' : (g x).hollow = false := by simpa using hh
      have e := get_eq (r.wf hh') (i := i) (j := j) (by rw [r.rows]; exact hb.1) (by rw [r.cols]; exact hb.2)
      rw [r.bits hh' i j hb.1 hb.2] at e
      exact stepOk_of (o := .bit ((g x).bit i j)) (by simp only [cstep, e])
        (by simp only [Spec.step]; rw [if_pos hb, if_neg hh]) fun _ => h
  · have : get (s x) i j = .throw .runtimeError := by
      have hn : (s x).isize ≤ i ∨ (s x).jsize ≤ j := by rw [r.rows, r.cols]; omega
      simp [get, hn]
    exact stepOk_of (o := .exn .runtimeError) (by simp only [cstep, this])
      (by simp only [Spec.step, hb, if_false]) fun _ => h

theorem step_size (h : ∀ k, Rel (s k) (g k)) (x : Nat) : StepOk al s g (.size x) :=
  stepOk_of (o := .size (g x).rows (g x).cols) (by simp only [cstep, (h x).rows, (h x).cols]) rfl
    fun _ => h

theorem step_isBad (h : ∀ k, Rel (s k) (g k)) (x : Nat) : StepOk al s g (.isBad x) := by
  have r := h x
  have : opNot (s x) = ((g x).hollow || (g x).rows == 0 || (g x).cols == 0) := by
    by_cases hh : (g x).hollow = true
    · rw [opNot_hollow (r.hollow hh), hh]; simp
    · have hh' : (g x).hollow = false := by simpa using hh
      rw [opNot_eq (r.wf hh'), r.rows, r.cols, hh']; simp
  exact stepOk_of (by simp only [cstep, this]) rfl fun _ => h

theorem step_sim (hal : ∀ r c, al r c = none) (h : ∀ k, Rel (s k) (g k)) (op : Op) (hf : op.fits) :
    StepOk al s g op := by
  cases op with
  | new x r c => exact step_new hal h x r c hf
  | copy x y => exact step_copy h x y
  | move x y => exact step_move h x y
  | xor x y z => exact step_xor hal h x y z
  | set x i j v => exact step_set h x i j v
  | setByte x i jb b => exact step_setByte h x i jb b
  | setRange x i0 j0 i1 j1 v => exact step_setRange h x i0 j0 i1 j1 v
  | zeros x => exact step_zeros h x
  | ones x => exact step_ones h x
  | randm x engine now => exact step_randm h x engine now
  | resize x r c => exact step_resize hal h x r c hf
  | get x i j => exact step_get h x i j
  | size x => exact step_size h x
  | isBad x => exact step_isBad h x

theorem trace_eq (al : Alloc) (hal : ∀ r c, al r c = none) (ops : List Op) :
    ∀ (s : CStore) (g : Store), (∀ k, Rel (s k) (g k)) → (∀ op ∈ ops, op.fits) →
      ctrace al s ops = Spec.trace g ops := by
  induction ops with
  | nil => intros; rfl
  | cons op ops ih =>
    intro s g h hf
    obtain ⟨h1, h2⟩ := step_sim hal h op (hf op (by simp))
    simp only [ctrace, Spec.trace]
    cases hc : cstep al s op with
    | mk o s' =>
      cases hg : Spec.step g op with
      | mk o' g' =>
        rw [hc, hg] at h1
        rw [hc, hg] at h2
        simp only at h1 h2
        subst h1
        cases o <;> first | rfl | (simp only []; rw [ih s' g' (h2 (by simp)) (fun op' hm => hf op' (by simp [hm]))])

end Verif.BitMatrix
