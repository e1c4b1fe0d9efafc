import Verif.Proofs.BitMatrix

/-! Further helper lemmas: constructors, whole-matrix operations, XOR. -/

namespace Verif.BitMatrix
open Verif.ByteHandler

theorem new_eq {al : Alloc} {r c : Nat} (h : al r (bytesPerRow c) = none) :
    new al r c = ⟨List.replicate r (List.replicate (bytesPerRow c) 0), r, c⟩ := by
  simp [new, V2.resize, h]

theorem zeroMat_wf (r c : Nat) :
    WF ⟨List.replicate r (List.replicate (bytesPerRow c) 0), r, c⟩ := by
  constructor
  · simp
  · intro row hr
    simp only [List.mem_replicate] at hr
    simp [hr.2]

theorem zeroMat_byteAt (r c i jb : Nat) :
    byteAt ⟨List.replicate r (List.replicate (bytesPerRow c) 0), r, c⟩ i jb = 0 := by
  simp only [byteAt, List.getD_eq_getElem?_getD, List.getElem?_replicate]
  split
  · simp only [Option.getD_some, List.getElem?_replicate]; split <;> rfl
  · simp

theorem zeroMat_cell (r c i j : Nat) :
    cell ⟨List.replicate r (List.replicate (bytesPerRow c) 0), r, c⟩ i j = false := by
  simp [cell, zeroMat_byteAt]

theorem bytesPerRow_pos {j : Nat} (h : 0 < j) : 0 < bytesPerRow j := by
  rw [bytesPerRow_eq]; omega

theorem colCount_eq {m : BitMatrix} (h : WF m) (hi : 0 < m.isize) :
    V2.colCount m.bitmap = .ok (bytesPerRow m.jsize) := by
  obtain ⟨row, h1, h2⟩ := h.row_len hi
  cases hb : m.bitmap with
  | nil => simp [hb] at h1
  | cons r rs =>
    simp [hb] at h1
    subst h1
    simp [V2.colCount, h2]

theorem opNot_eq {m : BitMatrix} (h : WF m) :
    opNot m = (m.isize == 0 || m.jsize == 0) := by
  by_cases hi : m.isize = 0
  · have : m.bitmap = [] := by
      apply List.eq_nil_of_length_eq_zero; rw [h.1, hi]
    simp [opNot, hi, V2.opNot, V2.checkParameters, this]
  · by_cases hj : m.jsize = 0
    · simp [opNot, hj]
    · have hc : V2.checkParameters m.bitmap = true := by
        cases hb : m.bitmap with
        | nil => exact absurd (by rw [← h.1, hb]; rfl) hi
        | cons r rs =>
          have hlen : ∀ row ∈ m.bitmap, row.length = bytesPerRow m.jsize := h.2
          rw [hb] at hlen
          simp only [V2.checkParameters, List.all_eq_true]
          intro row hr
          have h1 := hlen row hr
          have h2 := hlen r (by simp)
          have := bytesPerRow_pos (Nat.pos_of_ne_zero hj)
          simp [h1, h2]; omega
      simp [opNot, V2.opNot, hc, hi, hj]

theorem opNot_hollow {m : BitMatrix} (h : m.bitmap = []) : opNot m = true := by
  simp [opNot, h, V2.opNot, V2.checkParameters]

/-- byte-level painting -/
def PaintedB (m m' : BitMatrix) (P : Nat → Nat → Prop) [∀ i j, Decidable (P i j)]
    (v : Nat → Nat → UInt8) : Prop :=
  WF m' ∧ m'.isize = m.isize ∧ m'.jsize = m.jsize ∧
    ∀ i j, byteAt m' i j = if P i j then v i j else byteAt m i j

/-- the double loop of byte writes over the rows `[0,p)` and bytes `[0,q)` -/
theorem paint_bytes {m : BitMatrix} (h : WF m) {p q : Nat} (v : Nat → Nat → UInt8)
    (body : Nat → Nat → M BitMatrix Unit)
    (hbody : ∀ i j (t : BitMatrix), i < p → j < q → WF t →
      t.isize = m.isize → t.jsize = m.jsize →
      ∃ t', body i j t = .ok () t' ∧ PaintedB t t' (fun i' j' => i' = i ∧ j' = j) v) :
    ∃ m', M.loop 0 p (fun i => M.loop 0 q (body i)) m = .ok () m' ∧
      PaintedB m m' (fun i j => i < p ∧ j < q) v := by
  have rowL : ∀ i t, i < p → WF t → t.isize = m.isize → t.jsize = m.jsize →
      ∃ t', M.loop 0 q (body i) t = .ok () t' ∧ PaintedB t t' (fun i' j' => i' = i ∧ j' < q) v := by
    intro i t hi w d1 d2
    have := M.loop_inv (body := body i)
      (fun k (u : BitMatrix) => PaintedB t u (fun i' j' => i' = i ∧ j' < k) v) q 0 t
      ⟨w, rfl, rfl, by intro i' j'; rw [if_neg]; omega⟩
      (by
        intro k u _ hk ⟨wu, e1, e2, hc⟩
        obtain ⟨u', hu', wu', e1', e2', hc'⟩ := hbody i k u hi (by omega) wu (e1.trans d1) (e2.trans d2)
        refine ⟨u', hu', wu', e1'.trans e1, e2'.trans e2, ?_⟩
        intro i' j'
        rw [hc', hc]
        by_cases e : i' = i ∧ j' = k
        · rw [if_pos e, if_pos ⟨e.1, by omega⟩]
        · rw [if_neg e]
          by_cases e2 : i' = i ∧ j' < k
          · rw [if_pos e2, if_pos ⟨e2.1, by omega⟩]
          · rw [if_neg e2, if_neg]; omega)
    simpa using this
  have := M.loop_inv (body := fun i => M.loop 0 q (body i))
    (fun k (t : BitMatrix) => PaintedB m t (fun i j => i < k ∧ j < q) v) p 0 m
    ⟨h, rfl, rfl, by intro i' j'; rw [if_neg]; omega⟩
    (by
      intro k t _ hk ⟨w, d1, d2, hc⟩
      obtain ⟨t', ht', w', d1', d2', hc'⟩ := rowL k t (by omega) w d1 d2
      refine ⟨t', ht', w', d1'.trans d1, d2'.trans d2, ?_⟩
      intro i' j'
      rw [hc', hc]
      by_cases e : i' = k ∧ j' < q
      · rw [if_pos e, if_pos (by omega)]
      · rw [if_neg e]
        by_cases e2 : i' < k ∧ j' < q
        · rw [if_pos e2, if_pos (by omega)]
        · rw [if_neg e2, if_neg]; omega)
  simpa using this

theorem writeByte_paint {m : BitMatrix} (h : WF m) {i jb : Nat} (hi : i < m.isize)
    (hj : jb < bytesPerRow m.jsize) (v : Nat → Nat → UInt8) :
    ∃ m', writeByte i jb (fun _ => .ok (v i jb)) m = .ok () m' ∧
      PaintedB m m' (fun i' j' => i' = i ∧ j' = jb) v := by
  obtain ⟨m', h1, h2, h3, h4, h5⟩ := writeByte_ok h hi hj
    (f := fun _ => .ok (v i jb)) (b' := v i jb) rfl
  refine ⟨m', h1, h2, h3, h4, ?_⟩
  intro i' j'
  rw [h5]
  by_cases e : i' = i ∧ j' = jb
  · rw [if_pos e, if_pos e, e.1, e.2]
  · rw [if_neg e, if_neg e]

/-- Congruence for loops: same body on the states that satisfy an invariant. -/
theorem loop_congr {σ : Type} {b1 b2 : Nat → M σ Unit} (Inv : σ → Prop) :
    ∀ (n start : Nat) (s : σ), Inv s →
      (∀ i t, start ≤ i → i < start + n → Inv t → b1 i t = b2 i t) →
      (∀ i t t', start ≤ i → i < start + n → Inv t → b2 i t = .ok () t' → Inv t') →
      M.loop start n b1 s = M.loop start n b2 s := by
  intro n
  induction n with
  | zero => intros; rfl
  | succ n ih =>
    intro start s hs he hp
    simp only [M.loop, M.run_bind]
    rw [he start s (Nat.le_refl _) (by omega) hs]
    cases hb : b2 start s with
    | ok a s' =>
      exact ih (start + 1) s' (hp start s s' (Nat.le_refl _) (by omega) hs hb)
        (fun i t a b c => he i t (by omega) (by omega) c)
        (fun i t t' a b c => hp i t t' (by omega) (by omega) c)
    | throw e s' => rfl
    | ub => rfl

theorem zeros_ok {m : BitMatrix} (h : WF m) :
    ∃ m', zeros m = .ok () m' ∧ WF m' ∧ m'.isize = m.isize ∧ m'.jsize = m.jsize ∧
      ∀ i jb, i < m.isize → jb < bytesPerRow m.jsize → byteAt m' i jb = 0 := by
  have key := M.loop_inv
    (body := fun i => fun m' : BitMatrix =>
      match V2.colCount m'.bitmap with
      | .ok c => (M.loop 0 c fun j => writeByte i j (fun _ => .ok 0)) m'
      | .throw e => .throw e m'
      | .ub => .ub)
    (fun k (t : BitMatrix) => PaintedB m t (fun i j => i < k ∧ j < bytesPerRow m.jsize) (fun _ _ => 0))
    m.bitmap.length 0 m
    ⟨h, rfl, rfl, by intro i' j'; rw [if_neg]; omega⟩
    (by
      intro k t _ hk ⟨w, d1, d2, hc⟩
      have hk' : k < t.isize := by rw [d1, ← h.1]; omega
      simp only [colCount_eq w (by omega)]
      have row := M.loop_inv (body := fun j => writeByte k j (fun _ => Res.ok 0))
        (fun q (u : BitMatrix) => PaintedB t u (fun i j => i = k ∧ j < q) (fun _ _ => 0))
        (bytesPerRow t.jsize) 0 t ⟨w, rfl, rfl, by intro i' j'; rw [if_neg]; omega⟩
        (by
          intro q u _ hq ⟨wu, e1, e2, hcu⟩
          obtain ⟨u', hu', wu', e1', e2', hcu'⟩ := writeByte_paint (i := k) (jb := q) wu (by omega)
            (by rw [e2]; omega) (fun _ _ => 0)
          refine ⟨u', hu', wu', e1'.trans e1, e2'.trans e2, ?_⟩
          intro i' j'
          rw [hcu', hcu]
          by_cases e : i' = k ∧ j' = q
          · rw [if_pos e, if_pos (by omega)]
          · rw [if_neg e]
            by_cases e3 : i' = k ∧ j' < q
            · rw [if_pos e3, if_pos (by omega)]
            · rw [if_neg e3, if_neg (by omega)])
      obtain ⟨t', ht', w', d1', d2', hc'⟩ := row
      refine ⟨t', ht', w', d1'.trans d1, d2'.trans d2, ?_⟩
      intro i' j'
      rw [hc', hc, d2]
      by_cases e : i' = k ∧ j' < bytesPerRow m.jsize
      · rw [if_pos (by omega), if_pos (by omega)]
      · rw [if_neg (by omega)]
        by_cases e2 : i' < k ∧ j' < bytesPerRow m.jsize
        · rw [if_pos e2, if_pos (by omega)]
        · rw [if_neg e2, if_neg (by omega)])
  obtain ⟨m', hm', w, d1, d2, hc⟩ := key
  refine ⟨m', hm', w, d1, d2, ?_⟩
  intro i jb hi hj
  rw [hc, if_pos ⟨by rw [h.1]; omega, hj⟩]

theorem zeros_hollow {m : BitMatrix} (h : m.bitmap = []) : zeros m = .ok () m := by
  simp [zeros, V2.rowCount, h, M.loop]

theorem xor_ok {al : Alloc} {a b : BitMatrix} (ha : WF a) (hb : WF b)
    (hi : a.isize = b.isize) (hj : a.jsize = b.jsize) (hi0 : 0 < a.isize) (hj0 : 0 < a.jsize)
    (hal : al a.isize (bytesPerRow a.jsize) = none) :
    ∃ m, xor al a b = .ok m ∧ WF m ∧ m.isize = a.isize ∧ m.jsize = a.jsize ∧
      ∀ i jb, i < a.isize → jb < bytesPerRow a.jsize → byteAt m i jb = byteAt a i jb ^^^ byteAt b i jb := by
  have hs : ¬ (a.jsize ≠ b.jsize ∨ a.isize ≠ b.isize) := by omega
  have hw := zeroMat_wf a.isize a.jsize
  have hn : opNot (new al a.isize a.jsize) = false := by
    rw [new_eq hal, opNot_eq hw]; simp; omega
  have hbr : b.bitmap.length = a.isize := by rw [hb.1, hi]
  obtain ⟨m, hm, w, d1, d2, hc⟩ := paint_bytes (p := a.isize) (q := bytesPerRow a.jsize) hw
    (fun i j => byteAt a i j ^^^ byteAt b i j)
    (fun i j m => match V2.read a.bitmap i j, V2.read b.bitmap i j with
            | .ok x, .ok y => writeByte i j (fun _ => .ok (x ^^^ y)) m
            | _, _ => .ub)
    (by
      intro i j t hi' hj' wt e1 e2
      simp only [read_ok ha hi' hj', read_ok hb (show i < b.isize by omega) (by rw [← hj]; exact hj')]
      exact writeByte_paint wt (by rw [e1]; exact hi') (by rw [e2]; exact hj')
        (fun i j => byteAt a i j ^^^ byteAt b i j))
  refine ⟨m, ?_, w, d1, d2, ?_⟩
  · simp only [xor, hs, if_false, hn, Bool.false_eq_true, V2.rowCount, ha.1, colCount_eq ha hi0]
    rw [new_eq hal]
    exact congrArg Out.toRes hm
  · intro i jb h1 h2
    rw [hc, if_pos ⟨h1, h2⟩]

theorem randm_ok {m : BitMatrix} (w : WF m) (engine : Nat → Nat → Nat) (now : Nat) :
    ∃ m', randm engine now m = .ok () m' ∧
      Painted m m' (fun i j => i < m.isize ∧ j < m.jsize)
        (fun i j => decide (engine now (i * m.jsize + j) % 2 = 0)) := by
  let v : Nat → Nat → Bool := fun i j => decide (engine now (i * m.jsize + j) % 2 = 0)
  obtain ⟨s, e, ⟨w', d1, d2, hc⟩, -⟩ := M.loop_inv
    (body := fun i => M.loop 0 m.jsize fun j => randStep (engine now) i j)
    (fun k (s : RandSt) => Painted m s.m (fun i j => i < k ∧ j < m.jsize) v ∧ s.drawn = k * m.jsize)
    m.isize 0 ⟨m, 0⟩
    ⟨⟨w, rfl, rfl, by intro i j; rw [if_neg]; omega⟩, by simp⟩
    (by
      intro i t _ hi ⟨⟨w1, a1, a2, ac⟩, hd⟩
      obtain ⟨t', e', ⟨w2, b1, b2, bc⟩, hd'⟩ := M.loop_inv
        (body := fun j => randStep (engine now) i j)
        (fun k (s : RandSt) =>
          Painted t.m s.m (fun i' j => i' = i ∧ j < k) v ∧ s.drawn = i * m.jsize + k)
        m.jsize 0 t
        ⟨⟨w1, rfl, rfl, by intro i' j; rw [if_neg]; omega⟩, by simpa using hd⟩
        (by
          intro j u _ hj ⟨⟨w3, c1, c2, cc⟩, hu⟩
          obtain ⟨u', eu, q1, q2, q3, q4⟩ := unsafeSet_ok w3 (i := i) (j := j)
            (engine now u.drawn % 2 == 0) (by omega) (div8_lt _ _ (by omega))
          refine ⟨⟨u', u.drawn + 1⟩, by simp only [randStep, eu], ⟨q1, by simp only; omega, by simp only; omega, ?_⟩, by
            simp only; omega⟩
          intro i' j'
          simp only
          rw [q4, cc]
          by_cases h1 : i' = i ∧ j' = j
          · rw [if_pos h1, if_pos ⟨h1.1, by omega⟩, hu, h1.1, h1.2]; rfl
          · rw [if_neg h1]
            by_cases h2 : i' = i ∧ j' < j
            · rw [if_pos h2, if_pos ⟨h2.1, by omega⟩]
            · rw [if_neg h2, if_neg (by omega)])
      refine ⟨t', e', ⟨w2, by omega, by omega, ?_⟩, by rw [hd', Nat.add_mul]; omega⟩
      intro i' j'
      rw [bc, ac]
      by_cases h1 : i' = i ∧ j' < m.jsize
      · rw [if_pos (by omega), if_pos (by omega)]
      · rw [if_neg (by omega)]
        by_cases h2 : i' < i ∧ j' < m.jsize
        · rw [if_pos h2, if_pos (by omega)]
        · rw [if_neg h2, if_neg (by omega)])
  refine ⟨s.m, by simp only [randm, e], w', d1, d2, ?_⟩
  intro i j
  rw [hc]
  by_cases h : i < m.isize ∧ j < m.jsize
  · rw [if_pos h, if_pos (by omega)]
  · rw [if_neg h, if_neg (by omega)]

end Verif.BitMatrix
