import Verif.Proofs.BitMatrixRefine

/-!
Properties C05–C08 and C15–C16 of `BitMatrix`.

`Built m` is the independent notion of "a matrix a program can hold" used in the statements: obtained by
API calls that returned normally (allocation succeeding), without moving from it.
-/

namespace Verif.Props
open Verif BitMatrix
open Verif.Spec (Op Obs Grid)

/-- A matrix obtained through the public API (allocations succeeding, never moved from). -/
inductive Built : BitMatrix → Prop
  | default : Built BitMatrix.empty
  | new (r c : Nat) (hr : r < 2 ^ 64) (hc : c < 2 ^ 64) : Built (BitMatrix.new Alloc.ok r c)
  | set {m m' : BitMatrix} (h : Built m) {i j : Nat} {v : Bool} (e : BitMatrix.set i j v m = .ok () m') :
      Built m'
  | setByte {m m' : BitMatrix} (h : Built m) {i j : Nat} {b : UInt8}
      (e : BitMatrix.setByte i j b m = .ok () m') : Built m'
  | setRange {m m' : BitMatrix} (h : Built m) {i0 j0 i1 j1 : Nat} {v : Bool}
      (e : BitMatrix.setRange i0 j0 i1 j1 v m = .ok () m') : Built m'
  | zeros {m m' : BitMatrix} (h : Built m) (e : BitMatrix.zeros m = .ok () m') : Built m'
  | ones {m m' : BitMatrix} (h : Built m) (e : BitMatrix.ones m = .ok () m') : Built m'
  | randm {m m' : BitMatrix} (h : Built m) {engine : Nat → Nat → Nat} {now : Nat}
      (e : BitMatrix.randm engine now m = .ok () m') : Built m'
  | resize {m m' : BitMatrix} (h : Built m) {r c : Nat} (hr : r < 2 ^ 64) (hc : c < 2 ^ 64)
      (e : BitMatrix.resize Alloc.ok r c m = .ok () m') : Built m'
  | xor {a b m : BitMatrix} (ha : Built a) (hb : Built b) (e : BitMatrix.xor Alloc.ok a b = .ok m) : Built m

theorem Built.inv {m : BitMatrix} (h : Built m) : WF m ∧ m.isize < 2 ^ 64 ∧ m.jsize < 2 ^ 64 := by
  -- every constructor is one step of the refinement proof
  have key : ∃ g : Grid, g.hollow = false ∧ Rel m g := by
    have hal : ∀ r c, Alloc.ok r c = none := fun _ _ => rfl
    have un : ∀ {m m' : BitMatrix} {g : Grid} (op : Op), g.hollow = false → Rel m g → op.fits →
        cstep Alloc.ok (fun _ => m) op = (.done, Spec.upd (fun _ => m) 0 m') →
        ((Spec.step (fun _ => g) op).1 = .done → ((Spec.step (fun _ => g) op).2 0).hollow = false) →
        ∃ g', Grid.hollow g' = false ∧ Rel m' g' := by
      intro m m' g op hg r hf hc hh
      obtain ⟨h1, h2⟩ := step_sim hal (s := fun _ => m) (g := fun _ => g) (fun _ => r) op hf
      rw [hc] at h1 h2
      have := h2 (by rw [← h1]; simp) 0
      exact ⟨_, hh h1.symm, by simpa [Spec.upd] using this⟩
    induction h with
    | default =>
      have := rel_zero (al := Alloc.ok) (r := 0) (c := 0) rfl (by decide) (by decide)
      rw [new_eq (al := Alloc.ok) rfl] at this
      exact ⟨Grid.zero 0 0, rfl, this⟩
    | new r c hr hc => exact ⟨Grid.zero r c, rfl, rel_zero rfl hr hc⟩
    | set h e ih =>
      obtain ⟨g, hg, r⟩ := ih
      rename_i m m' i j v
      refine un (.set 0 i j v) hg r trivial (by simp only [cstep]; rw [e]; rfl) ?_
      simp only [Spec.step]; intro hd
      split at hd <;> simp_all [Spec.upd]
    | setByte h e ih =>
      obtain ⟨g, hg, r⟩ := ih
      rename_i m m' i j b
      refine un (.setByte 0 i j b) hg r trivial (by simp only [cstep]; rw [e]; rfl) ?_
      simp only [Spec.step]; intro hd
      split at hd
      · simp at hd
      · split at hd
        · simp at hd
        · split at hd
          · simp at hd
          · rename_i a b c; rw [if_neg a, if_neg b, if_neg c]; simpa [Spec.upd] using hg
    | setRange h e ih =>
      obtain ⟨g, hg, r⟩ := ih
      rename_i m m' i0 j0 i1 j1 v
      refine un (.setRange 0 i0 j0 i1 j1 v) hg r trivial (by simp only [cstep]; rw [e]; rfl) ?_
      simp only [Spec.step]; intro hd
      split at hd
      · simp at hd
      · split at hd
        · simp at hd
        · rename_i a b; rw [if_neg a, if_neg b]; simpa [Spec.upd] using hg
    | zeros h e ih =>
      obtain ⟨g, hg, r⟩ := ih
      refine un (.zeros 0) hg r trivial (by simp only [cstep]; rw [e]; rfl) ?_
      simp only [Spec.step]; intro _
      simpa [Spec.upd] using hg
    | ones h e ih =>
      obtain ⟨g, hg, r⟩ := ih
      rename_i m m'
      refine un (.ones 0) hg r trivial (by show observe _ 0 (BitMatrix.ones m) = _; rewrite [e]; exact rfl) ?_
      simp only [Spec.step]; intro hd
      split at hd <;> simp_all [Spec.upd]
    | randm h e ih =>
      obtain ⟨g, hg, r⟩ := ih
      rename_i m m' engine now
      refine un (.randm 0 engine now) hg r trivial (by simp only [cstep]; rw [e]; rfl) ?_
      simp only [Spec.step]; intro hd
      split at hd <;> simp_all [Spec.upd]
    | resize h hr hc e ih =>
      obtain ⟨g, hg, r'⟩ := ih
      rename_i m m' r c
      refine un (.resize 0 r c) hg r' ⟨hr, hc⟩ (by simp only [cstep]; rw [e]; rfl) ?_
      simp only [Spec.step]; intro hd
      split at hd <;> simp_all [Spec.upd, Grid.zero]
    | xor ha hb e iha ihb =>
      obtain ⟨ga, hga, ra⟩ := iha
      obtain ⟨gb, hgb, rb⟩ := ihb
      rename_i a b m
      let s : CStore := fun k => if k = 0 then a else b
      let g : Spec.Store := fun k => if k = 0 then ga else gb
      have hr : ∀ k, Rel (s k) (g k) := by
        intro k; by_cases hk : k = 0 <;> simp [s, g, hk, ra, rb]
      obtain ⟨h1, h2⟩ := step_sim hal hr (.xor 0 0 1) trivial
      have hs0 : s 0 = a := rfl
      have hs1 : s 1 = b := rfl
      have hc : cstep Alloc.ok s (.xor 0 0 1) = (.done, Spec.upd s 0 m) := by
        simp only [cstep, hs0, hs1, e]
      rw [hc] at h1 h2
      have h3 := h2 (by rw [← h1]; simp) 0
      refine ⟨_, ?_, by simpa [Spec.upd] using h3⟩
      have hg0 : g 0 = ga := rfl
      have hg1 : g 1 = gb := rfl
      simp only [Spec.step, hg0, hg1] at h1 ⊢
      split at h1
      · simp at h1
      · split at h1
        · simp at h1
        · rename_i p q
          rw [if_neg p, if_neg q]
          simp [hga, hgb, Spec.upd]
  obtain ⟨g, hg, r⟩ := key
  exact ⟨r.wf hg, by rw [r.rows]; exact r.fitR, by rw [r.cols]; exact r.fitC⟩

/-- **C05** For every history of API calls on any number of matrix variables (constructor, copy, move,
XOR, Set, SetByte, SetRange, Zeros, Ones, Resize, Get, sizes, `!`), as long as allocations succeed, the
caller observes exactly what the grid specification `Spec.step` says: the values read are the last ones
written, exceptions are the specified ones and leave the object usable and unchanged, and undefined
behaviour occurs exactly where the specification says so. -/
theorem C05_history (al : Alloc) (hal : ∀ r c, al r c = none) (ops : List Op)
    (hf : ∀ op ∈ ops, op.fits) :
    ctrace al (fun _ => BitMatrix.empty) ops = Spec.trace (fun _ => Grid.zero 0 0) ops := by
  apply trace_eq al hal ops _ _ _ hf
  intro k
  have := rel_zero (al := al) (r := 0) (c := 0) (hal _ _) (by decide) (by decide)
  rw [new_eq (hal _ _)] at this
  exact this

example : Spec.trace (fun _ => Grid.zero 0 0)
    [.new 0 3 10, .set 0 2 9 true, .copy 1 0, .set 0 2 9 false, .get 1 2 9, .get 0 2 9, .set 0 3 0 true,
      .move 2 1, .get 2 2 9, .get 1 0 0]
    = [.done, .done, .done, .done, .bit true, .bit false, .exn .runtimeError, .done, .bit true,
      .undefined] := by decide

/-- **C05** single object form: in-range `Set` then `Get`, with the frame condition. -/
theorem C05_set_get (m : BitMatrix) (hm : Built m) (i j : Nat) (v : Bool)
    (hi : i < m.isize) (hj : j < m.jsize) :
    ∃ m', BitMatrix.set i j v m = .ok () m' ∧ m'.isize = m.isize ∧ m'.jsize = m.jsize ∧
      BitMatrix.get m' i j = .ok v ∧
      ∀ i' j', (i', j') ≠ (i, j) → BitMatrix.get m' i' j' = BitMatrix.get m i' j' := by
  obtain ⟨w, _, _⟩ := hm.inv
  obtain ⟨m', h1, w', d1, d2, hc⟩ := set_ok w v hi hj
  refine ⟨m', h1, d1, d2, ?_, ?_⟩
  · rw [get_eq w' (by omega) (by omega), hc]; simp
  · intro i' j' hne
    by_cases hr : i' < m.isize ∧ j' < m.jsize
    · rw [get_eq w' (by omega) (by omega), get_eq w hr.1 hr.2, hc, if_neg]
      intro ⟨a, b⟩; exact hne (by rw [a, b])
    · have g1 : m.isize ≤ i' ∨ m.jsize ≤ j' := by omega
      have g2 : m'.isize ≤ i' ∨ m'.jsize ≤ j' := by omega
      simp [BitMatrix.get, g1, g2]

/-- **C05** out-of-range access throws `runtime_error` and leaves the object unchanged. -/
theorem C05_out_of_range (m : BitMatrix) (i j : Nat) (v : Bool) (h : m.isize ≤ i ∨ m.jsize ≤ j) :
    BitMatrix.get m i j = .throw .runtimeError ∧
      BitMatrix.set i j v m = .throw .runtimeError m := by
  simp [BitMatrix.get, BitMatrix.set, h]

/-- **C05** in-range `Get` on a built matrix always returns a bit (no exception, no UB). -/
theorem C05_get_total (m : BitMatrix) (hm : Built m) (i j : Nat) (hi : i < m.isize) (hj : j < m.jsize) :
    ∃ b, BitMatrix.get m i j = .ok b := ⟨_, get_eq hm.inv.1 hi hj⟩

/-- **C06** `SetRange` inside the matrix makes exactly the closed rectangle equal to `v`. -/
theorem C06_setRange (m : BitMatrix) (hm : Built m) (i0 j0 i1 j1 : Nat) (v : Bool)
    (h1 : i0 ≤ i1) (h2 : i1 < m.isize) (h3 : j0 ≤ j1) (h4 : j1 < m.jsize) :
    ∃ m', BitMatrix.setRange i0 j0 i1 j1 v m = .ok () m' ∧ m'.isize = m.isize ∧ m'.jsize = m.jsize ∧
      ∀ i j, i < m.isize → j < m.jsize → BitMatrix.get m' i j =
        if i0 ≤ i ∧ i ≤ i1 ∧ j0 ≤ j ∧ j ≤ j1 then .ok v else BitMatrix.get m i j := by
  obtain ⟨w, _, _⟩ := hm.inv
  obtain ⟨m', e, w', d1, d2, hc⟩ := setRange_ok w v h1 h2 h3 (by omega) (div8_lt _ _ h4)
  refine ⟨m', e, d1, d2, ?_⟩
  intro i j hi hj
  rw [get_eq w' (by omega) (by omega), get_eq w hi hj, hc]
  split <;> rfl

/-- **C06** reversed ranges and ends beyond the size throw `runtime_error`, object unchanged. -/
theorem C06_setRange_throws (m : BitMatrix) (i0 j0 i1 j1 : Nat) (v : Bool)
    (h : i1 < i0 ∨ m.isize < i1 ∨ j1 < j0 ∨ m.jsize < j1) :
    BitMatrix.setRange i0 j0 i1 j1 v m = .throw .runtimeError m := by
  unfold BitMatrix.setRange
  by_cases e : i1 < i0 ∨ m.isize < i1
  · rw [if_pos e]
  · rw [if_neg e, if_pos (by omega)]

/-- **C06** (the off-by-one the guard lets through) `i1 = rows`, or `j1 = cols` with `cols` a multiple
of 8, is UB; `j1 = cols` otherwise is accepted and, inside the matrix, has the effect of `j1 = cols-1`. -/
theorem C06_setRange_border (m : BitMatrix) (hm : Built m) (i0 j0 i1 j1 : Nat) (v : Bool)
    (h1 : i0 ≤ i1) (h3 : j0 ≤ j1) (h2 : i1 ≤ m.isize) (h4 : j1 ≤ m.jsize) :
    ((i1 = m.isize ∨ (j1 = m.jsize ∧ m.jsize % 8 = 0)) ↔
      BitMatrix.setRange i0 j0 i1 j1 v m = .ub) ∧
    (i1 < m.isize → j1 = m.jsize → m.jsize % 8 ≠ 0 →
      ∃ m', BitMatrix.setRange i0 j0 i1 j1 v m = .ok () m' ∧
        ∀ i j, i < m.isize → j < m.jsize → BitMatrix.get m' i j =
          if i0 ≤ i ∧ i ≤ i1 ∧ j0 ≤ j then .ok v else BitMatrix.get m i j) := by
  obtain ⟨w, _, _⟩ := hm.inv
  constructor
  · constructor
    · intro h
      apply setRange_ub w v h1 h3 h2 h4
      rw [bytesPerRow_eq]; omega
    · intro h
      by_cases hc : i1 = m.isize ∨ (j1 = m.jsize ∧ m.jsize % 8 = 0)
      · exact hc
      · obtain ⟨m', e, _⟩ := setRange_ok w (i0 := i0) (j0 := j0) v h1 (by omega) h3 h4
          (by rw [bytesPerRow_eq]; omega)
        rw [e] at h; cases h
  · intro hi hj h8
    obtain ⟨m', e, w', d1, d2, hc⟩ := setRange_ok w (i0 := i0) (j0 := j0) v h1 hi h3 h4
      (by rw [bytesPerRow_eq]; omega)
    refine ⟨m', e, ?_⟩
    intro i j hi' hj'
    rw [get_eq w' (by omega) (by omega), get_eq w hi' hj', hc]
    by_cases p : i0 ≤ i ∧ i ≤ i1 ∧ j0 ≤ j
    · rw [if_pos p, if_pos (by omega)]
    · rw [if_neg p, if_neg (by omega)]

/-- **C07** after `Ones()` on a non-degenerate matrix every cell reads `true`. -/
theorem C07_ones (m : BitMatrix) (hm : Built m) (hi : 0 < m.isize) (hj : 0 < m.jsize) :
    ∃ m', BitMatrix.ones m = .ok () m' ∧ m'.isize = m.isize ∧ m'.jsize = m.jsize ∧
      ∀ i j, i < m.isize → j < m.jsize → BitMatrix.get m' i j = .ok true := by
  obtain ⟨w, f1, f2⟩ := hm.inv
  obtain ⟨m', e, w', d1, d2, hc⟩ := setRange_ok w (i0 := 0) (j0 := 0) (i1 := m.isize - 1)
    (j1 := m.jsize - 1) true (by omega) (by omega) (by omega) (by omega) (by apply div8_lt; omega)
  refine ⟨m', ?_, d1, d2, ?_⟩
  · unfold BitMatrix.ones
    rw [subSz_eq _ _ (by omega) f1, subSz_eq _ _ (by omega) f2]
    exact e
  · intro i j hi' hj'
    rw [get_eq w' (by omega) (by omega), hc, if_pos (by omega)]

/-- **C07** `Ones()` on a matrix with a zero dimension throws `runtime_error` (the wrapped bound is
rejected), leaving it unchanged. -/
theorem C07_ones_degenerate (m : BitMatrix) (h : m.isize = 0 ∨ m.jsize = 0) :
    BitMatrix.ones m = .throw .runtimeError m := by
  have w0 : 0 < subSz 0 1 := subSz_zero_one_pos
  apply setRange_throw
  rcases h with e | e
  · left; rw [e]; exact w0
  · right; rw [e]; exact w0

/-- **C07** after `Zeros()` every cell reads `false`. -/
theorem C07_zeros (m : BitMatrix) (hm : Built m) :
    ∃ m', BitMatrix.zeros m = .ok () m' ∧ m'.isize = m.isize ∧ m'.jsize = m.jsize ∧
      ∀ i j, i < m.isize → j < m.jsize → BitMatrix.get m' i j = .ok false := by
  obtain ⟨w, f1, f2⟩ := hm.inv
  obtain ⟨m', e, w', d1, d2, hc⟩ := zeros_ok w
  refine ⟨m', e, d1, d2, ?_⟩
  intro i j hi hj
  rw [get_eq w' (by omega) (by omega)]
  simp only [cell]
  rw [hc i (j / 8) hi (div8_lt _ _ hj)]
  simp

/-- **C07** `Resize(r,c)` with positive arguments gives an `r×c` all-zero matrix whatever the object was
before (even a moved-from one); a zero argument throws and changes nothing. -/
theorem C07_resize (al : Alloc) (m : BitMatrix) (r c : Nat) (hal : al r (bytesPerRow c) = none) :
    (0 < r → 0 < c → ∃ m', BitMatrix.resize al r c m = .ok () m' ∧ m'.isize = r ∧ m'.jsize = c ∧
      ∀ i j, i < r → j < c → BitMatrix.get m' i j = .ok false) ∧
    (r = 0 ∨ c = 0 → BitMatrix.resize al r c m = .throw .runtimeError m) := by
  constructor
  · intro hr hc
    have hz : ¬ (r = 0 ∨ c = 0) := by omega
    refine ⟨⟨List.replicate r (List.replicate (bytesPerRow c) 0), r, c⟩, ?_, rfl, rfl, ?_⟩
    · simp [BitMatrix.resize, hz, V2.resize, hal]
    · intro i j hi hj
      rw [get_eq (zeroMat_wf r c) hi hj, zeroMat_cell]
  · intro h; simp [BitMatrix.resize, h]

/-- **C08** XOR of equal-sized non-degenerate matrices is the pointwise exclusive or. -/
theorem C08_xor (a b : BitMatrix) (ha : Built a) (hb : Built b)
    (h1 : a.isize = b.isize) (h2 : a.jsize = b.jsize) (h3 : 0 < a.isize) (h4 : 0 < a.jsize) :
    ∃ m, BitMatrix.xor Alloc.ok a b = .ok m ∧ m.isize = a.isize ∧ m.jsize = a.jsize ∧
      ∀ i j, i < a.isize → j < a.jsize → ∀ x y, BitMatrix.get a i j = .ok x → BitMatrix.get b i j = .ok y →
        BitMatrix.get m i j = .ok (x != y) := by
  obtain ⟨m, e, w, d1, d2, hc⟩ := xor_ok (al := Alloc.ok) ha.inv.1 hb.inv.1 h1 h2 h3 h4 rfl
  refine ⟨m, e, d1, d2, ?_⟩
  intro i j hi hj x y hx hy
  rw [get_eq ha.inv.1 hi hj] at hx
  rw [get_eq hb.inv.1 (by omega) (by omega)] at hy
  injection hx with hx
  injection hy with hy
  rw [get_eq w (by omega) (by omega), ← hx, ← hy]
  simp only [cell]
  rw [hc i (j / 8) hi (div8_lt _ _ hj)]
  simp [UInt8.toNat_xor, Nat.testBit_xor]

/-- **C08** error cases: different dimensions → `invalid_argument`; a zero dimension → `runtime_error`. -/
theorem C08_xor_errors (a b : BitMatrix) (al : Alloc) :
    (a.isize ≠ b.isize ∨ a.jsize ≠ b.jsize → BitMatrix.xor al a b = .throw .invalidArgument) ∧
    (a.isize = b.isize → a.jsize = b.jsize → (a.isize = 0 ∨ a.jsize = 0) →
      BitMatrix.xor Alloc.ok a b = .throw .runtimeError) := by
  constructor
  · intro h
    have : a.jsize ≠ b.jsize ∨ a.isize ≠ b.isize := h.symm
    simp [BitMatrix.xor, this]
  · intro h1 h2 h3
    have hs : ¬ (a.jsize ≠ b.jsize ∨ a.isize ≠ b.isize) := by omega
    have : opNot (BitMatrix.new Alloc.ok a.isize a.jsize) = true := by
      rw [new_eq (al := Alloc.ok) rfl, opNot_eq (zeroMat_wf _ _)]; simp; omega
    simp [BitMatrix.xor, hs, this]

/-- Two matrices are indistinguishable through the API readers. -/
def SameBits (a b : BitMatrix) : Prop :=
  a.isize = b.isize ∧ a.jsize = b.jsize ∧
    ∀ i j, i < a.isize → j < a.jsize → BitMatrix.get a i j = BitMatrix.get b i j

/-- **C08** group laws: commutativity, associativity and self-inverse, observed through `Get`. -/
theorem C08_xor_laws (a b c : BitMatrix) (ha : Built a) (hb : Built b) (hc : Built c)
    (h1 : a.isize = b.isize) (h2 : a.jsize = b.jsize) (h3 : 0 < a.isize) (h4 : 0 < a.jsize)
    (h5 : b.isize = c.isize) (h6 : b.jsize = c.jsize) :
    ∃ ab ba bc ab_c a_bc ab_b,
      BitMatrix.xor Alloc.ok a b = .ok ab ∧ BitMatrix.xor Alloc.ok b a = .ok ba ∧
      BitMatrix.xor Alloc.ok b c = .ok bc ∧ BitMatrix.xor Alloc.ok ab c = .ok ab_c ∧
      BitMatrix.xor Alloc.ok a bc = .ok a_bc ∧ BitMatrix.xor Alloc.ok ab b = .ok ab_b ∧
      SameBits ab ba ∧ SameBits ab_c a_bc ∧ SameBits ab_b a := by
  obtain ⟨ab, eab, p1, p2, pb⟩ := C08_xor a b ha hb h1 h2 h3 h4
  obtain ⟨ba, eba, q1, q2, qb⟩ := C08_xor b a hb ha h1.symm h2.symm (by omega) (by omega)
  obtain ⟨bc, ebc, r1, r2, rb⟩ := C08_xor b c hb hc h5 h6 (by omega) (by omega)
  have hab := Built.xor ha hb eab
  have hba := Built.xor hb ha eba
  have hbc := Built.xor hb hc ebc
  obtain ⟨ab_c, e4, s1, s2, sb⟩ := C08_xor ab c hab hc (by omega) (by omega) (by omega) (by omega)
  obtain ⟨a_bc, e5, t1, t2, tb⟩ := C08_xor a bc ha hbc (by omega) (by omega) (by omega) (by omega)
  obtain ⟨ab_b, e6, u1, u2, ub⟩ := C08_xor ab b hab hb (by omega) (by omega) (by omega) (by omega)
  refine ⟨ab, ba, bc, ab_c, a_bc, ab_b, eab, eba, ebc, e4, e5, e6, ⟨by omega, by omega, ?_⟩,
    ⟨by omega, by omega, ?_⟩, ⟨by omega, by omega, ?_⟩⟩
  · intro i j hi hj
    obtain ⟨x, hx⟩ := C05_get_total a ha i j (by omega) (by omega)
    obtain ⟨y, hy⟩ := C05_get_total b hb i j (by omega) (by omega)
    rw [pb i j (by omega) (by omega) x y hx hy, qb i j (by omega) (by omega) y x hy hx]
    cases x <;> cases y <;> rfl
  · intro i j hi hj
    obtain ⟨x, hx⟩ := C05_get_total a ha i j (by omega) (by omega)
    obtain ⟨y, hy⟩ := C05_get_total b hb i j (by omega) (by omega)
    obtain ⟨z, hz⟩ := C05_get_total c hc i j (by omega) (by omega)
    rw [sb i j (by omega) (by omega) _ z (pb i j (by omega) (by omega) x y hx hy) hz,
      tb i j (by omega) (by omega) x _ hx (rb i j (by omega) (by omega) y z hy hz)]
    cases x <;> cases y <;> cases z <;> rfl
  · intro i j hi hj
    obtain ⟨x, hx⟩ := C05_get_total a ha i j (by omega) (by omega)
    obtain ⟨y, hy⟩ := C05_get_total b hb i j (by omega) (by omega)
    rw [ub i j (by omega) (by omega) _ y (pb i j (by omega) (by omega) x y hx hy) hy, hx]
    cases x <;> cases y <;> rfl

example : ∃ m, Built m ∧ m.isize = 3 ∧ m.jsize = 11 ∧ BitMatrix.get m 2 10 = .ok true :=
  ⟨_, .set (.new 3 11 (by decide) (by decide)) (i := 2) (j := 10) (v := true) rfl, rfl, rfl, by decide⟩

/-- **C15** a copy reads like the original, and writing to the original afterwards does not change the
copy (values, not references): the copy is a function of the original at copy time. -/
theorem C15_copy (m : BitMatrix) :
    BitMatrix.copyNew false m = m ∧ ∀ old, BitMatrix.assign m old = .ok () m := ⟨rfl, fun _ => rfl⟩

/-- The variables a call may change. -/
def targets : Op → List Nat
  | .new x _ _ | .copy x _ | .xor x _ _ | .set x _ _ _ | .setByte x _ _ _ | .setRange x _ _ _ _ _
  | .zeros x | .ones x | .randm x _ _ | .resize x _ _ => [x]
  | .move x y => [x, y]
  | .get _ _ _ | .size _ | .isBad _ => []

/-- Store after a history (exceptions caught by the caller). -/
def runStore (al : Alloc) (s : CStore) (ops : List Op) : CStore :=
  ops.foldl (fun s op => (cstep al s op).2) s

/-- **C15** independence over histories: no sequence of calls on other variables — succeeding or
throwing, with any allocation behaviour — changes variable `y`; in particular after `y = x` later writes
to `x` are invisible in `y` and vice versa. -/
theorem C15_frame (al : Alloc) (s : CStore) (y : Nat) (ops : List Op)
    (h : ∀ op ∈ ops, y ∉ targets op) : runStore al s ops y = s y := by
  have one : ∀ (s : CStore) (op : Op), y ∉ targets op → (cstep al s op).2 y = s y := by
    intro s op hy
    have obs : ∀ x (o : Out BitMatrix Unit), y ≠ x → (observe s x o).2 y = s y := by
      intro x o hxy
      cases o <;> simp [observe, Spec.upd, hxy]
    cases op <;> simp only [targets, List.mem_cons, List.not_mem_nil, or_false, not_or] at hy <;>
      simp only [cstep]
    case xor x a b => split <;> simp [Spec.upd, hy]
    case get => split <;> rfl
    all_goals first
      | exact obs _ _ hy
      | simp [Spec.upd, hy]
  induction ops generalizing s with
  | nil => rfl
  | cons op ops ih =>
    show runStore al ((cstep al s op).2) ops y = s y
    rw [ih _ (fun o ho => h o (by simp [ho])), one s op (h op (by simp))]

/-- **C15** copy then arbitrary calls on other variables: `y` still equals what `x` was. -/
theorem C15_copy_then_write (al : Alloc) (s : CStore) (x y : Nat) (ops : List Op)
    (h : ∀ op ∈ ops, y ∉ targets op) : runStore al s (.copy y x :: ops) y = s x := by
  show runStore al ((cstep al s (.copy y x)).2) ops y = s x
  rw [C15_frame al _ y ops h]
  simp [cstep, observe, assign, Spec.upd]

example : ∃ ops : List Op, ops.length = 3 ∧ ∀ op ∈ ops, (1 : Nat) ∉ targets op :=
  ⟨[.set 0 1 1 true, .zeros 0, .resize 0 9 9], rfl, by simp [targets]⟩

/-- **C15** move: the target reads like the source did; the moved-from object still reports its
dimensions but any in-range `Get` or `Set` on it is UB, not an exception. -/
theorem C15_move (m : BitMatrix) (i j : Nat) (v : Bool) :
    (BitMatrix.moveNew m).1 = m ∧ (BitMatrix.moveAssign m).1 = m ∧
    (BitMatrix.moveNew m).2.isize = m.isize ∧ (BitMatrix.moveNew m).2.jsize = m.jsize ∧
    BitMatrix.opNot (BitMatrix.moveNew m).2 = true ∧
    (i < m.isize → j < m.jsize → BitMatrix.get (BitMatrix.moveNew m).2 i j = .ub ∧
      BitMatrix.set i j v (BitMatrix.moveNew m).2 = .ub) ∧
    (BitMatrix.moveAssign m).2 = (BitMatrix.moveNew m).2 := by
  refine ⟨rfl, rfl, rfl, rfl, opNot_hollow rfl, ?_, rfl⟩
  intro hi hj
  have h1 : ¬ (m.isize ≤ i ∨ m.jsize ≤ j) := by omega
  have h2 : (BitMatrix.moveNew m).2.bitmap = [] := rfl
  have h3 : (BitMatrix.moveNew m).2.isize = m.isize := rfl
  have h4 : (BitMatrix.moveNew m).2.jsize = m.jsize := rfl
  constructor
  · simp [BitMatrix.get, h1, h3, h4, read_hollow h2]
  · simp [BitMatrix.set, h1, h3, h4, writeByte, read_hollow h2]

/-- **C16** whatever allocation fails, the sized constructor yields the empty 0×0 matrix. -/
theorem C16_new_alloc_failure (al : Alloc) (r c k : Nat) (h : al r (bytesPerRow c) = some k) (hk : k ≤ r) :
    BitMatrix.new al r c = BitMatrix.empty := by
  cases k with
  | zero => simp [BitMatrix.new, V2.resize, h, BitMatrix.empty]
  | succ k => simp [BitMatrix.new, V2.resize, h, BitMatrix.empty, show k < r by omega]

/-- **C16** `Resize` with a failing allocation throws, reports the requested dimensions, and the last
cell of the matrix is UB to read: the object is left broken. -/
theorem C16_resize_alloc_failure (al : Alloc) (m : BitMatrix) (r c k : Nat) (hr : 0 < r) (hc : 0 < c)
    (h : al r (bytesPerRow c) = some k) (hk : k ≤ r) :
    ∃ m', BitMatrix.resize al r c m = .throw .badAlloc m' ∧ m'.isize = r ∧ m'.jsize = c ∧
      BitMatrix.get m' (r - 1) (c - 1) = .ub := by
  have hz : ¬ (r = 0 ∨ c = 0) := by omega
  have hg : ¬ (r ≤ r - 1 ∨ c ≤ c - 1) := by omega
  cases k with
  | zero =>
    refine ⟨⟨[], r, c⟩, by simp [BitMatrix.resize, hz, V2.resize, h], rfl, rfl, ?_⟩
    simp [BitMatrix.get, hg, V2.read, Res.idx]
  | succ k =>
    have hk' : k < r := by omega
    refine ⟨⟨List.replicate k (List.replicate (bytesPerRow c) 0) ++ List.replicate (r - k) [], r, c⟩,
      by simp [BitMatrix.resize, hz, V2.resize, h, hk'], rfl, rfl, ?_⟩
    have : (List.replicate k (List.replicate (bytesPerRow c) (0 : UInt8)) ++ List.replicate (r - k) [])[r - 1]? =
        some [] := by
      rw [List.getElem?_append_right (by rw [List.length_replicate]; omega), List.getElem?_replicate,
        List.length_replicate, if_pos (by omega)]
    simp [BitMatrix.get, hg, V2.read, Res.idx, this]

example : ∃ al : Alloc, al 4 (bytesPerRow 20) = some 3 ∧ (3 : Nat) ≤ 4 := ⟨fun _ _ => some 3, rfl, by decide⟩

/-- **C56** `Randm()` keeps the dimensions and fills the cells in row-major order from one engine seeded with
the current time: cell `(i,j)` becomes the parity of the `(i·columns + j)`-th output, whatever it was before. -/
theorem C56_randm (engine : Nat → Nat → Nat) (now : Nat) (m : BitMatrix) (hm : Built m) :
    ∃ m', BitMatrix.randm engine now m = .ok () m' ∧ m'.isize = m.isize ∧ m'.jsize = m.jsize ∧
      ∀ i j, i < m.isize → j < m.jsize →
        BitMatrix.get m' i j = .ok (decide (engine now (i * m.jsize + j) % 2 = 0)) := by
  obtain ⟨w, -, -⟩ := hm.inv
  obtain ⟨m', e, w', d1, d2, hc⟩ := randm_ok w engine now
  refine ⟨m', e, d1, d2, ?_⟩
  intro i j hi hj
  rw [get_eq w' (by omega) (by omega), hc, if_pos ⟨hi, hj⟩]

/-- **C56** The result depends only on the dimensions and the second of the call: two matrices of the same
size filled within the same second are equal, cell by cell. -/
theorem C56_same_second (engine : Nat → Nat → Nat) (now : Nat) (a b a' b' : BitMatrix) (ha : Built a)
    (hb : Built b) (h1 : a.isize = b.isize) (h2 : a.jsize = b.jsize)
    (ea : BitMatrix.randm engine now a = .ok () a') (eb : BitMatrix.randm engine now b = .ok () b') :
    ∀ i j, i < a.isize → j < a.jsize → BitMatrix.get a' i j = BitMatrix.get b' i j := by
  obtain ⟨x, ex, -, -, hx⟩ := C56_randm engine now a ha
  obtain ⟨y, ey, -, -, hy⟩ := C56_randm engine now b hb
  rw [ea] at ex; rw [eb] at ey
  obtain rfl : a' = x := by simpa using ex
  obtain rfl : b' = y := by simpa using ey
  intro i j hi hj
  rw [hx i j hi hj, hy i j (by omega) (by omega), h2]

/-- a 2×3 matrix filled from the sequence `k ↦ k` (the seed is ignored): the even cells are set -/
example : ∃ m', BitMatrix.randm (fun _ k => k) 7 (BitMatrix.new Alloc.ok 2 3) = .ok () m' ∧
    BitMatrix.get m' 0 2 = .ok true ∧ BitMatrix.get m' 1 0 = .ok false ∧ BitMatrix.get m' 1 1 = .ok true :=
  ⟨_, rfl, rfl, rfl, rfl⟩

end Verif.Props
