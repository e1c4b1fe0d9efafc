import Verif.Model.BitMatrix
import Verif.Proofs.ByteHandler

/-! Helper lemmas about the BitMatrix model: representation invariant and the bit abstraction. -/

namespace Verif.BitMatrix
open Verif.ByteHandler

/-- Representation invariant of a matrix with storage: `isize` rows of `bytesPerRow jsize` bytes. -/
def WF (m : BitMatrix) : Prop :=
  m.bitmap.length = m.isize ∧ ∀ row ∈ m.bitmap, row.length = bytesPerRow m.jsize

/-- byte `(i,jb)` of the storage (0 outside) -/
def byteAt (m : BitMatrix) (i jb : Nat) : UInt8 := (m.bitmap.getD i []).getD jb 0

/-- bit `(i,j)` of the storage, most significant bit first -/
def cell (m : BitMatrix) (i j : Nat) : Bool := (byteAt m i (j / 8)).toNat.testBit (7 - j % 8)

theorem bytesPerRow_eq (j : Nat) : bytesPerRow j = (j + 7) / 8 := by
  unfold bytesPerRow; split <;> omega

theorem div8_lt (j J : Nat) (h : j < J) : j / 8 < bytesPerRow J := by
  rw [bytesPerRow_eq]; omega

theorem ceil8_eq (n : Nat) : ceil8 n = (n + 7) / 8 := by
  unfold ceil8; split <;> omega

theorem WF.row_len {m : BitMatrix} (h : WF m) {i : Nat} (hi : i < m.isize) :
    ∃ row, m.bitmap[i]? = some row ∧ row.length = bytesPerRow m.jsize := by
  have hi' : i < m.bitmap.length := by rw [h.1]; exact hi
  exact ⟨m.bitmap[i], by simp [hi'], h.2 _ (List.getElem_mem hi')⟩

theorem read_ok {m : BitMatrix} (h : WF m) {i jb : Nat} (hi : i < m.isize)
    (hj : jb < bytesPerRow m.jsize) : V2.read m.bitmap i jb = .ok (byteAt m i jb) := by
  obtain ⟨row, h1, h2⟩ := h.row_len hi
  have hj' : jb < row.length := by rw [h2]; exact hj
  simp [V2.read, Res.idx, h1, byteAt, hj']

theorem read_ub_row {m : BitMatrix} (h : WF m) {i : Nat} (jb : Nat) (hi : m.isize ≤ i) :
    V2.read m.bitmap i jb = .ub := by
  have : m.bitmap.length ≤ i := by rw [h.1]; exact hi
  simp [V2.read, Res.idx, this]

theorem read_ub_col {m : BitMatrix} (h : WF m) (i : Nat) {jb : Nat} (hj : bytesPerRow m.jsize ≤ jb) :
    V2.read m.bitmap i jb = .ub := by
  by_cases hi : i < m.isize
  · obtain ⟨row, h1, h2⟩ := h.row_len hi
    have hj' : row.length ≤ jb := by rw [h2]; exact hj
    simp [V2.read, Res.idx, h1, hj']
  · exact read_ub_row h jb (by omega)

theorem writeByte_ok {m : BitMatrix} (h : WF m) {i jb : Nat} (hi : i < m.isize)
    (hj : jb < bytesPerRow m.jsize) {f : UInt8 → Res UInt8} {b' : UInt8}
    (hf : f (byteAt m i jb) = .ok b') :
    ∃ m', writeByte i jb f m = .ok () m' ∧ WF m' ∧ m'.isize = m.isize ∧ m'.jsize = m.jsize ∧
      ∀ i' j', byteAt m' i' j' = if i' = i ∧ j' = jb then b' else byteAt m i' j' := by
  obtain ⟨row, h1, h2⟩ := h.row_len hi
  have hj' : jb < row.length := by rw [h2]; exact hj
  have hil : i < m.bitmap.length := by rw [h.1]; exact hi
  refine ⟨{ m with bitmap := m.bitmap.set i (row.set jb b') }, ?_, ?_, rfl, rfl, ?_⟩
  · simp only [writeByte, read_ok h hi hj, hf, V2.write, h1, hj', if_true]
  · constructor
    · simp [h.1]
    · intro r hr
      rcases List.mem_or_eq_of_mem_set hr with hr | hr
      · exact h.2 r hr
      · simp [hr, h2]
  · intro i' j'
    simp only [byteAt, List.getD_eq_getElem?_getD, List.getElem?_set]
    by_cases e : i = i'
    · subst e
      simp only [if_true, hil, Option.getD_some, List.getElem?_set, true_and, h1]
      by_cases e2 : jb = j'
      · subst e2; simp [hj']
      · have : ¬ j' = jb := fun h => e2 h.symm
        simp [e2, this]
    · have : ¬ i' = i := fun h => e h.symm
      simp [e, this]

theorem writeByte_ub {i jb : Nat} {f : UInt8 → Res UInt8} {m : BitMatrix}
    (h : V2.read m.bitmap i jb = .ub) : writeByte i jb f m = .ub := by
  simp [writeByte, h]

theorem get_eq {m : BitMatrix} (h : WF m) {i j : Nat} (hi : i < m.isize) (hj : j < m.jsize) :
    get m i j = .ok (cell m i j) := by
  have h1 : ¬ (m.isize ≤ i ∨ m.jsize ≤ j) := by omega
  have e : 8 - 1 - j % 8 = 7 - j % 8 := by omega
  simp only [get, h1, if_false, read_ok h hi (div8_lt _ _ hj), Res.ok_bind, e]
  rw [getBit_eq _ _ (by omega)]; rfl

theorem unsafeGet_eq {m : BitMatrix} (h : WF m) {i j : Nat} (hi : i < m.isize)
    (hj : j / 8 < bytesPerRow m.jsize) :
    unsafeGet m i j = .ok (cell m i j) := by
  simp only [unsafeGet, read_ok h hi hj, Res.ok_bind]
  have e : 8 - 1 - j % 8 = 7 - j % 8 := by omega
  have := getBit_eq (byteAt m i (j / 8)) (7 - j % 8) (by omega)
  have h8 : ¬ 8 ≤ 7 - j % 8 := by omega
  simp only [getBit, h8, if_false] at this
  rw [e]
  simpa [cell] using this

/-- effect of a successful one-bit write -/
def BitSet (m m' : BitMatrix) (i j : Nat) (v : Bool) : Prop :=
  WF m' ∧ m'.isize = m.isize ∧ m'.jsize = m.jsize ∧
    ∀ i' j', cell m' i' j' = if i' = i ∧ j' = j then v else cell m i' j'

theorem writeBit_ok {m : BitMatrix} (h : WF m) {i j : Nat} (v : Bool) (hi : i < m.isize)
    (hj : j / 8 < bytesPerRow m.jsize) {f : UInt8 → Res UInt8}
    (hf : ∀ b, ∃ b', f b = .ok b' ∧
      ∀ k, k < 8 → b'.toNat.testBit k = if k = 7 - j % 8 then v else b.toNat.testBit k) :
    ∃ m', writeByte i (j / 8) f m = .ok () m' ∧ BitSet m m' i j v := by
  obtain ⟨b', hb', hk⟩ := hf (byteAt m i (j / 8))
  obtain ⟨m', h1, h2, h3, h4, h5⟩ := writeByte_ok h hi hj hb'
  refine ⟨m', h1, h2, h3, h4, ?_⟩
  intro i' j'
  simp only [cell, h5]
  by_cases e : i' = i ∧ j' / 8 = j / 8
  · rw [if_pos e, hk _ (by omega)]
    obtain ⟨e1, e2⟩ := e
    by_cases e3 : j' = j
    · simp [e1, e3]
    · have e4 : ¬ (7 - j' % 8 = 7 - j % 8) := by omega
      simp [e4, e3, e1, e2]
  · rw [if_neg e]
    have : ¬ (i' = i ∧ j' = j) := fun ⟨a, b⟩ => e ⟨a, by rw [b]⟩
    simp [this]

theorem unsafeSet_ok {m : BitMatrix} (h : WF m) {i j : Nat} (v : Bool) (hi : i < m.isize)
    (hj : j / 8 < bytesPerRow m.jsize) :
    ∃ m', unsafeSet i j v m = .ok () m' ∧ BitSet m m' i j v := by
  apply writeBit_ok h v hi hj
  intro b
  have e : 8 - 1 - j % 8 = 7 - j % 8 := by omega
  obtain ⟨b', h1, h2⟩ := setBit_ok b (7 - j % 8) v (by omega)
  refine ⟨b', ?_, h2⟩
  have h8 : ¬ 8 ≤ 7 - j % 8 := by omega
  rw [← h1]
  cases v <;> simp [setBit, h8]

theorem unsafeSet_ub {m : BitMatrix} (h : WF m) {i j : Nat} (v : Bool)
    (hb : m.isize ≤ i ∨ bytesPerRow m.jsize ≤ j / 8) : unsafeSet i j v m = .ub := by
  apply writeByte_ub
  rcases hb with hb | hb
  · exact read_ub_row h _ hb
  · exact read_ub_col h _ hb

theorem set_ok {m : BitMatrix} (h : WF m) {i j : Nat} (v : Bool) (hi : i < m.isize)
    (hj : j < m.jsize) :
    ∃ m', set i j v m = .ok () m' ∧ BitSet m m' i j v := by
  have h1 : ¬ (m.isize ≤ i ∨ m.jsize ≤ j) := by omega
  have e : 8 - 1 - j % 8 = 7 - j % 8 := by omega
  simp only [set, h1, if_false]
  apply writeBit_ok h v hi (div8_lt _ _ hj)
  intro b
  rw [e]
  exact setBit_ok b (7 - j % 8) v (by omega)

/-- dimensions and storage shape are kept, and exactly the bits in `P` become `v` -/
def Painted (m m' : BitMatrix) (P : Nat → Nat → Prop) [∀ i j, Decidable (P i j)] (v : Nat → Nat → Bool) :
    Prop :=
  WF m' ∧ m'.isize = m.isize ∧ m'.jsize = m.jsize ∧
    ∀ i j, cell m' i j = if P i j then v i j else cell m i j

/-- A row loop of one-bit writes over columns `[j0, j0+n)` of row `i`. -/
theorem paint_row {m : BitMatrix} (h : WF m) {i j0 n : Nat} (v : Nat → Nat → Bool)
    (body : Nat → M BitMatrix Unit)
    (hbody : ∀ j (t : BitMatrix), j0 ≤ j → j < j0 + n → WF t → t.isize = m.isize → t.jsize = m.jsize →
      ∃ t', body j t = .ok () t' ∧ BitSet t t' i j (v i j)) :
    ∃ m', M.loop j0 n body m = .ok () m' ∧
      Painted m m' (fun i' j' => i' = i ∧ j0 ≤ j' ∧ j' < j0 + n) v := by
  have := M.loop_inv (body := body)
    (fun k (t : BitMatrix) => Painted m t (fun i' j' => i' = i ∧ j0 ≤ j' ∧ j' < k) v) n j0 m
    ⟨h, rfl, rfl, by intro i' j'; rw [if_neg]; omega⟩
    (by
      intro k t hk1 hk2 ⟨w, d1, d2, hc⟩
      obtain ⟨t', ht', w', d1', d2', hc'⟩ := hbody k t hk1 hk2 w d1 d2
      refine ⟨t', ht', w', by rw [d1', d1], by rw [d2', d2], ?_⟩
      intro i' j'
      rw [hc', hc]
      by_cases e : i' = i ∧ j' = k
      · rw [if_pos e, if_pos ⟨e.1, by omega, by omega⟩]; simp [e.1, e.2]
      · rw [if_neg e]
        by_cases e2 : i' = i ∧ j0 ≤ j' ∧ j' < k
        · rw [if_pos e2, if_pos ⟨e2.1, e2.2.1, by omega⟩]
        · rw [if_neg e2, if_neg]
          intro ⟨a, b, c⟩
          apply e2
          refine ⟨a, b, ?_⟩
          have : j' ≠ k := fun h => e ⟨a, h⟩
          omega)
  exact this

/-- The double loop of one-bit writes over `[i0,i0+p) × [j0,j0+q)`. -/
theorem paint_rect {m : BitMatrix} (h : WF m) {i0 p j0 q : Nat} (v : Nat → Nat → Bool)
    (body : Nat → Nat → M BitMatrix Unit)
    (hbody : ∀ i j (t : BitMatrix), i0 ≤ i → i < i0 + p → j0 ≤ j → j < j0 + q → WF t →
      t.isize = m.isize → t.jsize = m.jsize →
      ∃ t', body i j t = .ok () t' ∧ BitSet t t' i j (v i j)) :
    ∃ m', M.loop i0 p (fun i => M.loop j0 q (body i)) m = .ok () m' ∧
      Painted m m' (fun i j => i0 ≤ i ∧ i < i0 + p ∧ j0 ≤ j ∧ j < j0 + q) v := by
  have := M.loop_inv (body := fun i => M.loop j0 q (body i))
    (fun k (t : BitMatrix) => Painted m t (fun i j => i0 ≤ i ∧ i < k ∧ j0 ≤ j ∧ j < j0 + q) v) p i0 m
    ⟨h, rfl, rfl, by intro i' j'; rw [if_neg]; omega⟩
    (by
      intro k t hk1 hk2 ⟨w, d1, d2, hc⟩
      obtain ⟨t', ht', w', d1', d2', hc'⟩ := paint_row (i := k) w v (body k)
        (fun j u hj1 hj2 wu e1 e2 => hbody k j u hk1 hk2 hj1 hj2 wu (e1.trans d1) (e2.trans d2))
      refine ⟨t', ht', w', by rw [d1', d1], by rw [d2', d2], ?_⟩
      intro i' j'
      rw [hc', hc]
      by_cases e : i' = k ∧ j0 ≤ j' ∧ j' < j0 + q
      · rw [if_pos e, if_pos ⟨by omega, by omega, e.2⟩]
      · rw [if_neg e]
        by_cases e2 : i0 ≤ i' ∧ i' < k ∧ j0 ≤ j' ∧ j' < j0 + q
        · rw [if_pos e2, if_pos ⟨e2.1, by omega, e2.2.2⟩]
        · rw [if_neg e2, if_neg]
          omega)
  exact this

theorem setRange_ok {m : BitMatrix} (h : WF m) {i0 j0 i1 j1 : Nat} (v : Bool)
    (hi : i0 ≤ i1) (hi1 : i1 < m.isize) (hj : j0 ≤ j1) (hj0 : j1 ≤ m.jsize)
    (hj1 : j1 / 8 < bytesPerRow m.jsize) :
    ∃ m', setRange i0 j0 i1 j1 v m = .ok () m' ∧
      Painted m m' (fun i j => i0 ≤ i ∧ i ≤ i1 ∧ j0 ≤ j ∧ j ≤ j1) (fun _ _ => v) := by
  have h1 : ¬ (i1 < i0 ∨ m.isize < i1) := by omega
  have h2 : ¬ (j1 < j0 ∨ m.jsize < j1) := by omega
  simp only [setRange, h1, h2, if_false]
  obtain ⟨m', hm', w, d1, d2, hc⟩ := paint_rect (i0 := i0) (p := i1 + 1 - i0) (j0 := j0) (q := j1 + 1 - j0) h
    (fun _ _ => v) (fun i j => unsafeSet i j v)
    (by
      intro i j t a1 a2 b1 b2 w e1 e2
      apply unsafeSet_ok w
      · omega
      · rw [e2]; exact Nat.lt_of_le_of_lt (Nat.div_le_div_right (by omega)) hj1)
  refine ⟨m', hm', w, d1, d2, ?_⟩
  intro i j
  rw [hc]
  by_cases e : i0 ≤ i ∧ i ≤ i1 ∧ j0 ≤ j ∧ j ≤ j1
  · rw [if_pos e, if_pos (by omega)]
  · rw [if_neg e, if_neg (by omega)]

/-- A loop whose iterations keep an invariant until one with index `k` (inside the range) is UB. -/
theorem loop_ub {σ : Type} {body : Nat → M σ Unit} (Inv : σ → Prop) (k : Nat)
    (hub : ∀ t, Inv t → body k t = .ub) :
    ∀ (n start : Nat) (s : σ), start ≤ k → k < start + n → Inv s →
      (∀ i t, start ≤ i → i < k → Inv t → ∃ t', body i t = .ok () t' ∧ Inv t') →
      M.loop start n body s = .ub := by
  intro n
  induction n with
  | zero => intro start s h1 h2; omega
  | succ n ih =>
    intro start s h1 h2 hs step
    by_cases e : start = k
    · subst e
      simp only [M.loop]; rw [M.run_bind_ub (hub s hs)]
    · obtain ⟨t, ht, hi⟩ := step start s (Nat.le_refl _) (by omega) hs
      simp only [M.loop]; rw [M.run_bind_ok ht]
      exact ih (start + 1) t (by omega) (by omega) hi (fun i u a b => step i u (by omega) b)

theorem setRange_ub {m : BitMatrix} (h : WF m) {i0 j0 i1 j1 : Nat} (v : Bool)
    (hi : i0 ≤ i1) (hj : j0 ≤ j1) (hi1 : i1 ≤ m.isize) (hj0 : j1 ≤ m.jsize)
    (hb : i1 = m.isize ∨ bytesPerRow m.jsize ≤ j1 / 8) :
    setRange i0 j0 i1 j1 v m = .ub := by
  have h1 : ¬ (i1 < i0 ∨ m.isize < i1) := by omega
  have h2 : ¬ (j1 < j0 ∨ m.jsize < j1) := by omega
  simp only [setRange, h1, h2, if_false]
  let Inv : BitMatrix → Prop := fun t => WF t ∧ t.isize = m.isize ∧ t.jsize = m.jsize
  by_cases hc : bytesPerRow m.jsize ≤ j1 / 8
  · -- the first row already runs off the end
    apply loop_ub Inv i0 _ _ _ _ (Nat.le_refl _) (by omega) ⟨h, rfl, rfl⟩
    · intro i t a b; omega
    · intro t ⟨w, e1, e2⟩
      -- the first offending column is the start of the byte after the row
      let k := max j0 (8 * bytesPerRow m.jsize)
      have hk8 : bytesPerRow m.jsize ≤ k / 8 := by
        have : 8 * bytesPerRow m.jsize ≤ k := Nat.le_max_right _ _
        omega
      have hkj : k ≤ j1 := by
        apply Nat.max_le.mpr; constructor
        · exact hj
        · omega
      by_cases hrow : i0 < m.isize
      · apply loop_ub Inv k _ _ _ _ (Nat.le_max_left _ _) (by omega) ⟨w, e1, e2⟩
        · intro j u a b ⟨wu, f1, f2⟩
          have : j / 8 < bytesPerRow u.jsize := by
            rw [f2]
            have : j < 8 * bytesPerRow m.jsize := by
              rcases Nat.le_total j0 (8 * bytesPerRow m.jsize) with hh | hh
              · have : k = 8 * bytesPerRow m.jsize := Nat.max_eq_right hh
                omega
              · have : k = j0 := Nat.max_eq_left hh
                omega
            omega
          obtain ⟨u', hu, q1, q2, q3, _⟩ := unsafeSet_ok wu v (show i0 < u.isize by omega) this
          exact ⟨u', hu, q1, q2.trans f1, q3.trans f2⟩
        · intro u ⟨wu, f1, f2⟩
          exact unsafeSet_ub wu v (Or.inr (by rw [f2]; exact hk8))
      · apply loop_ub Inv j0 _ _ _ _ (Nat.le_refl _) (by omega) ⟨w, e1, e2⟩
        · intro j u a b; omega
        · intro u ⟨wu, f1, f2⟩
          exact unsafeSet_ub wu v (Or.inl (by omega))
  · have hi1e : i1 = m.isize := by
      rcases hb with hb | hb
      · exact hb
      · exact absurd hb hc
    have hc' : j1 / 8 < bytesPerRow m.jsize := by omega
    apply loop_ub Inv m.isize _ _ _ _ (by omega) (by omega) ⟨h, rfl, rfl⟩
    · intro i t a b ⟨w, e1, e2⟩
      obtain ⟨t', ht', q1, q2, q3, _⟩ := paint_row (i := i) (j0 := j0) (n := j1 + 1 - j0) w (fun _ _ => v)
        (fun j => unsafeSet i j v)
        (fun j u c1 c2 wu f1 f2 => unsafeSet_ok wu v (by omega) (by
          rw [f2, e2]; exact Nat.lt_of_le_of_lt (Nat.div_le_div_right (by omega)) hc'))
      exact ⟨t', ht', q1, q2.trans e1, q3.trans e2⟩
    · intro t ⟨w, e1, e2⟩
      apply loop_ub Inv j0 _ _ _ _ (Nat.le_refl _) (by omega) ⟨w, e1, e2⟩
      · intro j u a b; omega
      · intro u ⟨wu, f1, f2⟩
        exact unsafeSet_ub wu v (Or.inl (by omega))

end Verif.BitMatrix
