import Verif.Props.Zond

/-! C86: the unchecked accesses `BitMatrix` offers to derived classes.  `Stored m i j`: the bitmap has a byte for the bit. -/

namespace Verif.Props
open Verif BitMatrix

/-- row `i` exists and bit `j` lies in one of the ⌈columns / 8⌉ bytes of a row -/
def Stored (m : BitMatrix) (i j : Nat) : Prop := i < m.isize ∧ j / 8 < (m.jsize + 7) / 8

/-- **C86** `UnsafeGet` gives what `Get` gives wherever `Get` gives something; in the unused bits of the last byte of a row it gives a value
although `Get` throws; everywhere else it is undefined. -/
theorem C86_get (m : BitMatrix) (hm : Built m) (i j : Nat) :
    (i < m.isize → j < m.jsize → BitMatrix.unsafeGet m i j = BitMatrix.get m i j ∧ ∃ b, BitMatrix.get m i j = .ok b) ∧
    (Stored m i j → m.jsize ≤ j → BitMatrix.get m i j = .throw .runtimeError ∧ ∃ b, BitMatrix.unsafeGet m i j = .ok b) ∧
    (¬ Stored m i j → BitMatrix.unsafeGet m i j = .ub) := by
  have w := hm.inv.1
  unfold Stored
  rw [← bytesPerRow_eq]
  refine ⟨fun hi hj => ?_, fun hs hj => ?_, fun hs => ?_⟩
  · have e := get_eq w hi hj
    exact ⟨(unsafeGet_eq w hi (div8_lt _ _ hj)).trans e.symm, _, e⟩
  · refine ⟨?_, _, unsafeGet_eq w hs.1 hs.2⟩
    unfold BitMatrix.get
    rw [if_pos (Or.inr hj)]
  · have hr : V2.read m.bitmap i (j / 8) = .ub := by
      by_cases hi : i < m.isize
      · exact read_ub_col w i (by omega)
      · exact read_ub_row w _ (by omega)
    unfold BitMatrix.unsafeGet
    rw [hr]
    rfl

/-- **C86** `UnsafeSet` does what `Set` does wherever `Set` does something; in the unused bits of the last byte of a row it succeeds and no cell
changes; everywhere else it is undefined. -/
theorem C86_set (m : BitMatrix) (hm : Built m) (i j : Nat) (v : Bool) :
    (i < m.isize → j < m.jsize → BitMatrix.unsafeSet i j v m = BitMatrix.set i j v m ∧ ∃ m', BitMatrix.set i j v m = .ok () m') ∧
    (Stored m i j → m.jsize ≤ j → BitMatrix.set i j v m = .throw .runtimeError m ∧
      ∃ m', BitMatrix.unsafeSet i j v m = .ok () m' ∧ Built m' ∧ m'.isize = m.isize ∧ m'.jsize = m.jsize ∧
        ∀ a b, BitMatrix.get m' a b = BitMatrix.get m a b) ∧
    (¬ Stored m i j → BitMatrix.unsafeSet i j v m = .ub) := by
  obtain ⟨w, s1, s2⟩ := hm.inv
  unfold Stored
  rw [← bytesPerRow_eq]
  refine ⟨fun hi hj => ?_, fun hs hj => ?_, fun hs => ?_⟩
  · obtain ⟨a, e1, w1, d1, d2, c1⟩ := set_ok w v hi hj
    obtain ⟨b, e2, w2, d3, d4, c2⟩ := unsafeSet_ok w v hi (div8_lt _ _ hj)
    refine ⟨?_, _, e1⟩
    rw [e1, e2]
    congr 1
    exact Zond.eq_of_cells w2 w1 (d3.trans d1.symm) (d4.trans d2.symm) fun x y => by rw [c1, c2]
  · obtain ⟨b, e2, w2, d3, d4, c2⟩ := unsafeSet_ok w v hs.1 hs.2
    refine ⟨?_, b, e2, Built.of_wf w2 (by omega) (by omega), d3, d4, fun x y => ?_⟩
    · unfold BitMatrix.set
      rw [if_pos (Or.inr hj)]
    · by_cases hb : x < m.isize ∧ y < m.jsize
      · rw [get_eq w2 (by omega) (by omega), get_eq w hb.1 hb.2, c2, if_neg (by omega)]
      · have h1 : m.isize ≤ x ∨ m.jsize ≤ y := by omega
        have h2 : b.isize ≤ x ∨ b.jsize ≤ y := by omega
        unfold BitMatrix.get
        rw [if_pos h1, if_pos h2]
  · exact unsafeSet_ub w v (by omega)

/-- **C86** `UnsafeSetByte(i, j, v)` gives the eight bits of byte `j` of row `i` — its cells and, in the last byte, the unused bits — the value
`v`, just as `SetByte` does with 0xFF or 0, and changes no other cell; where there is no such byte it is undefined. -/
theorem C86_set_byte (m : BitMatrix) (hm : Built m) (i jb : Nat) (v : Bool) :
    (i < m.isize → jb < (m.jsize + 7) / 8 →
      BitMatrix.unsafeSetByte i jb v m = BitMatrix.setByte i jb (if v then 255 else 0) m ∧
      ∃ m', BitMatrix.unsafeSetByte i jb v m = .ok () m' ∧ Built m' ∧ m'.isize = m.isize ∧ m'.jsize = m.jsize ∧
        (∀ a b, a < m.isize → b < m.jsize → BitMatrix.get m' a b = if a = i ∧ b / 8 = jb then .ok v else BitMatrix.get m a b) ∧
        ∀ b, b / 8 = jb → BitMatrix.unsafeGet m' i b = .ok v) ∧
    (¬ (i < m.isize ∧ jb < (m.jsize + 7) / 8) → BitMatrix.unsafeSetByte i jb v m = .ub) := by
  obtain ⟨w, s1, s2⟩ := hm.inv
  rw [← bytesPerRow_eq]
  have hf : ∀ b : UInt8, (fun _ : UInt8 => if v then (Res.ok 0xFF : Res UInt8) else .ok 0) b = .ok (if v then 255 else 0) := by
    intro b; cases v <;> rfl
  have hbit : ∀ k, k < 8 → (if v then (255 : UInt8) else 0).toNat.testBit k = v := by
    intro k hk
    cases v
    · simp
    · revert k; decide
  refine ⟨fun hi hj => ?_, fun hs => ?_⟩
  · obtain ⟨m', e, w', d1, d2, hb⟩ := writeByte_ok (f := fun _ => if v then .ok 0xFF else .ok 0) (b' := if v then 255 else 0) w hi hj (hf (byteAt m i jb))
    have hc : ∀ a b, cell m' a b = if a = i ∧ b / 8 = jb then v else cell m a b := by
      intro a b
      unfold cell
      rw [hb]
      by_cases h : a = i ∧ b / 8 = jb
      · rw [if_pos h, if_pos h, hbit _ (by omega)]
      · rw [if_neg h, if_neg h]
    have eu : BitMatrix.unsafeSetByte i jb v m = .ok () m' := e
    refine ⟨?_, m', eu, Built.of_wf w' (by omega) (by omega), d1, d2, fun a b ha hb' => ?_, fun b hb' => ?_⟩
    · have hr : ¬ V2.rowCount m.bitmap ≤ i := by
        unfold V2.rowCount
        rw [w.1]; omega
      unfold BitMatrix.setByte
      rw [if_neg hr, colCount_eq w (by omega)]
      dsimp only
      rw [if_neg (by omega)]
      unfold BitMatrix.unsafeSetByte
      congr 1
      funext b
      exact hf b
    · rw [get_eq w' (by omega) (by omega), get_eq w ha hb', hc]
      split <;> rfl
    · rw [unsafeGet_eq w' (by omega) (by rw [d2]; omega), hc, if_pos ⟨rfl, hb'⟩]
  · unfold BitMatrix.unsafeSetByte
    apply writeByte_ub
    by_cases hi : i < m.isize
    · exact read_ub_col w i (by omega)
    · exact read_ub_row w _ (by omega)

/-- 3 rows of 10 cells: bit 12 is stored but no cell; the last byte of a row can be set as a whole -/
example : Built (BitMatrix.new Alloc.ok 3 10) ∧ Stored (BitMatrix.new Alloc.ok 3 10) 2 12 ∧ (BitMatrix.new Alloc.ok 3 10).jsize ≤ 12 ∧
    ¬ Stored (BitMatrix.new Alloc.ok 3 10) 2 16 ∧
    ∃ m', BitMatrix.unsafeSetByte 1 1 true (BitMatrix.new Alloc.ok 3 10) = .ok () m' ∧ BitMatrix.get m' 1 9 = .ok true ∧
      BitMatrix.get m' 1 7 = .ok false ∧ BitMatrix.unsafeGet m' 1 15 = .ok true := by
  have hm : Built (BitMatrix.new Alloc.ok 3 10) := .new 3 10 (by norm_num) (by norm_num)
  refine ⟨hm, by unfold Stored; decide +kernel, by decide +kernel, by unfold Stored; decide +kernel, ?_⟩
  obtain ⟨m', e, _, _, _, h, u⟩ := ((C86_set_byte _ hm 1 1 true).1 (by decide +kernel) (by decide +kernel)).2
  exact ⟨m', e, h 1 9 (by decide +kernel) (by decide +kernel), (h 1 7 (by decide +kernel) (by decide +kernel)).trans (by decide +kernel), u 15 (by norm_num)⟩

end Verif.Props
